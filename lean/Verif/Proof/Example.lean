import Verif.Spec.WellFormed
import Verif.Proof.Basic
import Mathlib.Data.Rat.Floor
import Mathlib.Tactic.IntervalCases
import Verif.Model.SoilDynamics

/-! # A concrete state used to show that hypotheses can be met

A 5 × 5 grid of unit cells with two body layers, soil on the body and uneven terrain. -/

namespace Soil

/-- the grid of the example -/
def exGrid : Grid ℚ :=
  { halfX := 2, halfY := 2, halfZ := 4, cellXY := 1, cellZ := 1, cellArea := 1, cellVolume := 1,
    vectX := fun i => -2 + i, vectY := fun i => -2 + i, vectZ := fun i => -3 + i }

/-- first layer over (2,2) and (2,3), second layer over (2,3) -/
def exBodyHeight (k : ℕ) (i j : ℤ) : ℚ :=
  match k with
  | 0 => if i = 2 ∧ (j = 2 ∨ j = 3) then 1 else 0
  | 1 => if i = 2 ∧ (j = 2 ∨ j = 3) then 2 else 0
  | 2 => if i = 2 ∧ j = 3 then 4 else 0
  | 3 => if i = 2 ∧ j = 3 then 5 else 0
  | _ => 0

/-- three cells of soil on the first layer of (2,2) -/
def exSoil (k : ℕ) (i j : ℤ) : ℚ :=
  match k with
  | 0 => if i = 2 ∧ j = 2 then 2 else 0
  | 1 => if i = 2 ∧ j = 2 then 5 else 0
  | _ => 0

/-- the state of the example -/
def exState : SimOut ℚ :=
  { lenX := 5, lenY := 5, equilibrium := false
    terrain := fun i j => if i = 1 ∧ j = 1 then 4 else if i = 3 ∧ j = 3 then -2 else 0
    body := exBodyHeight
    bodySoil := exSoil
    bodySoilPos := [⟨0, 2, 2, 0, 0, 0, 2⟩, ⟨0, 2, 2, 0, 0, 0, 1⟩]
    bodyArea := ⟨1, 4, 1, 4⟩, relaxArea := ⟨1, 4, 1, 4⟩, impactArea := ⟨1, 4, 1, 4⟩ }

/-- a bucket -/
def exBody : Body ℚ :=
  ⟨.bucket, ⟨0, 0, 0⟩, ⟨0, 0, -1⟩, ⟨1, 0, -1⟩, 1, ⟨0, 0, 0⟩, ⟨1, 0, 0, 0⟩⟩

/-- parameters -/
def exParam : SimParam ℚ := ⟨0, 3, 4⟩

/-- the state with a random stream and no warnings -/
def exWorld : World ℚ := ⟨exState, fun n => 3 * n + 1, []⟩

theorem exTol : 0 < (1 / 100 : ℚ) ∧ 2 * (1 / 100 : ℚ) < exGrid.cellZ := by
  constructor <;> norm_num [exGrid]

theorem al_int (z : ℤ) : Al (1 : ℚ) (z : ℚ) := ⟨z, by simp⟩

theorem al_of_den {x : ℚ} (h : x.den = 1) : Al (1 : ℚ) x :=
  ⟨x.num, by rw [mul_one]; exact (Rat.coe_int_num_of_den_eq_one h).symm⟩

instance (s : SimOut ℚ) (k : ℕ) (i j : ℤ) : Decidable (HasBody s k i j) := by
  unfold HasBody; infer_instance
instance (s : SimOut ℚ) (k : ℕ) (i j : ℤ) : Decidable (HasSoil s k i j) := by
  unfold HasSoil; infer_instance
instance (s : SimOut ℚ) (i j : ℤ) : Decidable (OnBorder s i j) := by
  unfold OnBorder; infer_instance

theorem inGridMem {s : SimOut ℚ} {i j : ℤ} (h : s.InGrid i j) :
    i ∈ Finset.Ico 0 s.lenX ∧ j ∈ Finset.Ico 0 s.lenY := by
  simp only [Finset.mem_Ico]
  exact ⟨⟨h.1, h.2.1⟩, h.2.2⟩

/-- the conditions as a finite check, for unit cells and four height arrays -/
def WFCheck (s : SimOut ℚ) : Prop :=
  (∀ i ∈ Finset.Ico 0 s.lenX, ∀ j ∈ Finset.Ico 0 s.lenY, (s.terrain i j).den = 1 ∧
    (∀ k ∈ [0, 1, 2, 3], (s.body k i j).den = 1 ∧ (s.bodySoil k i j).den = 1) ∧
    (HasBody s 0 i j → HasBody s 2 i j →
      s.body 1 i j < s.body 2 i j ∨ s.body 3 i j < s.body 0 i j) ∧
    (∀ k ∈ [0, 2], (HasBody s k i j → s.body k i j < s.body (k + 1) i j ∧ ¬ OnBorder s i j ∧
        s.terrain i j ≤ s.body k i j) ∧
      layerSoil s k i j = entrySum s.bodySoilPos k i j ∧
      (HasSoil s k i j → HasBody s k i j ∧ s.bodySoil k i j = s.body (k + 1) i j ∧
        s.bodySoil k i j ≤ s.bodySoil (k + 1) i j ∧
        (∃ e ∈ s.bodySoilPos, e.ind = k ∧ e.ii = i ∧ e.jj = j) ∧
        (HasBody s (otherLayer k) i j → s.body k i j < s.body (otherLayer k) i j →
          s.bodySoil (k + 1) i j ≤ s.body (otherLayer k) i j)))) ∧
  (∀ e ∈ s.bodySoilPos, s.InGrid e.ii e.jj ∧ (e.ind = 0 ∨ e.ind = 2) ∧ e.h.den = 1 ∧ 0 ≤ e.h)

instance (s : SimOut ℚ) : Decidable (WFCheck s) := by
  unfold WFCheck; infer_instance

theorem WFCheck.wf {s : SimOut ℚ} (h : WFCheck s)
    (h4 : ∀ k i j, 4 ≤ k → s.body k i j = 0 ∧ s.bodySoil k i j = 0) : WellFormed 1 s := by
  obtain ⟨h1, h2⟩ := h
  have hk : ∀ {k}, k = 0 ∨ k = 2 → k ∈ [0, 2] := by intro k hk; simpa using hk
  refine ⟨⟨?_, ?_, ?_, ?_⟩, ⟨?_, ?_, ?_, ?_, ?_, ?_, ?_, ?_⟩, ?_, ?_⟩
  · intro k i j hij
    by_cases h : k < 4
    · exact al_of_den ((h1 i (inGridMem hij).1 j (inGridMem hij).2).2.1 k (by
        simp only [List.mem_cons, List.not_mem_nil, or_false]; omega)).1
    · rw [(h4 k i j (by omega)).1]; exact ⟨0, by simp⟩
  · intro k i j hij hk' hb
    exact (((h1 i (inGridMem hij).1 j (inGridMem hij).2).2.2.2 k (hk hk')).1 hb).1
  · intro i j hij
    exact (h1 i (inGridMem hij).1 j (inGridMem hij).2).2.2.1
  · intro k i j hij hbo hk' hb
    exact (((h1 i (inGridMem hij).1 j (inGridMem hij).2).2.2.2 k (hk hk')).1 hb).2.1 hbo
  · intro i j hij
    exact al_of_den (h1 i (inGridMem hij).1 j (inGridMem hij).2).1
  · intro k i j hij
    by_cases h : k < 4
    · exact al_of_den ((h1 i (inGridMem hij).1 j (inGridMem hij).2).2.1 k (by
        simp only [List.mem_cons, List.not_mem_nil, or_false]; omega)).2
    · rw [(h4 k i j (by omega)).2]; exact ⟨0, by simp⟩
  · intro k i j hij hk' hs
    have := ((h1 i (inGridMem hij).1 j (inGridMem hij).2).2.2.2 k (hk hk')).2.2 hs
    exact ⟨this.1, this.2.1, this.2.2.1⟩
  · intro e he
    exact ⟨(h2 e he).1, (h2 e he).2.1⟩
  · intro e he
    exact al_of_den (h2 e he).2.2.1
  · intro e he
    exact (h2 e he).2.2.2
  · intro i j hij k hk'
    exact ((h1 i (inGridMem hij).1 j (inGridMem hij).2).2.2.2 k (hk hk')).2.1
  · intro k i j hij hk' hs
    exact (((h1 i (inGridMem hij).1 j (inGridMem hij).2).2.2.2 k (hk hk')).2.2 hs).2.2.2.1
  · intro k i j hij hk' hb
    exact (((h1 i (inGridMem hij).1 j (inGridMem hij).2).2.2.2 k (hk hk')).1 hb).2.2
  · intro k i j hij hk' hs
    exact (((h1 i (inGridMem hij).1 j (inGridMem hij).2).2.2.2 k (hk hk')).2.2 hs).2.2.2.2

theorem exState_wf : WellFormed 1 exState := by
  refine WFCheck.wf (by decide +kernel) ?_
  intro k i j hk
  match k, hk with
  | k + 4, _ => exact ⟨rfl, rfl⟩

/-- the conditions on body and body soil alone as a finite check -/
def BSCheck (s : SimOut ℚ) : Prop :=
  (∀ i ∈ Finset.Ico 0 s.lenX, ∀ j ∈ Finset.Ico 0 s.lenY, (s.terrain i j).den = 1 ∧
    (∀ k ∈ [0, 1, 2, 3], (s.body k i j).den = 1 ∧ (s.bodySoil k i j).den = 1) ∧
    (HasBody s 0 i j → HasBody s 2 i j →
      s.body 1 i j < s.body 2 i j ∨ s.body 3 i j < s.body 0 i j) ∧
    (∀ k ∈ [0, 2], (HasBody s k i j → s.body k i j < s.body (k + 1) i j ∧ ¬ OnBorder s i j) ∧
      layerSoil s k i j = entrySum s.bodySoilPos k i j ∧
      (HasSoil s k i j → HasBody s k i j ∧ s.bodySoil k i j = s.body (k + 1) i j ∧
        s.bodySoil k i j ≤ s.bodySoil (k + 1) i j ∧
        (∃ e ∈ s.bodySoilPos, e.ind = k ∧ e.ii = i ∧ e.jj = j)))) ∧
  (∀ e ∈ s.bodySoilPos, s.InGrid e.ii e.jj ∧ (e.ind = 0 ∨ e.ind = 2) ∧ e.h.den = 1 ∧ 0 ≤ e.h)

instance (s : SimOut ℚ) : Decidable (BSCheck s) := by
  unfold BSCheck; infer_instance

theorem BSCheck.ok {s : SimOut ℚ} (h : BSCheck s)
    (h4 : ∀ k i j, 4 ≤ k → s.body k i j = 0 ∧ s.bodySoil k i j = 0) :
    BodyOK 1 s ∧ SoilOK 1 s := by
  obtain ⟨h1, h2⟩ := h
  have hk : ∀ {k}, k = 0 ∨ k = 2 → k ∈ [0, 2] := by intro k hk; simpa using hk
  refine ⟨⟨?_, ?_, ?_, ?_⟩, ⟨?_, ?_, ?_, ?_, ?_, ?_, ?_, ?_⟩⟩
  · intro k i j hij
    by_cases h : k < 4
    · exact al_of_den ((h1 i (inGridMem hij).1 j (inGridMem hij).2).2.1 k (by
        simp only [List.mem_cons, List.not_mem_nil, or_false]; omega)).1
    · rw [(h4 k i j (by omega)).1]; exact ⟨0, by simp⟩
  · intro k i j hij hk' hb
    exact (((h1 i (inGridMem hij).1 j (inGridMem hij).2).2.2.2 k (hk hk')).1 hb).1
  · intro i j hij
    exact (h1 i (inGridMem hij).1 j (inGridMem hij).2).2.2.1
  · intro k i j hij hbo hk' hb
    exact (((h1 i (inGridMem hij).1 j (inGridMem hij).2).2.2.2 k (hk hk')).1 hb).2 hbo
  · intro i j hij
    exact al_of_den (h1 i (inGridMem hij).1 j (inGridMem hij).2).1
  · intro k i j hij
    by_cases h : k < 4
    · exact al_of_den ((h1 i (inGridMem hij).1 j (inGridMem hij).2).2.1 k (by
        simp only [List.mem_cons, List.not_mem_nil, or_false]; omega)).2
    · rw [(h4 k i j (by omega)).2]; exact ⟨0, by simp⟩
  · intro k i j hij hk' hs
    have := ((h1 i (inGridMem hij).1 j (inGridMem hij).2).2.2.2 k (hk hk')).2.2 hs
    exact ⟨this.1, this.2.1, this.2.2.1⟩
  · intro e he
    exact ⟨(h2 e he).1, (h2 e he).2.1⟩
  · intro e he
    exact al_of_den (h2 e he).2.2.1
  · intro e he
    exact (h2 e he).2.2.2
  · intro i j hij k hk'
    exact ((h1 i (inGridMem hij).1 j (inGridMem hij).2).2.2.2 k (hk hk')).2.1
  · intro k i j hij hk' hs
    exact (((h1 i (inGridMem hij).1 j (inGridMem hij).2).2.2.2 k (hk hk')).2.2 hs).2.2.2

/-- soil on the first layer of (2,3) reaching two cells into the second layer -/
def exSoil2 (k : ℕ) (i j : ℤ) : ℚ :=
  match k with
  | 0 => if i = 2 ∧ j = 3 then 2 else 0
  | 1 => if i = 2 ∧ j = 3 then 6 else 0
  | _ => 0

/-- a state in which terrain and body soil intersect the body -/
def exState2 : SimOut ℚ :=
  { exState with
    terrain := fun i j => if i = 2 ∧ j = 2 then 3 else 0
    bodySoil := exSoil2
    bodySoilPos := [⟨0, 2, 3, 0, 0, 0, 1⟩, ⟨0, 2, 3, 0, 0, 0, 3⟩] }

/-- the state with a random stream and no warnings -/
def exWorld2 : World ℚ := ⟨exState2, fun n => 3 * n + 1, []⟩

theorem exState2_ok : BodyOK 1 exState2 ∧ SoilOK 1 exState2 := by
  refine BSCheck.ok (by decide +kernel) ?_
  intro k i j hk
  match k, hk with
  | k + 4, _ => exact ⟨rfl, rfl⟩

/-- the terrain relaxation of the example runs and lowers the column (1,1) -/
theorem exTerrain_runs : ∃ w', relaxTerrain exGrid exBody exParam (1 / 100) exWorld = .ok w' ∧
    w'.out.terrain 1 1 < 4 := by
  have h : (match relaxTerrain exGrid exBody exParam (1 / 100) exWorld with
    | .ok w' => decide (w'.out.terrain 1 1 < 4)
    | .error _ => false) = true := by decide +kernel
  revert h
  generalize relaxTerrain exGrid exBody exParam (1 / 100) exWorld = r
  intro h
  match r, h with
  | .ok w', h => exact ⟨w', rfl, by simpa using h⟩

/-- the body-soil relaxation of the example runs and lowers the soil on (2,2) -/
theorem exBodySoil_runs : ∃ w', relaxBodySoil exGrid exBody exParam (1 / 100) exWorld = .ok w' ∧
    w'.out.bodySoil 1 2 2 < 5 := by
  have h : (match relaxBodySoil exGrid exBody exParam (1 / 100) exWorld with
    | .ok w' => decide (w'.out.bodySoil 1 2 2 < 5)
    | .error _ => false) = true := by decide +kernel
  revert h
  generalize relaxBodySoil exGrid exBody exParam (1 / 100) exWorld = r
  intro h
  match r, h with
  | .ok w', h => exact ⟨w', rfl, by simpa using h⟩

end Soil
