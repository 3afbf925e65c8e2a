import Verif.Model.Example
import Verif.Props.Margin

/-! # The simulation loop of the example program -/

set_option linter.unusedSectionVars false

namespace Soil

section AnyArith
variable {F : Type} [FOps F]

/-- Steps that return do so for every beginning of the history. -/
theorem run_take {fuel : ℕ} {g : Grid F} {p : SimParam F} {tol : F} {l : List (Vec3 F × Quat F)}
    {body : Body F} {w : World F} {r : Body F × World F} (h : run fuel g p tol l body w = .ok r) (k : ℕ) :
    ∃ r', run fuel g p tol (l.take k) body w = .ok r' ∧ run fuel g p tol (l.drop k) r'.1 r'.2 = .ok r := by
  rw [← List.take_append_drop k l, run_append] at h
  cases h1 : run fuel g p tol (l.take k) body w with
  | error e => rw [h1] at h; cases h
  | ok r' =>
    rw [h1] at h
    exact ⟨r', rfl, h⟩

/-- The simulation loop makes the steps of the history and checks the state after each. -/
theorem simulate_of_run {fuel : ℕ} {g : Grid F} {p : SimParam F} {tol : F} {vol : ℤ} {r : Body F × World F} :
    ∀ (l : List (Vec3 F × Quat F)) (body : Body F) (w : World F), run fuel g p tol l body w = .ok r →
    (∀ k < l.length, ∀ r', run fuel g p tol (l.take (k + 1)) body w = .ok r' →
      ∃ c, check r'.2.out vol g tol = .ok c) →
    ∃ cs, simulate fuel g p tol vol l body w = .ok (cs, r) ∧ cs.length = l.length ∧
      ∀ k (hk : k < cs.length), ∃ r', run fuel g p tol (l.take (k + 1)) body w = .ok r' ∧
        check r'.2.out vol g tol = .ok cs[k] := by
  intro l
  induction l with
  | nil =>
    intro body w h _
    cases h
    exact ⟨[], rfl, rfl, fun k hk => absurd hk (by simp)⟩
  | cons q l ih =>
    obtain ⟨pos, ori⟩ := q
    intro body w h hc
    simp only [run] at h
    obtain ⟨s, hs, hr⟩ := bind_eq_ok.mp h
    have h1 : run fuel g p tol ([(pos, ori)]) body w = .ok (s.body, s.world) := by
      simp only [run]; rw [hs]; rfl
    have hcons : ∀ m, run fuel g p tol ((pos, ori) :: m) body w = run fuel g p tol m s.body s.world := by
      intro m; simp only [run]; rw [hs]; rfl
    obtain ⟨c, hc0⟩ := hc 0 (by simp) _ (by simpa using h1)
    obtain ⟨cs, e1, e2, e3⟩ := ih s.body s.world hr fun k hk r' hr' =>
      hc (k + 1) (by simpa using hk) r' (by rw [List.take_succ_cons, hcons]; exact hr')
    refine ⟨c :: cs, ?_, by simp [e2], ?_⟩
    · simp only [simulate]
      rw [hs, ok_bind, hc0, ok_bind, e1]; rfl
    · intro k hk
      cases k with
      | zero => exact ⟨_, by simpa using h1, hc0⟩
      | succ k =>
        obtain ⟨r', a, b⟩ := e3 k (by simpa using hk)
        exact ⟨r', by rw [List.take_succ_cons, hcons]; exact a, by simpa using b⟩

/-- Reading elements one by one -/
theorem mapM_nodeAt {α : Type} (l : List α) : ∀ n, n ≤ l.length →
    (List.range n).mapM (fun ii : ℕ => nodeAt l (ii : ℤ)) = .ok (l.take n) := by
  intro n
  induction n with
  | zero => intro _; rfl
  | succ n ih =>
    intro hn
    have hg : nodeAt l (n : ℤ) = .ok (l[n]'(by omega)) := by
      unfold nodeAt
      rw [if_pos (by positivity)]
      simp [List.getElem?_eq_getElem (show n < l.length by omega)]
    rw [List.range_succ, List.mapM_append, ih (by omega), List.mapM_cons, hg, List.mapM_nil]
    rw [← List.take_append_getElem (show n < l.length by omega)]
    rfl

end AnyArith

section Exact
variable {K : Type} [Field K] [LinearOrder K] [FloorRing K] [Transc K] [IsStrictOrderedRing K]

/-- Before the first step all the soil is terrain. -/
theorem terrainVolume_start {g : Grid K} {s : SimOut K} (h : Start g s) :
    terrainVolume s g = .ok (totalCells s g.cellZ) := by
  rw [terrainVolume_eq]
  refine congrArg Except.ok (Finset.sum_congr rfl fun p _ => ?_)
  rw [columnCells_eq]
  simp [layerSoil, h.bodySoil]

end Exact

end Soil
