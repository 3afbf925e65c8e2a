import Verif.Proof.Active
import Verif.Proof.Example
import Verif.Props.Equilibrium

/-! # Property C34: the next active area -/

set_option linter.unusedSectionVars false
set_option linter.unusedSimpArgs false

namespace Soil

section Exact

variable {K : Type} [Field K] [LinearOrder K] [FloorRing K] [Transc K] [IsStrictOrderedRing K]

/-- **C34**, for the columns whose two indices are at least two. After terrain relaxation, such an
interior column that is unstable is in the new relaxation area, or it was already unstable and
outside the area that was examined. The state may contain a body and body soil.

Missing: interior columns with an index equal to one. The claim fails there (`C34_lost`), since
`RelaxTerrain` clamps the lower side of the new area to two. -/
theorem C34_partial (g : Grid K) (body : Body K) (p : SimParam K) (tol : K) (ht : 0 < tol)
    (ht' : 2 * tol < g.cellZ) (hbuf : 2 ≤ p.cellBuffer) (w w' : World K)
    (hw : WellFormed g.cellZ w.out) (h : relaxTerrain g body p tol w = .ok w') (i j : ℤ)
    (hi : 2 ≤ i ∧ i < 2 * g.halfX) (hj : 2 ≤ j ∧ j < 2 * g.halfY) :
    let dh := g.cellZ * (roundAway (g.cellXY * Transc.tan p.reposeAngle / g.cellZ) : K)
    Unstable w'.out dh tol i j →
      w'.out.relaxArea.Has i j ∨ (Unstable w.out dh tol i j ∧ ¬ w.out.impactArea.Has i j) := by
  intro dh
  have hdh : dhMax g p = dh := by
    unfold dhMax
    simp only [ex_mul, ex_round, ex_div, ex_tan]
    rfl
  have := (relaxTerrain_active g body p tol ⟨ht, ht'⟩ hbuf w hw i j hi hj) w' h
  rwa [hdh] at this

end Exact

/-- grid of 9 × 9 columns -/
def acGrid : Grid ℚ :=
  { halfX := 4, halfY := 4, halfZ := 8, cellXY := 1, cellZ := 1, cellArea := 1, cellVolume := 1,
    vectX := fun i => -4 + i, vectY := fun i => -4 + i, vectZ := fun i => -7 + i }

/-- flat terrain with one peak at column `(a, 4)`, no body -/
def acState (a : ℤ) : SimOut ℚ :=
  { lenX := 9, lenY := 9, equilibrium := false
    terrain := fun i j => if i = a ∧ j = 4 then 8 else 0
    body := fun _ _ _ => 0, bodySoil := fun _ _ _ => 0, bodySoilPos := []
    bodyArea := ⟨5, 7, 5, 7⟩, relaxArea := ⟨1, 8, 1, 8⟩, impactArea := ⟨1, 8, 1, 8⟩ }

/-- repose height of one cell -/
def acParam : SimParam ℚ := ⟨1, 20, 2⟩

/-- the state with a random stream and no warnings -/
def acWorld (a : ℤ) : World ℚ := ⟨acState a, fun n => 3 * n + 1, []⟩

theorem acState_wf (a : ℤ) (ha : a = 1 ∨ a = 4) : WellFormed 1 (acState a) := by
  rcases ha with rfl | rfl
  all_goals
    refine WFCheck.wf (by decide +kernel) ?_
    intro k i j hk
    exact ⟨rfl, rfl⟩

/-- **C34** fails for interior columns with an index equal to one: terrain relaxation examines column
`(1, 5)`, leaves it unstable and outside the new relaxation area, and later rounds reach equilibrium
with the column still unstable. -/
theorem C34_lost : ∃ w' w'' : World ℚ,
    WellFormed 1 (acState 1) ∧ (acState 1).impactArea.Has 1 5 ∧
    relaxTerrain acGrid exBody acParam (1 / 100) (acWorld 1) = .ok w' ∧
    ¬ Unstable (acState 1) 1 (1 / 100) 1 5 ∧ Unstable w'.out 1 (1 / 100) 1 5 ∧
    ¬ w'.out.relaxArea.Has 1 5 ∧
    (∃ n, relaxLoop acGrid exBody acParam (1 / 100) 20 0 (acWorld 1) = .ok (w'', n)) ∧
    w''.out.equilibrium = true ∧ Unstable w''.out 1 (1 / 100) 1 5 := by
  obtain ⟨w', h', p'⟩ : ∃ w', relaxTerrain acGrid exBody acParam (1 / 100) (acWorld 1) = .ok w' ∧
      (w'.out.terrain 0 5 + 2 = w'.out.terrain 1 5 ∧ w'.out.relaxArea.minX = 2) := by
    have : (match relaxTerrain acGrid exBody acParam (1 / 100) (acWorld 1) with
      | .ok w' => (w'.out.terrain 0 5 + 2 = w'.out.terrain 1 5 ∧ w'.out.relaxArea.minX = 2 : Bool)
      | .error _ => false) = true := by decide +kernel
    split at this
    · exact ⟨_, ‹_›, by simpa using this⟩
    · exact absurd this (by simp)
  obtain ⟨w'', n, h'', q1, q2⟩ : ∃ w'' n,
      relaxLoop acGrid exBody acParam (1 / 100) 20 0 (acWorld 1) = .ok (w'', n) ∧
      w''.out.equilibrium = true ∧ w''.out.terrain 0 5 + 2 = w''.out.terrain 1 5 := by
    have : (match relaxLoop acGrid exBody acParam (1 / 100) 20 0 (acWorld 1) with
      | .ok (w', _) => (w'.out.equilibrium = true ∧
          w'.out.terrain 0 5 + 2 = w'.out.terrain 1 5 : Bool)
      | .error _ => false) = true := by decide +kernel
    split at this
    · exact ⟨_, _, ‹_›, by simpa using this⟩
    · exact absurd this (by simp)
  refine ⟨w', w'', acState_wf 1 (.inl rfl), by simp [Area.Has, acState], h', ?_, ?_, ?_, ⟨n, h''⟩,
    q1, ?_⟩
  · rintro ⟨i', j', -, h⟩
    simp only [acState] at h
    split_ifs at h <;> norm_num at h
    all_goals omega
  · exact ⟨0, 5, .inl ⟨by norm_num, rfl⟩, by rw [← p'.1]; linarith⟩
  · rintro ⟨h, -⟩
    rw [p'.2] at h
    omega
  · exact ⟨0, 5, .inl ⟨by norm_num, rfl⟩, by rw [← q2]; linarith⟩

/-- The hypotheses of `C34_partial` hold for a peak in the middle of the grid; after one call column
`(5, 4)` has become unstable, so that it is in the relaxation area. -/
example : ∃ w', relaxTerrain acGrid exBody acParam (1 / 100) (acWorld 4) = .ok w' ∧
    WellFormed 1 (acState 4) ∧ ¬ Unstable (acState 4) 1 (1 / 100) 5 4 ∧
    Unstable w'.out 1 (1 / 100) 5 4 ∧ w'.out.relaxArea.Has 5 4 := by
  obtain ⟨w', h', p'⟩ : ∃ w', relaxTerrain acGrid exBody acParam (1 / 100) (acWorld 4) = .ok w' ∧
      w'.out.terrain 6 4 + 4 = w'.out.terrain 5 4 := by
    have : (match relaxTerrain acGrid exBody acParam (1 / 100) (acWorld 4) with
      | .ok w' => (w'.out.terrain 6 4 + 4 = w'.out.terrain 5 4 : Bool)
      | .error _ => false) = true := by decide +kernel
    split at this
    · exact ⟨_, ‹_›, by simpa using this⟩
    · exact absurd this (by simp)
  have hdh : (acGrid.cellZ * (roundAway (acGrid.cellXY * Transc.tan acParam.reposeAngle / acGrid.cellZ)
    : ℚ)) = 1 := by decide +kernel
  have hst : ¬ Unstable (acState 4) 1 (1 / 100) 5 4 := by
    rintro ⟨i', j', -, h⟩
    simp only [acState] at h
    split_ifs at h <;> norm_num at h
    all_goals omega
  have hun : Unstable w'.out 1 (1 / 100) 5 4 :=
    ⟨6, 4, .inr (.inl ⟨by norm_num, rfl⟩), by rw [← p']; linarith⟩
  refine ⟨w', h', acState_wf 4 (.inr rfl), hst, hun, ?_⟩
  have key := C34_partial acGrid exBody acParam (1 / 100) (by norm_num) (by norm_num [acGrid])
    (by norm_num [acParam]) (acWorld 4) w' (acState_wf 4 (.inr rfl)) h' 5 4 (by norm_num [acGrid])
    (by norm_num [acGrid])
  rw [hdh] at key
  rcases key hun with h | ⟨h, -⟩
  · exact h
  · exact absurd h hst

end Soil
