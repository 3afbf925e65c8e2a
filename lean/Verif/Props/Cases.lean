import Verif.Props.Above

/-! # Concrete cases for the theorems about a whole step (C12, C19, C31, C40) -/

namespace Soil

/-- A bucket or blade is moved by at least half a cell in the air over flat ground: the step returns,
moves the body, makes one round of relaxation of the twenty allowed, and reports equilibrium. Asking
for the same pose again returns without an update. -/
example (kind : BodyKind) (T : ℤ) (rng : Rng) (a b c : ℝ) (ha : |a| ≤ 4) (hb : |b| ≤ 5)
    (hc : |c| ≤ 6) (hT : (T : ℝ) ≤ c - 5) (hm : 1 / 2 ≤ Real.sqrt (a * a + b * b + c * c)) :
    ∃ N, ∀ fuel, N ≤ fuel → ∃ r, step fuel ⟨a, b, c⟩ ⟨1, 0, 0, 0⟩ (rGrid ℝ) (rBody ℝ kind) wideParam
        (1 / 100000) (flatGround T rng) = .ok r ∧
      r.updated = true ∧ r.world.out.equilibrium = true ∧ r.passes = 1 ∧
      1 ≤ wideParam.maxIterations ∧
      ∃ r', step fuel ⟨a, b, c⟩ ⟨1, 0, 0, 0⟩ (rGrid ℝ) r.body wideParam (1 / 100000) r.world = .ok r' ∧
        r'.updated = false := by
  have hin := rBody_inside sqrtLaw_real kind a b c ha hb hc
  have hst : Start (rGrid ℝ) (flatGround T rng).out := rStart fun _ _ => T
  have hp1 : 1 ≤ wideParam.maxIterations := by norm_num [wideParam, rParam]
  have hca := flatGround_calm wideParam wideSetup.repose T rng
  obtain ⟨N, hN⟩ := step_ok sqrtLaw_real wideSetup (by norm_num [rGrid]) ⟨a, b, c⟩ ⟨1, 0, 0, 0⟩
    (rBody ℝ kind) (fun v hv => (hin v hv).1) (fun v hv => (hin v hv).2) (flatGround T rng) hst.sound
    (fun e he => by simp [flatGround, mkSimOut] at he)
  refine ⟨N, fun fuel hf => ?_⟩
  obtain ⟨r, hr⟩ := hN fuel hf
  have hu : r.updated = true := by
    rw [C12_updated_iff _ _ _ _ _ _ _ _ _ hr]
    have := (C10_translation (rGrid ℝ) (rBody ℝ kind) ⟨a, b, c⟩ (by norm_num [rBody, qnormSq])).mpr (by
      have : dot (⟨a, b, c⟩ : Vec3 ℝ) ⟨a, b, c⟩ = a * a + b * b + c * c := by unfold dot; ring
      rw [this]
      norm_num [rGrid]
      norm_num at hm
      exact hm)
    simpa [rBody, vadd] using this
  have hx := C45_step sqrtLaw_real _ _ _ wideSetup hp1 fuel ⟨a, b, c⟩ ⟨1, 0, 0, 0⟩
    (rBody ℝ kind) (fun v hv => (hin v hv).1) (flatGround T rng) hst.sound hst.noEntry hca
    (rBody_above kind a b c T hT) r hr
  refine ⟨r, hr, hu, (hx.2.2.2.2 hu).1, (hx.2.2.2.2 hu).2, hp1, ?_⟩
  have hb := (C12_step _ _ _ _ _ _ _ _ r hr).2 hu
  have hrep := C10_repeated_pose (rGrid ℝ) r.body (by norm_num [rGrid])
  rw [hb] at hrep
  refine ⟨⟨false, { r.world with log := r.world.log ++ [] }, r.body, 0⟩, ?_, rfl⟩
  unfold step
  rw [hb]
  simp only at hrep
  rw [hrep]
  rfl

end Soil
