import Verif.Proof.PlaceFlt

/-! # Placing a body with 24 binary digits: a concrete case -/

namespace Soil

/-- 24 binary digits; the square root is truncated to 24 digits, the other functions are not used -/
def plcR : Rounding := ⟨roundBinary 24, sqrtDigits 23, fun _ => 0, fun _ => 1, fun x => x, 3⟩

theorem plcR_sqrt : SqrtAccurate plcR (2 ^ (-23 : ℤ)) := by
  refine ⟨fun x h => (sqrtDigits_accurate 23 x h).1, fun x h => (sqrtDigits_accurate 23 x h).2.1, fun x h => ?_⟩
  refine (sqrtDigits_accurate 23 x h).2.2.trans ?_
  have : (1 : ℚ) ≤ (1 + 2 ^ (-23 : ℤ)) ^ 2 := by norm_num
  exact le_mul_of_one_le_right h this

/-- thirteen by thirteen columns, 29 heights -/
def plcGrid : Grid (Flt plcR) :=
  { halfX := 6, halfY := 6, halfZ := 14, cellXY := (1 / 4 : ℚ), cellZ := ((2 : ℚ) ^ (-3 : ℤ) : ℚ)
    cellArea := (1 / 16 : ℚ), cellVolume := (1 / 128 : ℚ), vectX := fun i => ((i - 6) / 4 : ℚ)
    vectY := fun i => ((i - 6) / 4 : ℚ), vectZ := fun k => (((-14 + k : ℤ) : ℚ) * 2 ^ (-3 : ℤ) : ℚ) }

/-- a bucket, or a blade -/
def plcBody (kind : BodyKind) : Body (Flt plcR) :=
  ⟨kind, ⟨(0 : ℚ), (0 : ℚ), (0 : ℚ)⟩, ⟨(7 / 10 : ℚ), (0 : ℚ), (-1 / 2 : ℚ)⟩,
    ⟨(7 / 10 : ℚ), (0 : ℚ), (0 : ℚ)⟩, (6 / 10 : ℚ), ⟨(0 : ℚ), (0 : ℚ), (0 : ℚ)⟩,
    ⟨(1 : ℚ), (0 : ℚ), (0 : ℚ), (0 : ℚ)⟩⟩

/-- one relaxation pass -/
def plcParam : SimParam (Flt plcR) := ⟨(1 : ℚ), 1, 3⟩

/-- flat ground -/
def plcWorld : World (Flt plcR) :=
  ⟨{ lenX := 13, lenY := 13, equilibrium := false
     terrain := fun _ _ => (0 : ℚ), body := fun _ _ _ => (0 : ℚ), bodySoil := fun _ _ _ => (0 : ℚ)
     bodySoilPos := [], bodyArea := ⟨1, 12, 1, 12⟩, relaxArea := ⟨1, 12, 1, 12⟩
     impactArea := ⟨1, 12, 1, 12⟩ }, fun n => 3 * n + 1, []⟩

/-- a slightly rotated pose -/
def plcPose : Vec3 (Flt plcR) × Quat (Flt plcR) :=
  (⟨(-1 / 10 : ℚ), (1 / 30 : ℚ), (1 / 4 : ℚ)⟩, ⟨(1 : ℚ), (0 : ℚ), (1 / 30 : ℚ), (0 : ℚ)⟩)

theorem plcSetup : PoseSetup 24 (2 ^ (-23 : ℤ)) 28 4 plcGrid plcParam where
  small := ⟨by norm_num, by norm_num, by norm_num, by norm_num⟩
  cellXY := show (0 : ℚ) < 1 / 4 by norm_num
  cellZ := show (0 : ℚ) < 2 ^ (-3 : ℤ) by norm_num
  halfX := by decide
  halfX' := by decide
  halfY := by decide
  halfY' := by decide
  halfZ' := by decide
  height := by norm_num
  height' := by decide
  buffer := by decide

theorem plcFits (kind : BodyKind) : ∀ v ∈ usedVertices plcGrid (1 / 64 : ℚ) (plcBody kind) plcPose, VertexFits plcGrid 4 v := by
  have key : ((usedVertices plcGrid (1 / 64 : ℚ) (plcBody kind) plcPose).all fun v =>
      decide (|v.x.val| ≤ (6 - 2 : ℚ) * (1 / 4)) && decide (|v.y.val| ≤ (6 - 2 : ℚ) * (1 / 4)) &&
        decide (|v.z.val| ≤ (4 : ℚ) * 2 ^ (-3 : ℤ))) = true := by
    cases kind <;> decide +kernel
  intro v hv
  have h := List.all_eq_true.mp key v hv
  simp only [Bool.and_eq_true, decide_eq_true_eq] at h
  refine ⟨?_, ?_, ?_⟩
  · exact_mod_cast h.1.1
  · exact_mod_cast h.1.2
  · exact_mod_cast h.2

/-- The body is written. -/
theorem plcWritten (kind : BodyKind) :
    (match calcBodyPos 88 plcWorld.out plcPose.1 plcPose.2 plcGrid (plcBody kind) plcParam (1 / 64 : ℚ) with
      | .ok s => FOps.lt (s.body 0 8 6) FOps.zero
      | .error _ => false) = true := by
  cases kind <;> decide +kernel

end Soil
