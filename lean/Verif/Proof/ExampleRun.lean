import Verif.Proof.ExamplePlace
import Verif.Spec.Ball

/-! # Runs with 24 binary digits: a concrete case -/

namespace Soil

/-- a second pose of the bucket, further on and more inclined -/
def plcPose2 : Vec3 (Flt plcR) × Quat (Flt plcR) :=
  (⟨(1 / 10 : ℚ), (1 / 30 : ℚ), (3 / 10 : ℚ)⟩, ⟨(1 : ℚ), (0 : ℚ), (1 / 10 : ℚ), (0 : ℚ)⟩)

theorem plcFits2 : ∀ v ∈ usedVertices plcGrid (1 / 64 : ℚ) (plcBody .bucket) plcPose2, VertexFits plcGrid 4 v := by
  have key : ((usedVertices plcGrid (1 / 64 : ℚ) (plcBody .bucket) plcPose2).all fun v =>
      decide (|v.x.val| ≤ (6 - 2 : ℚ) * (1 / 4)) && decide (|v.y.val| ≤ (6 - 2 : ℚ) * (1 / 4)) &&
        decide (|v.z.val| ≤ (4 : ℚ) * 2 ^ (-3 : ℤ))) = true := by
    decide +kernel
  intro v hv
  have h := List.all_eq_true.mp key v hv
  simp only [Bool.and_eq_true, decide_eq_true_eq] at h
  refine ⟨?_, ?_, ?_⟩
  · exact_mod_cast h.1.1
  · exact_mod_cast h.1.2
  · exact_mod_cast h.2

/-- whether the cells of the bucket are near its position -/
def plcNearB (q : Vec3 (Flt plcR) × Quat (Flt plcR)) : Bool :=
  match bodyFootprint 88 plcGrid plcParam (1 / 64 : ℚ) (plcBody .bucket) q with
  | .ok (_, walls) => walls.all fun w => w.all fun t => decide (
      ((plcGrid.vectX t.1).val - q.1.x.val) ^ 2 + ((plcGrid.vectY t.2.1).val - q.1.y.val) ^ 2 + ((plcGrid.vectZ t.2.2).val - q.1.z.val) ^ 2
        ≤ 7 / 10)
  | .error _ => false

theorem plcNear_of {q : Vec3 (Flt plcR) × Quat (Flt plcR)} (h : plcNearB q = true) :
    CellsNear 88 plcGrid plcParam (1 / 64 : ℚ) (plcBody .bucket) (7 / 10) q := by
  intro area walls e w hw t ht
  unfold plcNearB at h
  rw [e] at h
  exact of_decide_eq_true (List.all_eq_true.mp (List.all_eq_true.mp h w hw) t ht)

theorem plcNear : CellsNear 88 plcGrid plcParam (1 / 64 : ℚ) (plcBody .bucket) (7 / 10) plcPose :=
  plcNear_of (by decide +kernel)

theorem plcNear2 : CellsNear 88 plcGrid plcParam (1 / 64 : ℚ) (plcBody .bucket) (7 / 10) plcPose2 :=
  plcNear_of (by decide +kernel)

theorem plcClear : PoseClear plcGrid (85 / 100) plcPose where
  oriented := show (0 : ℚ) < (1 : ℚ) ^ 2 + (0 : ℚ) ^ 2 + (1 / 30 : ℚ) ^ 2 + (0 : ℚ) ^ 2 by norm_num
  x := show |(-1 / 10 : ℚ)| + 85 / 100 ≤ (((6 : ℤ) : ℚ) - 2) * (1 / 4 : ℚ) by norm_num [abs_of_neg]
  y := show |(1 / 30 : ℚ)| + 85 / 100 ≤ (((6 : ℤ) : ℚ) - 2) * (1 / 4 : ℚ) by norm_num

theorem plcClear2 : PoseClear plcGrid (85 / 100) plcPose2 where
  oriented := show (0 : ℚ) < (1 : ℚ) ^ 2 + (0 : ℚ) ^ 2 + (1 / 10 : ℚ) ^ 2 + (0 : ℚ) ^ 2 by norm_num
  x := show |(1 / 10 : ℚ)| + 85 / 100 ≤ (((6 : ℤ) : ℚ) - 2) * (1 / 4 : ℚ) by norm_num
  y := show |(1 / 30 : ℚ)| + 85 / 100 ≤ (((6 : ℤ) : ℚ) - 2) * (1 / 4 : ℚ) by norm_num

/-- a fact about the result of a run -/
def plcCheck (qs : List (Vec3 (Flt plcR) × Quat (Flt plcR))) (f : World (Flt plcR) → Bool) : Bool :=
  match run 100 plcGrid plcParam (1 / 64 : ℚ) qs (plcBody .bucket) plcWorld with
  | .ok r => f r.2
  | .error _ => false

theorem plcDigs : plcCheck [plcPose, plcPose2] (fun w => FOps.lt (w.out.terrain 8 6) FOps.zero) = true := by
  decide +kernel

/-- The largest height difference at rest is two cells. -/
theorem plcSlope : dhMax plcGrid plcParam = ((2 : ℤ) : ℚ) * 2 ^ (-3 : ℤ) := by
  have : FOps.eq (dhMax plcGrid plcParam) (((2 : ℤ) : ℚ) * 2 ^ (-3 : ℤ) : ℚ) = true := by decide +kernel
  exact @of_decide_eq_true _ (instDecidableEqRat _ _) this

end Soil
