import Verif.Proof.ExampleRun
import Verif.Proof.ExampleCon

/-! # Runs with 24 binary digits from the constructors: a concrete case -/

namespace Soil

open FOps

/-- the grid with thirteen by thirteen columns and 29 heights, as made by the constructor -/
def cstGrid : Grid (Flt plcR) :=
  { halfX := 6, halfY := 6, halfZ := 14, cellXY := (1 / 4 : ℚ), cellZ := ((2 : ℚ) ^ (-3 : ℤ) : ℚ)
    cellArea := FOps.mul (F := Flt plcR) (1 / 4 : ℚ) (1 / 4 : ℚ)
    cellVolume := FOps.mul (F := Flt plcR) (FOps.mul (F := Flt plcR) (1 / 4 : ℚ) (1 / 4 : ℚ)) ((2 : ℚ) ^ (-3 : ℤ) : ℚ)
    vectX := fun i => accVect (F := Flt plcR) (FOps.neg (F := Flt plcR) (3 / 2 : ℚ)) (1 / 4 : ℚ) i.toNat
    vectY := fun i => accVect (F := Flt plcR) (FOps.neg (F := Flt plcR) (3 / 2 : ℚ)) (1 / 4 : ℚ) i.toNat
    vectZ := fun i => accVect (F := Flt plcR) (FOps.add (F := Flt plcR)
      (FOps.neg (F := Flt plcR) (((14 : ℤ) : ℚ) * 2 ^ (-3 : ℤ) : ℚ)) ((2 : ℚ) ^ (-3 : ℤ) : ℚ))
      ((2 : ℚ) ^ (-3 : ℤ) : ℚ) i.toNat }

theorem cstGrid_ok : mkGrid (F := Flt plcR) (3 / 2 : ℚ) (3 / 2 : ℚ) (((14 : ℤ) : ℚ) * 2 ^ (-3 : ℤ) : ℚ) (1 / 4 : ℚ)
    ((2 : ℚ) ^ (-3 : ℤ) : ℚ) = .ok cstGrid := by
  have key : ∀ {x : M ℤ} {n : ℤ}, (match x with | .ok m => decide (m = n) | .error _ => false) = true →
      x = .ok n := by
    intro x n h
    cases x with
    | ok m => rw [of_decide_eq_true h]
    | error e => simp at h
  exact mkGrid_returns (F := Flt plcR) (by decide +kernel) (by decide +kernel) (by decide +kernel) (by decide +kernel)
    (by decide +kernel) (by decide +kernel) (by decide +kernel) (by decide +kernel) (by decide +kernel)
    (key (by decide +kernel)) (key (by decide +kernel)) (key (by decide +kernel))

theorem cstParam_ok : mkSimParam (F := Flt plcR) (1 : ℚ) 1 3 = .ok plcParam := by
  have h : (FOps.lt (F := Flt plcR) (FOps.div (F := Flt plcR) FOps.pi (FOps.ofRat 2)) (1 : ℚ) ||
      FOps.lt (F := Flt plcR) (1 : ℚ) FOps.zero) = false := by decide +kernel
  unfold mkSimParam
  rw [if_neg (by rw [h]; simp)]
  rfl

theorem cstSetup : PoseSetup 24 (2 ^ (-23 : ℤ)) 28 4 cstGrid plcParam where
  small := ⟨by norm_num, by norm_num, by norm_num, by norm_num⟩
  cellXY := show (0 : ℚ) < 1 / 4 by norm_num
  cellZ := show (0 : ℚ) < 2 ^ (-3 : ℤ) by norm_num
  halfX := by decide
  halfX' := by decide
  halfY := by decide
  halfY' := by decide
  halfZ' := by decide
  height := by norm_num
  height' := by decide
  buffer := by decide

theorem cstFits : ∀ q, q = plcPose ∨ q = plcPose2 →
    ∀ v ∈ usedVertices cstGrid (1 / 64 : ℚ) (plcBody .bucket) q, VertexFits cstGrid 4 v := by
  have key : (([plcPose, plcPose2].flatMap (usedVertices cstGrid (1 / 64 : ℚ) (plcBody .bucket))).all fun v =>
      decide (|v.x.val| ≤ (6 - 2 : ℚ) * (1 / 4)) && decide (|v.y.val| ≤ (6 - 2 : ℚ) * (1 / 4)) &&
        decide (|v.z.val| ≤ (4 : ℚ) * 2 ^ (-3 : ℤ))) = true := by
    decide +kernel
  intro q hq v hv
  have h := List.all_eq_true.mp key v (List.mem_flatMap.mpr ⟨q, by simpa using hq, hv⟩)
  simp only [Bool.and_eq_true, decide_eq_true_eq] at h
  refine ⟨?_, ?_, ?_⟩
  · exact_mod_cast h.1.1
  · exact_mod_cast h.1.2
  · exact_mod_cast h.2

/-- whether the cells of the bucket are near its position -/
def cstNearB (q : Vec3 (Flt plcR) × Quat (Flt plcR)) : Bool :=
  match bodyFootprint 88 cstGrid plcParam (1 / 64 : ℚ) (plcBody .bucket) q with
  | .ok (_, walls) => walls.all fun w => w.all fun t => decide (
      ((cstGrid.vectX t.1).val - q.1.x.val) ^ 2 + ((cstGrid.vectY t.2.1).val - q.1.y.val) ^ 2 + ((cstGrid.vectZ t.2.2).val - q.1.z.val) ^ 2
        ≤ 7 / 10)
  | .error _ => false

theorem cstNear : ∀ q, q = plcPose ∨ q = plcPose2 →
    CellsNear 88 cstGrid plcParam (1 / 64 : ℚ) (plcBody .bucket) (7 / 10) q := by
  have key : ([plcPose, plcPose2].all cstNearB) = true := by decide +kernel
  intro q hq area walls e w hw t ht
  have h := List.all_eq_true.mp key q (by simpa using hq)
  unfold cstNearB at h
  rw [e] at h
  exact of_decide_eq_true (List.all_eq_true.mp (List.all_eq_true.mp h w hw) t ht)

theorem cstClear : ∀ q, q = plcPose ∨ q = plcPose2 → PoseClear cstGrid (85 / 100) q := by
  rintro q (rfl | rfl)
  · exact ⟨plcClear.oriented, plcClear.x, plcClear.y⟩
  · exact ⟨plcClear2.oriented, plcClear2.x, plcClear2.y⟩

/-- The largest height difference at rest is two cells. -/
theorem cstSlope : (dhMax cstGrid plcParam).val = 2 * 2 ^ (-3 : ℤ) := by
  have : FOps.eq (dhMax cstGrid plcParam) (2 * 2 ^ (-3 : ℤ) : ℚ) = true := by decide +kernel
  exact @of_decide_eq_true _ (instDecidableEqRat _ _) this

end Soil
