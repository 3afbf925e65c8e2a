import Verif.Proof.Binary
import Verif.Spec.CellStart

/-!
# A history computed with 24 binary digits

The cells are 1/8 high, the tolerance is 1/64, a bucket digs in flat ground.
-/

namespace Soil

/-- 24 binary digits; the square root is computed, the other functions are not used by the example
(the tangent only for the slope) -/
def fltR : Rounding :=
  ⟨roundBinary 24, fun x => roundBinary 24 ((Nat.sqrt ⌊x * 2 ^ 60⌋.toNat : ℚ) / 2 ^ 30), fun _ => 0,
    fun _ => 1, fun x => x, 3⟩

/-- thirteen by thirteen columns, nine heights -/
def fltGrid : Grid (Flt fltR) :=
  { halfX := 6, halfY := 6, halfZ := 4, cellXY := (1 / 4 : ℚ), cellZ := ((2 : ℚ) ^ (-3 : ℤ) : ℚ)
    cellArea := (1 / 16 : ℚ), cellVolume := (1 / 128 : ℚ), vectX := fun i => ((i - 6) / 4 : ℚ)
    vectY := fun i => ((i - 6) / 4 : ℚ), vectZ := fun k => (((-4 + k : ℤ) : ℚ) * 2 ^ (-3 : ℤ) : ℚ) }

/-- a bucket -/
def fltBody : Body (Flt fltR) :=
  ⟨.bucket, ⟨(0 : ℚ), (0 : ℚ), (0 : ℚ)⟩, ⟨(7 / 10 : ℚ), (0 : ℚ), (-1 / 2 : ℚ)⟩,
    ⟨(7 / 10 : ℚ), (0 : ℚ), (0 : ℚ)⟩, (6 / 10 : ℚ), ⟨(0 : ℚ), (0 : ℚ), (0 : ℚ)⟩,
    ⟨(1 : ℚ), (0 : ℚ), (0 : ℚ), (0 : ℚ)⟩⟩

/-- one relaxation pass -/
def fltParam : SimParam (Flt fltR) := ⟨(1 : ℚ), 1, 2⟩

/-- flat ground -/
def fltWorld : World (Flt fltR) :=
  ⟨{ lenX := 13, lenY := 13, equilibrium := false
     terrain := fun _ _ => (0 : ℚ), body := fun _ _ _ => (0 : ℚ), bodySoil := fun _ _ _ => (0 : ℚ)
     bodySoilPos := [], bodyArea := ⟨1, 12, 1, 12⟩, relaxArea := ⟨1, 12, 1, 12⟩
     impactArea := ⟨1, 12, 1, 12⟩ }, fun n => 3 * n + 1, []⟩

/-- a pose with the tip of the bucket half way in the ground, slightly rotated -/
def fltPoses : List (Vec3 (Flt fltR) × Quat (Flt fltR)) :=
  [(⟨(-1 / 10 : ℚ), (1 / 30 : ℚ), (1 / 4 : ℚ)⟩, ⟨(1 : ℚ), (0 : ℚ), (1 / 30 : ℚ), (0 : ℚ)⟩)]

/-- the result satisfies the condition -/
def fltCheck (f : World (Flt fltR) → Bool) : Bool :=
  match run 100 fltGrid fltParam (1 / 64 : ℚ) fltPoses fltBody fltWorld with
  | .ok r => f r.2
  | .error _ => false

/-- The columns found are inside the grid. -/
theorem fltFits : ∀ q ∈ fltPoses, PoseFits 100 fltGrid fltParam (1 / 64 : ℚ) fltBody q := by
  intro q hq
  simp only [fltPoses, List.mem_singleton] at hq
  have key : (match bodyFootprint 100 fltGrid fltParam (1 / 64 : ℚ) fltBody
      (⟨(-1 / 10 : ℚ), (1 / 30 : ℚ), (1 / 4 : ℚ)⟩, ⟨(1 : ℚ), (0 : ℚ), (1 / 30 : ℚ), (0 : ℚ)⟩) with
    | .ok (area, walls) =>
      decide ((1 ≤ area.minX ∧ area.maxX ≤ 2 * fltGrid.halfX ∧ 1 ≤ area.minY ∧ area.maxY ≤ 2 * fltGrid.halfY) ∧
        ∀ w ∈ walls, ∀ x ∈ w,
          (area.minX ≤ x.1 ∧ x.1 < area.maxX) ∧ area.minY ≤ x.2.1 ∧ x.2.1 < area.maxY)
    | .error _ => false) = true := by decide +kernel
  intro area walls e
  subst hq
  rw [e] at key
  exact of_decide_eq_true key

/-- The history is completed; the tip of the bucket has dug a hole, and soil is piled beside it. -/
theorem fltRuns : fltCheck (fun w => FOps.lt (w.out.terrain 8 6) FOps.zero &&
    FOps.lt FOps.zero (w.out.terrain 9 4) && decide (w.log.length = 1)) = true := by
  decide +kernel

/-- The largest height difference at rest is two cells. -/
theorem fltSlope : dhMax fltGrid fltParam = ((2 : ℤ) : ℚ) * 2 ^ (-3 : ℤ) := by
  have : FOps.eq (dhMax fltGrid fltParam) (((2 : ℤ) : ℚ) * 2 ^ (-3 : ℤ) : ℚ) = true := by decide +kernel
  exact @of_decide_eq_true _ (instDecidableEqRat _ _) this

end Soil
