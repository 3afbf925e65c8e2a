import Verif.Spec.Rounded
import Verif.Spec.CarryFits

/-! # Poses with room for any rotation of the body -/

namespace Soil

variable {R : Rounding}

/-- The tops of the cells of the body are at a distance of at most `√D2` from its position. -/
def CellsNear (fuel : ℕ) (g : Grid (Flt R)) (p : SimParam (Flt R)) (tol : Flt R) (body : Body (Flt R)) (D2 : ℚ)
    (q : Vec3 (Flt R) × Quat (Flt R)) : Prop :=
  ∀ area walls, bodyFootprint fuel g p tol body q = .ok (area, walls) → ∀ w ∈ walls, ∀ t ∈ w,
    ((g.vectX t.1).val - q.1.x.val) ^ 2 + ((g.vectY t.2.1).val - q.1.y.val) ^ 2 + ((g.vectZ t.2.2).val - q.1.z.val) ^ 2 ≤ D2

/-- The orientation is not zero, and seen from above a disc of radius `ρ` around the position is at least two cells from the
edges of the grid. -/
structure PoseClear (g : Grid (Flt R)) (ρ : ℚ) (q : Vec3 (Flt R) × Quat (Flt R)) : Prop where
  oriented : 0 < q.2.q0.val ^ 2 + q.2.q1.val ^ 2 + q.2.q2.val ^ 2 + q.2.q3.val ^ 2
  x : |q.1.x.val| + ρ ≤ (g.halfX - 2 : ℚ) * g.cellXY.val
  y : |q.1.y.val| + ρ ≤ (g.halfY - 2 : ℚ) * g.cellXY.val

end Soil
