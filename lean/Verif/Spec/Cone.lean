import Verif.Spec.Reach
import Verif.Spec.Active

/-! # Rectangles of columns -/

namespace Soil

/-- The column is in the rectangle (both ends included) or at most `r` columns away from it in each
direction. -/
def NearRect (a : Area) (r i j : ℤ) : Prop :=
  a.minX - r ≤ i ∧ i ≤ a.maxX + r ∧ a.minY - r ≤ j ∧ j ≤ a.maxY + r

/-- The pose keeps every vertex of the body above the rectangle, away from its sides by at least the
margin and half a cell. -/
structure Over (g : Grid ℝ) (a : Area) (body : Body ℝ) (q : Vec3 ℝ × Quat ℝ) : Prop where
  x : ∀ v ∈ bodyVertices g q.1 q.2 body, (a.minX - g.halfX + 1 / 2) * g.cellXY + margin g ≤ v.x ∧
    v.x + margin g ≤ (a.maxX - g.halfX - 1 / 2) * g.cellXY
  y : ∀ v ∈ bodyVertices g q.1 q.2 body, (a.minY - g.halfY + 1 / 2) * g.cellXY + margin g ≤ v.y ∧
    v.y + margin g ≤ (a.maxY - g.halfY - 1 / 2) * g.cellXY

end Soil
