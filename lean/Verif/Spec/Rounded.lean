import Verif.Model.Binary
import Verif.Model.BodyPos

/-! # Placing the body in rounded arithmetic -/

namespace Soil

/-- The value of a rounded number -/
def Flt.val {R : Rounding} (x : Flt R) : ℚ := x

/-- The square root of the library is nonnegative and has a relative error of at most `u`. -/
structure SqrtAccurate (R : Rounding) (u : ℚ) : Prop where
  nonneg : ∀ x, 0 ≤ x → 0 ≤ R.sqrt x
  lower : ∀ x, 0 ≤ x → x * (1 - u) ^ 2 ≤ R.sqrt x ^ 2
  upper : ∀ x, 0 ≤ x → R.sqrt x ^ 2 ≤ x * (1 + u) ^ 2

/-- The vertices that `CalcBodyPos` works with, as computed: after the small increment, for a blade including
its back (body_pos.cpp 40-65 and 146-207) -/
def usedVertices {F : Type} [FOps F] (g : Grid F) (tol : F) (body : Body F) (q : Vec3 F × Quat F) : List (Vec3 F) :=
  let c := calcBodyCornerPos q.1 q.2 body
  match body.kind with
  | .bucket => (nudge tol c).toList
  | .blade => (nudge tol c).toList ++ (nudge tol (bladeBack g c)).toList

/-- The vertex is at least two cells from the edges of the grid and at most `H` cells above or below height zero. -/
structure VertexFits {R : Rounding} (g : Grid (Flt R)) (H : ℤ) (v : Vec3 (Flt R)) : Prop where
  x : |v.x.val| ≤ (g.halfX - 2 : ℚ) * g.cellXY.val
  y : |v.y.val| ≤ (g.halfY - 2 : ℚ) * g.cellXY.val
  z : |v.z.val| ≤ (H : ℚ) * g.cellZ.val

/-- Indices up to `B` are small compared to the precision. -/
structure Small (prec : ℕ) (u : ℚ) (B : ℤ) : Prop where
  one : 1 ≤ B
  digits : 4 * B + 8 ≤ 2 ^ prec
  int : B < 2 ^ 28
  room : ((B : ℚ) + 3) * (B + 9) * u ≤ 1 / 8

/-- The grid has at most `B + 1` columns in each direction and as many heights, which is small compared to the precision; the
height `H` of the vertices is at most about a third of the height of the grid; and at least three cells are
added to the extent of the body. -/
structure PoseSetup {R : Rounding} (prec : ℕ) (u : ℚ) (B H : ℤ) (g : Grid (Flt R)) (p : SimParam (Flt R)) : Prop where
  small : Small prec u B
  cellXY : 0 < g.cellXY.val
  cellZ : 0 < g.cellZ.val
  halfX : 2 ≤ g.halfX
  halfX' : 2 * g.halfX ≤ B
  halfY : 2 ≤ g.halfY
  halfY' : 2 * g.halfY ≤ B
  halfZ' : 2 * g.halfZ ≤ B
  height : 0 ≤ H
  height' : 3 * H + 2 ≤ g.halfZ
  buffer : 3 ≤ p.cellBuffer

end Soil
