import Verif.Spec.Reach

/-! # Vertices drawn, and the box of the grid -/

namespace Soil

section AnyArith
variable {F : Type} [FOps F]

/-- The vertices of the faces that are drawn into the grid: those of the body, moved by a multiple of the tolerance; a
blade also has a back face -/
def drawnVertices (g : Grid F) (tol : F) (pos : Vec3 F) (ori : Quat F) (body : Body F) : List (Vec3 F) :=
  let c := calcBodyCornerPos pos ori body
  match body.kind with
  | .bucket => (nudge tol c).toList
  | .blade => (nudge tol c).toList ++ (nudge tol (bladeBack g c)).toList

end AnyArith

/-- The point is not outside the grid by more than `e`. The columns extend to half a cell around their centres and the
heights to one cell above the highest one. -/
structure OnGrid (g : Grid ℝ) (e : ℝ) (v : Vec3 ℝ) : Prop where
  x : |v.x| ≤ (g.halfX + 1 / 2) * g.cellXY + e
  y : |v.y| ≤ (g.halfY + 1 / 2) * g.cellXY + e
  lo : -(g.halfZ * g.cellZ) - e ≤ v.z
  hi : v.z ≤ (g.halfZ + 1) * g.cellZ + e

end Soil
