import Verif.Spec.Line
import Verif.Spec.Stability
import Verif.Model.BodyPos

/-! # Region of the body -/

namespace Soil

variable {K : Type} [Field K] [LinearOrder K]

/-- A box in index coordinates -/
structure Box3 (K : Type) where
  xlo : K
  xhi : K
  ylo : K
  yhi : K
  zlo : K
  zhi : K

/-- `p` lies in the box -/
def Box3.Has (B : Box3 K) (p : Vec3 K) : Prop :=
  (B.xlo ≤ p.x ∧ p.x ≤ B.xhi) ∧ (B.ylo ≤ p.y ∧ p.y ≤ B.yhi) ∧ (B.zlo ≤ p.z ∧ p.z ≤ B.zhi)

/-- Column `(i, j)` of the active area -/
def Area.Has (a : Area) (i j : ℤ) : Prop := a.minX ≤ i ∧ i < a.maxX ∧ a.minY ≤ j ∧ j < a.maxY

/-- The whole body lies in the active area -/
def BodyInArea (s : SimOut K) : Prop :=
  ∀ k i j, s.InGrid i j → k = 0 ∨ k = 2 → HasBody s k i j → s.bodyArea.Has i j

/-- The grid and the arrays of the state have matching sizes -/
def SameSize (g : Grid K) (s : SimOut K) : Prop :=
  s.lenX = 2 * g.halfX + 1 ∧ s.lenY = 2 * g.halfY + 1

section

variable [FloorRing K] [Transc K]

/-- The vertices of the body in the given pose: six for a bucket; a blade also has a back face, one
horizontal cell behind the front face. `calcBodyCornerPos` is characterised by C09, the normal used by
`bladeBack` by C08. -/
def bodyVertices (g : Grid K) (pos : Vec3 K) (ori : Quat K) (body : Body K) : List (Vec3 K) :=
  let c := calcBodyCornerPos pos ori body
  match body.kind with
  | .bucket => c.toList
  | .blade => c.toList ++ (bladeBack g c).toList

end

/-- The vertex is at least one cell and a half inside the outermost columns -/
def OffBorder (g : Grid K) (v : Vec3 K) : Prop :=
  (3 / 2 ≤ (idx g v).x ∧ (idx g v).x < 2 * (g.halfX : K) - 3 / 2) ∧
  (3 / 2 ≤ (idx g v).y ∧ (idx g v).y < 2 * (g.halfY : K) - 3 / 2)

/-- The vertex is inside the height of the grid: above the bottom of the second cell from below and not
above the top of the last cell -/
def InsideZ (g : Grid K) (v : Vec3 K) : Prop :=
  0 < (idx g v).z ∧ (idx g v).z ≤ 2 * (g.halfZ : K) - 1

end Soil
