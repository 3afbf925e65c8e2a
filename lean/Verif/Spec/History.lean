import Verif.Spec.Footprint
import Verif.Spec.WellFormed
import Verif.Spec.Column
import Verif.Spec.Transport
import Verif.Model.SoilDynamics

/-! # Histories of the simulator -/

namespace Soil

variable {K : Type} [Field K] [LinearOrder K] [FloorRing K] [Transc K]

/-- Conditions on the grid, the parameters and the tolerance under which a simulation is run: the
levels of the grid are multiples of the cell height, the tolerance is small, the buffer is at least
two columns and the repose angle is not beyond the vertical. -/
structure Setup (g : Grid K) (p : SimParam K) (tol : K) : Prop where
  zgrid : ZGrid g
  cellXY : 0 < g.cellXY
  level : Al g.cellZ (g.vectZ 0)
  tolPos : 0 < tol
  tolThird : tol ≤ 1 / 3
  tolCell : 2 * tol < g.cellZ
  buffer : 2 ≤ p.cellBuffer
  repose : 0 ≤ Transc.tan p.reposeAngle

/-- What holds between two steps -/
structure Sound (g : Grid K) (s : SimOut K) : Prop where
  wf : WellFormed g.cellZ s
  inArea : BodyInArea s
  area : AreaInside s.bodyArea s
  relax : AreaInside s.relaxArea s
  size : SameSize g s

/-- A history that starts from a terrain on the lattice, with no body and no body soil, as prepared by
the constructor of the outputs (C13) and `Init` (C41). -/
structure Start (g : Grid K) (s : SimOut K) : Prop where
  terrain : ∀ i j, s.InGrid i j → Al g.cellZ (s.terrain i j)
  body : ∀ k i j, s.body k i j = 0
  bodySoil : ∀ k i j, s.bodySoil k i j = 0
  noEntry : s.bodySoilPos = []
  area : AreaInside s.bodyArea s
  relax : AreaInside s.relaxArea s
  size : SameSize g s

/-- A pose that keeps every vertex of the body a cell and a half off the border. The pose stored in
`body` does not matter. -/
def PoseOff (g : Grid K) (body : Body K) (q : Vec3 K × Quat K) : Prop :=
  ∀ v ∈ bodyVertices g q.1 q.2 body, OffBorder g v

/-- The body-frame position of every entry that holds soil is carried to the inside of the grid by the
given pose. -/
def CarriedInside (g : Grid K) (pos : Vec3 K) (ori : Quat K) (l : List (BodySoil K)) : Prop :=
  ∀ e ∈ l, 0 < e.h →
    (1 / 2 ≤ (idx g (movedTo pos ori e)).x ∧ (idx g (movedTo pos ori e)).x < 2 * (g.halfX : K) - 1 / 2) ∧
    (1 / 2 ≤ (idx g (movedTo pos ori e)).y ∧ (idx g (movedTo pos ori e)).y < 2 * (g.halfY : K) - 1 / 2)

end Soil
