import Verif.Spec.Transport

/-! # Where the entries of the body-soil bookkeeping come from -/

namespace Soil

variable {K : Type} [Field K] [LinearOrder K] [FloorRing K] [Transc K]

/-- Two entries have the same coordinates in the frame of the body -/
def SameFrame (e e' : BodySoil K) : Prop := e'.xb = e.xb ∧ e'.yb = e.yb ∧ e'.zb = e.zb

/-- The pose `q` carries the body-frame coordinates of `e` to the centre of the top of layer `k` of
column `(i, j)`, where the body is present. -/
structure OnSurface (g : Grid K) (q : Vec3 K × Quat K) (s : SimOut K) (e : BodySoil K) (k : ℕ)
    (i j : ℤ) : Prop where
  layer : k = 0 ∨ k = 2
  inGrid : s.InGrid i j
  present : HasBody s k i j
  place : movedTo q.1 q.2 e = ⟨g.vectX i, g.vectY j, s.body (k + 1) i j⟩

end Soil
