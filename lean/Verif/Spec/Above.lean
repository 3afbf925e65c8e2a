import Verif.Spec.Rest
import Verif.Spec.Shape

/-! # A body above a terrain at rest -/

namespace Soil

variable {K : Type} [Field K] [LinearOrder K] [FloorRing K] [Transc K]

/-- In the given pose every vertex of the body is at least two cells above the whole terrain (and the
body is small compared to the inverse of the tolerance). -/
def Above (g : Grid K) (tol : K) (body : Body K) (t : ℤ → ℤ → K) (q : Vec3 K × Quat K) : Prop :=
  ∃ zlo zhi, (∀ v ∈ bodyVertices g q.1 q.2 body, zlo ≤ (idx g v).z ∧ (idx g v).z ≤ zhi) ∧
    9 * tol * (zhi - zlo) ≤ 1 ∧
    ∀ i j, (0 ≤ i ∧ i ≤ 2 * g.halfX) → (0 ≤ j ∧ j ≤ 2 * g.halfY) → t i j ≤ heightOf g (zlo - 2)

/-- No column off the border is unstable. -/
def Calm (g : Grid K) (p : SimParam K) (tol : K) (s : SimOut K) : Prop :=
  ∀ i j, (1 ≤ i ∧ i < 2 * g.halfX) → (1 ≤ j ∧ j < 2 * g.halfY) → ¬ Unstable s (reposeStep g p) tol i j

/-- The pose `q` keeps the body at least two cells above the height `L`: the vertices lie between the
index coordinates `zlo` and `zhi`, and the tolerance is small compared with this extent. -/
def ReachesTo (g : Grid K) (tol : K) (body : Body K) (L : K) (q : Vec3 K × Quat K) : Prop :=
  ∃ zlo zhi : K, (∀ v ∈ bodyVertices g q.1 q.2 body, zlo ≤ (idx g v).z ∧ (idx g v).z ≤ zhi) ∧
    9 * tol * (zhi - zlo) ≤ 1 ∧ L ≤ heightOf g (zlo - 2)

end Soil
