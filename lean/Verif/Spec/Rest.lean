import Verif.Spec.History
import Verif.Spec.Active
import Verif.Spec.Stability

/-! # Terrain at rest over a history -/

namespace Soil

variable {K : Type} [Field K] [LinearOrder K] [FloorRing K] [Transc K]

/-- A column that relaxation can reach: off the border, and not next to its lower sides (see C34). -/
def Reachable (g : Grid K) (i j : ℤ) : Prop :=
  (2 ≤ i ∧ i < 2 * g.halfX) ∧ (2 ≤ j ∧ j < 2 * g.halfY)

/-- The largest height difference allowed between two neighbouring columns: the tangent of the repose
angle times the width of a column, rounded to a whole number of cells. -/
def reposeStep (g : Grid K) (p : SimParam K) : K :=
  g.cellZ * (roundAway (g.cellXY * Transc.tan p.reposeAngle / g.cellZ) : K)

/-- Every reachable terrain column is stable towards each of its four neighbours. -/
def TerrainAtRest (g : Grid K) (p : SimParam K) (tol : K) (s : SimOut K) : Prop :=
  ∀ i j, Reachable g i j → ∀ i' j', Adjacent i j i' j' →
    TerrainStable s (reposeStep g p) tol (s.terrain i j) i' j'

/-- Every step of the history that moves the body ends in equilibrium (rather than at the maximum
number of passes), and puts no body soil on the terrain for want of a wall to carry it. -/
def AllSettle (fuel : ℕ) (g : Grid K) (p : SimParam K) (tol : K) :
    List (Vec3 K × Quat K) → Body K → World K → Prop
  | [], _, _ => True
  | q :: l, body, w => ∀ r, step fuel q.1 q.2 g body p tol w = .ok r →
      (r.updated = true → r.world.out.equilibrium = true ∧
        ∃ m, r.world.log = w.log ++ m ∧ Warn.soilToTerrain ∉ m) ∧
      AllSettle fuel g p tol l r.body r.world

/-- Every step of the history that moves the body ends in equilibrium. -/
def AllEquilibrium (fuel : ℕ) (g : Grid K) (p : SimParam K) (tol : K) :
    List (Vec3 K × Quat K) → Body K → World K → Prop
  | [], _, _ => True
  | q :: l, body, w => ∀ r, step fuel q.1 q.2 g body p tol w = .ok r →
      (r.updated = true → r.world.out.equilibrium = true) ∧
      AllEquilibrium fuel g p tol l r.body r.world

end Soil
