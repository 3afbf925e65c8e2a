import Verif.Spec.Transport

/-! # Soil that the body loses when it moves (C70) -/

namespace Soil

variable {K : Type} [Field K] [LinearOrder K] [FloorRing K] [Transc K] [IsStrictOrderedRing K]

/-- None of the nine columns around a place has a body layer that would take the soil: every layer is
at least a cell (plus the tolerance) away in height, and as many metres as the grid has cells in
height. -/
def NoPlace (g : Grid K) (tol : K) (s : SimOut K) (q : Vec3 K) : Prop :=
  ∀ k i j, k = 0 ∨ k = 2 → colX g q - 1 ≤ i → i ≤ colX g q + 1 → colY g q - 1 ≤ j →
    j ≤ colY g q + 1 → HasBody s k i j →
    g.cellZ + tol ≤ |q.z - s.body (k + 1) i j| ∧ 2 * (g.halfZ : K) ≤ |q.z - s.body (k + 1) i j|

/-- an amount rounded to whole cells -/
def wholeCells (g : Grid K) (h : K) : K := g.cellZ * (roundAway (h / g.cellZ) : ℤ)

open Classical in
/-- the records that hold soil (at least nine tenths of a cell) and have no place on the body at the
new pose -/
noncomputable def lostOf (g : Grid K) (tol : K) (s : SimOut K) (pos : Vec3 K) (ori : Quat K)
    (l : List (BodySoil K)) : List (BodySoil K) :=
  l.filter fun e => decide (9 / 10 * g.cellZ ≤ e.h ∧ NoPlace g tol s (movedTo pos ori e))

/-- the amount of these records whose new column is `(i, j)` -/
noncomputable def lostAt (g : Grid K) (tol : K) (s : SimOut K) (pos : Vec3 K) (ori : Quat K)
    (l : List (BodySoil K)) (i j : ℤ) : K :=
  (((lostOf g tol s pos ori l).filter fun e => decide (colX g (movedTo pos ori e) = i ∧
    colY g (movedTo pos ori e) = j)).map fun e => wholeCells g e.h).sum

end Soil
