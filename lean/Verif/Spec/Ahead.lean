import Verif.Spec.Transport

/-! # Ahead and behind -/

namespace Soil

variable {K : Type} [Field K] [LinearOrder K]

/-- Column `(i, j)` has a body layer whose top is less than a cell (plus the tolerance) from the height `z`. -/
def WallNear (g : Grid K) (tol : K) (s : SimOut K) (z : K) (i j : ℤ) : Prop :=
  ∃ k, (k = 0 ∨ k = 2) ∧ HasBody s k i j ∧ |z - s.body (k + 1) i j| < g.cellZ + tol

variable [FloorRing K]

/-- The column `(i, j)` was chosen, among the nine columns around the column of `q`, with preference for the direction from `o` to
`q`.  Here `(α, β)` is the place of the chosen column relative to that of `q`. -/
structure Ahead (g : Grid K) (tol : K) (s : SimOut K) (o q : Vec3 K) (i j : ℤ) : Prop where
  /-- the body is present -/
  present : ∃ k, (k = 0 ∨ k = 2) ∧ HasBody s k i j
  /-- in a column other than its own only if its own is not reachable -/
  own : WallNear g tol s q.z (colX g q) (colY g q) → i = colX g q ∧ j = colY g q
  /-- behind, along the main direction, only if no column that is not behind is reachable -/
  behindX : |q.y - o.y| < |q.x - o.x| → ((i - colX g q : ℤ) : K) * (q.x - o.x) < 0 →
    ∀ a b : ℤ, |a| ≤ 1 → |b| ≤ 1 → 0 ≤ (a : K) * (q.x - o.x) → ¬ WallNear g tol s q.z (colX g q + a) (colY g q + b)
  behindY : |q.x - o.x| ≤ |q.y - o.y| → ((j - colY g q : ℤ) : K) * (q.y - o.y) < 0 →
    ∀ a b : ℤ, |a| ≤ 1 → |b| ≤ 1 → 0 ≤ (b : K) * (q.y - o.y) → ¬ WallNear g tol s q.z (colX g q + a) (colY g q + b)
  /-- elsewhere than straight ahead only if the column straight ahead is not reachable, or its own column is -/
  straightX : |q.y - o.y| < |q.x - o.x| → (i, j) ≠ (colX g q, colY g q) →
    ∀ a : ℤ, |a| ≤ 1 → 0 < (a : K) * (q.x - o.x) → (i, j) ≠ (colX g q + a, colY g q) →
      ¬ WallNear g tol s q.z (colX g q + a) (colY g q)
  straightY : |q.x - o.x| ≤ |q.y - o.y| → (i, j) ≠ (colX g q, colY g q) →
    ∀ b : ℤ, |b| ≤ 1 → 0 < (b : K) * (q.y - o.y) → (i, j) ≠ (colX g q, colY g q + b) →
      ¬ WallNear g tol s q.z (colX g q) (colY g q + b)
  /-- against the other component of the movement only if the column on the other side is not reachable -/
  sideX : |q.y - o.y| < |q.x - o.x| → ((j - colY g q : ℤ) : K) * (q.y - o.y) < 0 →
    ¬ WallNear g tol s q.z i (2 * colY g q - j)
  sideY : |q.x - o.x| ≤ |q.y - o.y| → ((i - colX g q : ℤ) : K) * (q.x - o.x) < 0 →
    ¬ WallNear g tol s q.z (2 * colX g q - i) j

end Soil
