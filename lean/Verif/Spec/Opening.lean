import Verif.Spec.WellFormed
import Verif.Spec.State

/-! # Gaps between body layers, and the walls that close them -/

namespace Soil

variable {K : Type} [Field K] [LinearOrder K]

/-- Column `(i, j)` has both body layers; the gap between them reaches from `f`, the top of the lower
layer, to `m`, the bottom of the upper one. -/
def Gap (s : SimOut K) (i j : ℤ) (f m : K) : Prop :=
  ∃ k, (k = 0 ∨ k = 2) ∧ HasBody s k i j ∧ HasBody s (otherLayer k) i j ∧
    s.body k i j < s.body (otherLayer k) i j ∧ f = s.body (k + 1) i j ∧ m = s.body (otherLayer k) i j

/-- The soil on the lower layer reaches the upper layer. -/
def Full (s : SimOut K) (i j : ℤ) : Prop :=
  ∀ k, (k = 0 ∨ k = 2) → s.body k i j < s.body (otherLayer k) i j →
    s.body (otherLayer k) i j ≤ s.body (k + 1) i j + layerSoil s k i j

/-- Column `(i, j)` has a single body layer, and it covers the heights from `f` to `m`. -/
def Wall (s : SimOut K) (i j : ℤ) (f m : K) : Prop :=
  ∃ k, (k = 0 ∨ k = 2) ∧ HasBody s k i j ∧ ¬ HasBody s (otherLayer k) i j ∧
    s.body k i j ≤ f ∧ m ≤ s.body (k + 1) i j

/-- The eight lateral directions -/
def Lateral (d : ℤ × ℤ) : Prop := (-1 ≤ d.1 ∧ d.1 ≤ 1) ∧ (-1 ≤ d.2 ∧ d.2 ≤ 1) ∧ d ≠ (0, 0)

/-- From column `(i, j)` a straight corridor of `n` columns with a gap leads in direction `d`. -/
def Corridor (s : SimOut K) (i j : ℤ) (d : ℤ × ℤ) (n : ℤ) : Prop :=
  1 ≤ n ∧ ∀ m, 0 ≤ m → m < n → ∃ f c, Gap s (i + m * d.1) (j + m * d.2) f c

/-- The corridor ends at a wall that closes the last gap. -/
def Closed (s : SimOut K) (i j : ℤ) (d : ℤ × ℤ) (n : ℤ) : Prop :=
  Corridor s i j d n ∧ ∃ f c, Gap s (i + (n - 1) * d.1) (j + (n - 1) * d.2) f c ∧
    Wall s (i + n * d.1) (j + n * d.2) f c

/-- The column after the corridor is not a wall closing the last gap. -/
def Opens (s : SimOut K) (i j : ℤ) (d : ℤ × ℤ) (n : ℤ) : Prop :=
  Corridor s i j d n ∧ ∀ f c, Gap s (i + (n - 1) * d.1) (j + (n - 1) * d.2) f c →
    ¬ Wall s (i + n * d.1) (j + n * d.2) f c

/-- Column `(a, b)` has received soil. -/
def Received (s s' : SimOut K) (a b : ℤ) : Prop :=
  s.terrain a b < s'.terrain a b ∨ ∃ k, (k = 0 ∨ k = 2) ∧ layerSoil s k a b < layerSoil s' k a b

end Soil
