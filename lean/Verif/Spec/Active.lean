import Verif.Spec.Footprint

/-! # Unstable terrain columns -/

namespace Soil

variable {K : Type} [Field K] [LinearOrder K]

/-- Two columns share a side -/
def Adjacent (i j i' j' : ℤ) : Prop :=
  (i' = i - 1 ∧ j' = j) ∨ (i' = i + 1 ∧ j' = j) ∨ (i' = i ∧ j' = j - 1) ∨ (i' = i ∧ j' = j + 1)

/-- The terrain of column `(i, j)` is higher than that of one of its four neighbours by more than
`dh` and the tolerance. -/
def Unstable (s : SimOut K) (dh tol : K) (i j : ℤ) : Prop :=
  ∃ i' j', Adjacent i j i' j' ∧ s.terrain i' j' < s.terrain i j - dh - tol


end Soil
