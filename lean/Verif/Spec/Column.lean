import Verif.Spec.Stability

/-! # Body heights in a column -/

namespace Soil

variable {K : Type} [Field K] [LinearOrder K]

/-- Height `h` of column `(i, j)` is inside the body -/
def Occ (s : SimOut K) (i j : ℤ) (h : K) : Prop :=
  ∃ k, (k = 0 ∨ k = 2) ∧ HasBody s k i j ∧ s.body k i j ≤ h ∧ h ≤ s.body (k + 1) i j

/-- A layer that exists has its minimum below its maximum, and two layers are at least `tol` apart -/
structure ColOK (tol : K) (s : SimOut K) (i j : ℤ) : Prop where
  order : ∀ k, k = 0 ∨ k = 2 → HasBody s k i j → s.body k i j < s.body (k + 1) i j
  apart : HasBody s 0 i j → HasBody s 2 i j →
    s.body 1 i j + tol ≤ s.body 2 i j ∨ s.body 3 i j + tol ≤ s.body 0 i j

/-- Height `h` is strictly between layer `k` and the interval `[lo, hi]` -/
def Between (s : SimOut K) (i j : ℤ) (k : ℕ) (lo hi h : K) : Prop :=
  (s.body (k + 1) i j < h ∧ h < lo) ∨ (hi < h ∧ h < s.body k i j)

/-- Height of the gap between layer `k` and the interval `[lo, hi]`: negative if they overlap -/
def gap (s : SimOut K) (i j : ℤ) (k : ℕ) (lo hi : K) : K :=
  max (lo - s.body (k + 1) i j) (s.body k i j - hi)

/-- The heights of the grid are equally spaced by the height of a cell -/
structure ZGrid (g : Grid K) : Prop where
  pos : 0 < g.cellZ
  step : ∀ k, 0 ≤ k → k ≤ 2 * g.halfZ → g.vectZ k = g.vectZ 0 + k * g.cellZ

/-- Height `h` belongs to the grid cell of height index `k`: `vect_z_[k]` is the top of the cell -/
def InCell (g : Grid K) (k : ℤ) (h : K) : Prop := g.vectZ k - g.cellZ ≤ h ∧ h ≤ g.vectZ k

end Soil
