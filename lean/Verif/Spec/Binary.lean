import Mathlib.Data.Rat.Floor
import Mathlib.Order.Monotone.Basic

/-! # What is needed of a rounding function -/

namespace Soil

/-- Rounding is monotone and returns numbers of `prec` binary digits unchanged. -/
structure Binary (rnd : ℚ → ℚ) (prec : ℕ) : Prop where
  mono : Monotone rnd
  fix : ∀ k e : ℤ, |k| ≤ 2 ^ prec → rnd (k * 2 ^ e) = k * 2 ^ e

/-- The conditions under which arithmetic with `prec` binary digits is exact on whole numbers of cells of height
`2 ^ a`: `2 ^ j` units make a cell, the tolerance is between one unit and one unit less than half a
cell, and heights of `N` cells have at most `prec` digits in units. -/
structure CellDigits (prec : ℕ) (a : ℤ) (j : ℕ) (tol : ℚ) (N C : ℤ) : Prop where
  digits : 3 ≤ prec
  tol_ge : (2 : ℚ) ^ (a - j) ≤ tol
  tol_le : tol ≤ (2 : ℚ) ^ (a - 1) - (2 : ℚ) ^ (a - j)
  heights : (N + 1) * 2 ^ j ≤ 2 ^ prec
  count : C ≤ 2 ^ prec
  int : C < 2 ^ 31

end Soil
