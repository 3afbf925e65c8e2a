import Verif.Model.Utils

/-!
# Arithmetic that is exact on whole numbers of cells

The C++ code computes with `float`.  When the cell height is a power of two (or, more generally,
when whole numbers of cells are represented exactly), every height the simulator handles is a whole
number of cells, and floating-point arithmetic handles such heights exactly.  `CellArith` collects
what is needed of an arithmetic for that; nothing is required of it elsewhere, and in particular
not for the horizontal positions, the rotations and the square roots.
-/

namespace Soil

open FOps

/-- The arithmetic `F` is exact on the heights `emb n`, which stand for `n` cells, as long as no more
than `N` cells are involved; the tolerance is visible in comparisons but does not blur them; and an
`int` counter up to `C` can be increased by a number of cells. -/
structure CellArith (F : Type) [FOps F] (cell tol : F) (N C : ℤ) where
  /-- the height of `n` cells -/
  emb : ℤ → F
  zero : (FOps.zero : F) = emb 0
  one : cell = emb 1
  add : ∀ m n, |m| ≤ N → |n| ≤ N → |m + n| ≤ N → emb m +ᶠ emb n = emb (m + n)
  sub : ∀ m n, |m| ≤ N → |n| ≤ N → |m - n| ≤ N → emb m -ᶠ emb n = emb (m - n)
  abs : ∀ n, |n| ≤ N → FOps.abs (emb n) = emb |n|
  lt : ∀ m n, |m| ≤ N → |n| ≤ N → (emb m <ᶠ emb n) = decide (m < n)
  eq : ∀ m n, |m| ≤ N → |n| ≤ N → FOps.eq (emb m) (emb n) = decide (m = n)
  addTol_lt : ∀ m n, |m| ≤ N → |n| ≤ N → (emb m +ᶠ tol <ᶠ emb n) = decide (m < n)
  lt_addTol : ∀ m n, |m| ≤ N → |n| ≤ N → (emb m <ᶠ emb n +ᶠ tol) = decide (m ≤ n)
  lt_subTol : ∀ m n, |m| ≤ N → |n| ≤ N → (emb m <ᶠ emb n -ᶠ tol) = decide (m < n)
  subTol_lt : ∀ m n, |m| ≤ N → |n| ≤ N → (emb m -ᶠ tol <ᶠ emb n) = decide (m ≤ n)
  tol_lt : ∀ n, |n| ≤ N → (tol <ᶠ emb n) = decide (0 < n)
  lt_tol : ∀ n, |n| ≤ N → (emb n <ᶠ tol) = decide (n ≤ 0)
  /-- half of a height rounded down to a whole number of cells -/
  half : ∀ n, |n| ≤ N →
    cell *ᶠ FOps.floor ((ofRat (1 / 2) *ᶠ emb n +ᶠ tol) /ᶠ cell) = emb (n / 2)
  /-- comparison with nine tenths of a cell -/
  small : ∀ n, |n| ≤ N → (emb n <ᶠ ofRat (9 / 10) *ᶠ cell) = decide (n ≤ 0)
  /-- rounding to a whole number of cells -/
  round : ∀ n, |n| ≤ N → cell *ᶠ FOps.round (emb n /ᶠ cell) = emb n
  /-- counting cells -/
  count : ∀ k n, |k| ≤ C → |n| ≤ N → |k + n| ≤ C →
    castInt (ofInt k +ᶠ FOps.round (emb n /ᶠ cell)) = .ok (k + n)

end Soil
