import Verif.Spec.Cells
import Verif.Proof.Lattice

/-!
# Exact arithmetic is exact on whole numbers of cells
-/

set_option linter.unusedSectionVars false

namespace Soil

open FOps

variable {K : Type} [Field K] [LinearOrder K] [FloorRing K] [Transc K] [IsStrictOrderedRing K]

/-- The heights `n * c` in exact arithmetic -/
def exactCells (c tol : K) (t : TolOK c tol) (N C : ℤ) : CellArith K c tol N C where
  emb n := n * c
  zero := by simp [FOps.zero]
  one := by simp
  add m n _ _ _ := by simp only [ex_add]; push_cast; ring
  sub m n _ _ _ := by simp only [ex_sub]; push_cast; ring
  abs n _ := by
    have hc := t.cpos
    simp only [ex_abs]
    rw [abs_mul, abs_of_pos hc]; push_cast; rfl
  lt m n _ _ := by
    have hc := t.cpos
    simp [ex_lt, hc]
  eq m n _ _ := by
    have hc := t.cpos.ne'
    simp [ex_eq, hc]
  addTol_lt m n _ _ := by
    simp only [ex_lt, ex_add]
    congr 1
    rw [t.add_lt ⟨m, rfl⟩ ⟨n, rfl⟩]
    simp [t.cpos]
  lt_addTol m n _ _ := by
    simp only [ex_lt, ex_add]
    congr 1
    rw [t.lt_add ⟨m, rfl⟩ ⟨n, rfl⟩]
    simp [t.cpos]
  lt_subTol m n _ _ := by
    simp only [ex_lt, ex_sub]
    congr 1
    rw [t.lt_sub ⟨m, rfl⟩ ⟨n, rfl⟩]
    simp [t.cpos]
  subTol_lt m n _ _ := by
    simp only [ex_lt, ex_sub]
    congr 1
    rw [t.sub_lt ⟨m, rfl⟩ ⟨n, rfl⟩]
    simp [t.cpos]
  tol_lt n _ := by
    simp only [ex_lt]
    congr 1
    rw [t.tol_lt ⟨n, rfl⟩]
    simp [t.cpos]
  lt_tol n _ := by
    simp only [ex_lt]
    congr 1
    rw [t.lt_tol ⟨n, rfl⟩]
    have := t.cpos
    simp [mul_nonpos_iff, this, this.le, not_le.mpr this]
  half n _ := by
    have hc := t.cpos
    have h1 := t.pos; have h2 := t.lt
    simp only [ex_mul, ex_floor, ex_div, ex_add, ex_ofRat]
    have hd0 : 0 < tol / c := div_pos h1 hc
    have hd1 : tol / c < 1 / 2 := by rw [div_lt_iff₀ hc]; linarith
    have he : (((1 / 2 : ℚ) : K) * (n * c) + tol) / c = (n : K) / 2 + tol / c := by
      push_cast; field_simp
    have : ⌊(n : K) / 2 + tol / c⌋ = n / 2 := by
      rw [Int.floor_eq_iff]
      rcases Int.even_or_odd' n with ⟨m, hm | hm⟩
      · have h' : n / 2 = m := by omega
        rw [h', hm]; push_cast; constructor <;> linarith
      · have h' : n / 2 = m := by omega
        rw [h', hm]; push_cast; constructor <;> linarith
    rw [he, this, mul_comm]
  small n _ := by
    have hc := t.cpos
    simp only [ex_lt, ex_mul, ex_ofRat]
    congr 1
    rw [mul_lt_mul_iff_of_pos_right hc]
    push_cast
    apply propext
    constructor
    · intro h
      have : (n : K) < 1 := h.trans (by norm_num)
      have : n < 1 := by exact_mod_cast this
      omega
    · intro h
      have : (n : K) ≤ 0 := by exact_mod_cast h
      refine lt_of_le_of_lt this (by norm_num)
  round n _ := by
    have hc := t.cpos.ne'
    simp only [ex_mul, ex_round, ex_div]
    rw [mul_div_cancel_right₀ _ hc, roundAway_intCast, mul_comm]
  count k n _ _ _ := by
    have hc := t.cpos.ne'
    simp only [ex_round, ex_div, ex_add, ex_ofInt]
    rw [mul_div_cancel_right₀ _ hc, roundAway_intCast, castInt_exact, ← Int.cast_add, truncZ_intCast]

end Soil
