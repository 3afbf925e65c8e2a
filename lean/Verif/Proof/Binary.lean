import Verif.Model.Binary
import Verif.Spec.Binary
import Verif.Spec.Cells
import Verif.Proof.Basic
import Mathlib.Tactic.Linarith
import Mathlib.Tactic.Ring
import Mathlib.Tactic.FieldSimp
import Mathlib.Tactic.Positivity
import Mathlib.Tactic.NormNum

/-! # Rounded arithmetic is exact on whole numbers of cells -/

set_option linter.unusedSectionVars false

namespace Soil

open FOps

section nearest

theorem halfEven_le (q : ℚ) : |(halfEven q : ℚ) - q| ≤ 1 / 2 := by
  have h1 := Int.floor_le q
  have h2 := Int.lt_floor_add_one q
  unfold halfEven
  rw [abs_le]
  split_ifs <;> push_cast <;> constructor <;> linarith

theorem halfEven_intCast (n : ℤ) : halfEven n = n := by
  unfold halfEven
  simp

theorem halfEven_mono {x y : ℚ} (h : x ≤ y) : halfEven x ≤ halfEven y := by
  rcases h.eq_or_lt with rfl | h
  · exact le_rfl
  by_contra hc
  have h1 : halfEven y + 1 ≤ halfEven x := by omega
  have h1' : (halfEven y : ℚ) + 1 ≤ halfEven x := by exact_mod_cast h1
  have a := abs_le.mp (halfEven_le x)
  have b := abs_le.mp (halfEven_le y)
  linarith [a.1, a.2, b.1, b.2]

variable {prec : ℕ}

theorem two_zpow_pos (e : ℤ) : (0 : ℚ) < 2 ^ e := zpow_pos (by norm_num) e

/-- A positive number in units of its last digit -/
theorem digits_pos {x : ℚ} (hx : 0 < x) :
    (2 : ℚ) ^ ((prec : ℤ) - 1) ≤ x / 2 ^ lastDigit prec x ∧ x / 2 ^ lastDigit prec x < 2 ^ (prec : ℤ) := by
  have h1 := Int.zpow_log_le_self (b := 2) (by norm_num) hx
  have h2 := Int.lt_zpow_succ_log_self (b := 2) (by norm_num) x
  have hp := two_zpow_pos (lastDigit prec x)
  push_cast at h1 h2
  rw [le_div_iff₀ hp, div_lt_iff₀ hp, ← zpow_add₀ (by norm_num), ← zpow_add₀ (by norm_num)]
  unfold lastDigit
  constructor
  · convert h1 using 2; ring
  · convert h2 using 2; ring

theorem roundPos_bounds (hp : 1 ≤ prec) {x : ℚ} (hx : 0 < x) :
    (2 : ℚ) ^ (Int.log 2 x) ≤ roundPos prec x ∧ roundPos prec x ≤ 2 ^ (Int.log 2 x + 1) := by
  obtain ⟨h1, h2⟩ := digits_pos (prec := prec) hx
  have hd := two_zpow_pos (lastDigit prec x)
  have a1 : (2 : ℤ) ^ (prec - 1) ≤ halfEven (x / 2 ^ lastDigit prec x) := by
    rw [← halfEven_intCast (2 ^ (prec - 1))]
    apply halfEven_mono
    push_cast
    have e : ((prec - 1 : ℕ) : ℤ) = (prec : ℤ) - 1 := by omega
    rw [← zpow_natCast, e]
    exact h1
  have a2 : halfEven (x / 2 ^ lastDigit prec x) ≤ (2 : ℤ) ^ prec := by
    rw [← halfEven_intCast (2 ^ prec)]
    apply halfEven_mono
    push_cast
    rw [← zpow_natCast]
    exact h2.le
  have a1' : (2 : ℚ) ^ ((prec : ℤ) - 1) ≤ (halfEven (x / 2 ^ lastDigit prec x) : ℚ) := by
    have e : ((prec - 1 : ℕ) : ℤ) = (prec : ℤ) - 1 := by omega
    rw [← e, zpow_natCast]
    exact_mod_cast a1
  have a2' : (halfEven (x / 2 ^ lastDigit prec x) : ℚ) ≤ (2 : ℚ) ^ (prec : ℤ) := by
    rw [zpow_natCast]
    exact_mod_cast a2
  unfold roundPos
  constructor
  · calc (2 : ℚ) ^ (Int.log 2 x) = 2 ^ ((prec : ℤ) - 1) * 2 ^ lastDigit prec x := by
          rw [← zpow_add₀ (by norm_num)]; unfold lastDigit; congr 1; ring
      _ ≤ _ := mul_le_mul_of_nonneg_right a1' hd.le
  · calc _ ≤ (2 : ℚ) ^ (prec : ℤ) * 2 ^ lastDigit prec x := mul_le_mul_of_nonneg_right a2' hd.le
      _ = (2 : ℚ) ^ (Int.log 2 x + 1) := by
          rw [← zpow_add₀ (by norm_num)]; unfold lastDigit; congr 1; ring

theorem roundPos_pos (hp : 1 ≤ prec) {x : ℚ} (hx : 0 < x) : 0 < roundPos prec x :=
  lt_of_lt_of_le (two_zpow_pos _) (roundPos_bounds hp hx).1

theorem roundPos_mono (hp : 1 ≤ prec) {x y : ℚ} (hx : 0 < x) (h : x ≤ y) :
    roundPos prec x ≤ roundPos prec y := by
  have hy : 0 < y := lt_of_lt_of_le hx h
  have hl : Int.log 2 x ≤ Int.log 2 y := Int.log_mono_right hx h
  rcases hl.eq_or_lt with e | e
  · have e' : lastDigit prec x = lastDigit prec y := by unfold lastDigit; rw [e]
    unfold roundPos
    rw [e']
    have hd := two_zpow_pos (lastDigit prec y)
    refine mul_le_mul_of_nonneg_right ?_ hd.le
    have := halfEven_mono (div_le_div_of_nonneg_right h hd.le)
    exact_mod_cast this
  · calc _ ≤ (2 : ℚ) ^ (Int.log 2 x + 1) := (roundPos_bounds hp hx).2
      _ ≤ 2 ^ (Int.log 2 y) := zpow_le_zpow_right₀ (by norm_num) (by omega)
      _ ≤ _ := (roundPos_bounds hp hy).1

theorem roundPos_fix (hp : 1 ≤ prec) {k e : ℤ} (h0 : 0 < k) (hk : k ≤ 2 ^ prec) :
    roundPos prec (k * 2 ^ e) = k * 2 ^ e := by
  have hk0 : (0 : ℚ) < k := by exact_mod_cast h0
  have hx : (0 : ℚ) < k * 2 ^ e := mul_pos hk0 (two_zpow_pos e)
  obtain ⟨h1, h2⟩ := digits_pos (prec := prec) hx
  have key : ∃ n : ℤ, (k : ℚ) * 2 ^ e / 2 ^ lastDigit prec (k * 2 ^ e) = n := by
    set d := lastDigit prec ((k : ℚ) * 2 ^ e) with hd
    by_cases hde : d ≤ e
    · refine ⟨k * 2 ^ (e - d).toNat, ?_⟩
      have : ((e - d).toNat : ℤ) = e - d := by omega
      push_cast
      rw [← zpow_natCast, this, zpow_sub₀ (by norm_num)]
      ring
    · -- only the largest number of digits
      have hk' : (k : ℚ) ≤ 2 ^ (prec : ℤ) := by rw [zpow_natCast]; exact_mod_cast hk
      have h3 : (2 : ℚ) ^ ((prec : ℤ) - 1) ≤ 2 ^ (prec : ℤ) * 2 ^ (e - d) := by
        calc _ ≤ _ := h1
          _ = (k : ℚ) * 2 ^ (e - d) := by rw [zpow_sub₀ (by norm_num)]; ring
          _ ≤ _ := mul_le_mul_of_nonneg_right hk' (two_zpow_pos _).le
      rw [← zpow_add₀ (by norm_num)] at h3
      have h4 := (zpow_le_zpow_iff_right₀ (by norm_num : (1 : ℚ) < 2)).mp h3
      have h5 : e - d = -1 := by omega
      have h6 : (2 : ℚ) ^ ((prec : ℤ) - 1) ≤ k * 2 ^ (-1 : ℤ) := by
        rw [← h5]
        calc _ ≤ _ := h1
          _ = (k : ℚ) * 2 ^ (e - d) := by rw [zpow_sub₀ (by norm_num)]; ring
      have h7 : (2 : ℚ) ^ (prec : ℤ) ≤ k := by
        rw [zpow_sub₀ (by norm_num)] at h6
        norm_num at h6 ⊢
        linarith
      have h8 : (k : ℚ) = 2 ^ (prec : ℤ) := le_antisymm hk' h7
      refine ⟨2 ^ (prec - 1), ?_⟩
      have e1 : ((prec - 1 : ℕ) : ℤ) = (prec : ℤ) - 1 := by omega
      push_cast
      rw [h8, ← zpow_natCast, e1, ← zpow_add₀ (by norm_num), ← zpow_sub₀ (by norm_num)]
      congr 1
      omega
  obtain ⟨n, hn⟩ := key
  unfold roundPos
  rw [hn, halfEven_intCast, ← hn]
  have := (two_zpow_pos (lastDigit prec ((k : ℚ) * 2 ^ e))).ne'
  field_simp

theorem roundBinary_binary (hp : 1 ≤ prec) : Binary (roundBinary prec) prec where
  mono x y h := by
    unfold roundBinary
    rcases lt_trichotomy x 0 with hx | hx | hx <;> rcases lt_trichotomy y 0 with hy | hy | hy
    · rw [if_neg hx.ne, if_neg (not_lt.mpr hx.le), if_neg hy.ne, if_neg (not_lt.mpr hy.le)]
      have := roundPos_mono hp (x := -y) (y := -x) (by linarith) (by linarith)
      linarith
    · rw [if_neg hx.ne, if_neg (not_lt.mpr hx.le), if_pos hy]
      have := roundPos_pos hp (x := -x) (by linarith)
      linarith
    · rw [if_neg hx.ne, if_neg (not_lt.mpr hx.le), if_neg hy.ne', if_pos hy]
      have := roundPos_pos hp (x := -x) (by linarith)
      have := roundPos_pos hp hy
      linarith
    · linarith
    · rw [if_pos hx, if_pos hy]
    · rw [if_pos hx, if_neg hy.ne', if_pos hy]
      exact (roundPos_pos hp hy).le
    · linarith
    · linarith
    · rw [if_neg hx.ne', if_pos hx, if_neg hy.ne', if_pos hy]
      exact roundPos_mono hp hx h
  fix k e hk := by
    have h2 := two_zpow_pos e
    have hk' := abs_le.mp hk
    unfold roundBinary
    rcases lt_trichotomy k 0 with h | h | h
    · have hq : (k : ℚ) < 0 := by exact_mod_cast h
      have hx : (k : ℚ) * 2 ^ e < 0 := mul_neg_of_neg_of_pos hq h2
      rw [if_neg hx.ne, if_neg (not_lt.mpr hx.le)]
      have := roundPos_fix hp (k := -k) (e := e) (by omega) (by omega)
      push_cast at this
      rw [neg_mul_eq_neg_mul, this]
      ring
    · subst h; simp
    · have hq : (0 : ℚ) < k := by exact_mod_cast h
      have hx : 0 < (k : ℚ) * 2 ^ e := mul_pos hq h2
      rw [if_neg hx.ne', if_pos hx]
      exact roundPos_fix hp h (by omega)

end nearest

section cells

variable {R : Rounding} {prec : ℕ} {a : ℤ} {j : ℕ} {tol : ℚ} {N C : ℤ}

theorem Binary.between (hB : Binary R.rnd prec) {k l e : ℤ} (hk : |k| ≤ 2 ^ prec) (hl : |l| ≤ 2 ^ prec)
    {x : ℚ} (h1 : k * 2 ^ e ≤ x) (h2 : x ≤ l * 2 ^ e) : k * 2 ^ e ≤ R.rnd x ∧ R.rnd x ≤ l * 2 ^ e := by
  have a1 := hB.mono h1
  have a2 := hB.mono h2
  rw [hB.fix k e hk] at a1
  rw [hB.fix l e hl] at a2
  exact ⟨a1, a2⟩

variable (hB : Binary R.rnd prec) (D : CellDigits prec a j tol N C)

include D

theorem CellDigits.j2 : 1 ≤ j := by
  have h1 := D.tol_ge
  have h2 := D.tol_le
  have h3 := two_zpow_pos (a - j)
  have h4 : (2 : ℚ) ^ (a - j) < 2 ^ (a - 1) := by linarith
  have := (zpow_lt_zpow_iff_right₀ (by norm_num : (1 : ℚ) < 2)).mp h4
  omega

theorem CellDigits.abs_le {n d : ℤ} (hn : |n| ≤ N) (hd : |d| ≤ 2 ^ j) : |n * 2 ^ j + d| ≤ 2 ^ prec := by
  have hp : (0 : ℤ) < 2 ^ j := by positivity
  calc |n * 2 ^ j + d| ≤ |n * 2 ^ j| + |d| := abs_add_le _ _
    _ = |n| * 2 ^ j + |d| := by rw [abs_mul, abs_of_pos hp]
    _ ≤ N * 2 ^ j + 2 ^ j := add_le_add (mul_le_mul_of_nonneg_right hn hp.le) hd
    _ = (N + 1) * 2 ^ j := by ring
    _ ≤ _ := D.heights

theorem CellDigits.abs_le' {n : ℤ} (hn : |n| ≤ N) : |n| ≤ 2 ^ prec := by
  have hp : (1 : ℤ) ≤ 2 ^ j := by exact_mod_cast Nat.one_le_two_pow
  have h0 := abs_nonneg n
  have := D.heights
  nlinarith

omit D in
/-- a cell in units -/
theorem cell_units (a : ℤ) (j : ℕ) : (2 : ℚ) ^ a = 2 ^ j * 2 ^ (a - j) := by
  rw [← zpow_natCast, ← zpow_add₀ (by norm_num)]
  congr 1
  ring

omit D in
theorem half_cell (a : ℤ) : (2 : ℚ) ^ a = 2 * 2 ^ (a - 1) := by
  rw [zpow_sub₀ (by norm_num)]
  norm_num
  ring

include hB

/-- Heights are returned unchanged. -/
theorem CellDigits.fix {n : ℤ} (hn : |n| ≤ N) (e : ℤ) : R.rnd (n * 2 ^ e) = n * 2 ^ e :=
  hB.fix n e (D.abs_le' hn)

theorem CellDigits.add_tol {n : ℤ} (hn : |n| ≤ N) :
    n * (2 : ℚ) ^ a < R.rnd (n * 2 ^ a + tol) ∧ R.rnd (n * 2 ^ a + tol) < (n + 1) * 2 ^ a := by
  have hj := D.j2
  have h1 := D.tol_ge
  have h2 := D.tol_le
  have u := two_zpow_pos (a - j)
  have c := two_zpow_pos a
  have e := cell_units a j
  have hc := half_cell a
  have hp : (1 : ℤ) ≤ 2 ^ j := by exact_mod_cast Nat.one_le_two_pow
  obtain ⟨b1, b2⟩ := hB.between (k := n * 2 ^ j + 1) (l := n * 2 ^ j + (2 ^ j - 1)) (e := a - j)
    (D.abs_le hn (by rw [_root_.abs_le]; omega)) (D.abs_le hn (by rw [_root_.abs_le]; omega))
    (x := n * 2 ^ a + tol) (by push_cast; rw [e]; linarith) (by push_cast; rw [e] at hc ⊢; nlinarith)
  push_cast at b1 b2
  constructor
  · refine lt_of_lt_of_le ?_ b1
    rw [e]; linarith
  · refine lt_of_le_of_lt b2 ?_
    rw [e]; linarith

theorem CellDigits.sub_tol {n : ℤ} (hn : |n| ≤ N) :
    (n - 1) * (2 : ℚ) ^ a < R.rnd (n * 2 ^ a - tol) ∧ R.rnd (n * 2 ^ a - tol) < n * 2 ^ a := by
  have hj := D.j2
  have h1 := D.tol_ge
  have h2 := D.tol_le
  have u := two_zpow_pos (a - j)
  have c := two_zpow_pos a
  have e := cell_units a j
  have hc := half_cell a
  have hp : (1 : ℤ) ≤ 2 ^ j := by exact_mod_cast Nat.one_le_two_pow
  obtain ⟨b1, b2⟩ := hB.between (k := n * 2 ^ j + (1 - 2 ^ j)) (l := n * 2 ^ j + (-1)) (e := a - j)
    (D.abs_le hn (by rw [_root_.abs_le]; omega)) (D.abs_le hn (by rw [_root_.abs_le]; omega))
    (x := n * 2 ^ a - tol) (by push_cast; rw [e] at hc ⊢; nlinarith) (by push_cast; rw [e]; linarith)
  push_cast at b1 b2
  constructor
  · refine lt_of_lt_of_le ?_ b1
    rw [e]; linarith
  · refine lt_of_le_of_lt b2 ?_
    rw [e]; linarith

/-- Half a height plus the tolerance, in cells -/
theorem CellDigits.half_tol {n : ℤ} (hn : |n| ≤ N) :
    ⌊R.rnd (R.rnd (n * 2 ^ (a - 1) + tol) / 2 ^ a)⌋ = n / 2 := by
  have hj := D.j2
  obtain ⟨i, rfl⟩ : ∃ i, j = i + 1 := ⟨j - 1, by omega⟩
  have h1 := D.tol_ge
  have h2 := D.tol_le
  have u := two_zpow_pos (a - (i + 1 : ℕ))
  have c := two_zpow_pos a
  have e : (2 : ℚ) ^ (a - 1) = 2 ^ i * 2 ^ (a - (i + 1 : ℕ)) := by
    rw [← zpow_natCast, ← zpow_add₀ (by norm_num)]; congr 1; push_cast; ring
  have e' := cell_units a (i + 1)
  have hp : (1 : ℤ) ≤ 2 ^ i := by exact_mod_cast Nat.one_le_two_pow
  have bound : ∀ d : ℤ, |d| ≤ 2 ^ i → |n * 2 ^ i + d| ≤ 2 ^ prec := by
    intro d hd
    have hh := D.heights
    have h0 := abs_nonneg n
    calc |n * 2 ^ i + d| ≤ |n * 2 ^ i| + |d| := abs_add_le _ _
      _ = |n| * 2 ^ i + |d| := by rw [abs_mul, abs_of_pos (by omega : (0 : ℤ) < 2 ^ i)]
      _ ≤ N * 2 ^ i + 2 ^ i := add_le_add (mul_le_mul_of_nonneg_right hn (by omega)) hd
      _ ≤ (N + 1) * 2 ^ (i + 1) := by rw [pow_succ]; nlinarith
      _ ≤ _ := hh
  have bk := bound 1 (by rw [_root_.abs_le]; omega)
  have bl := bound (2 ^ i - 1) (by rw [_root_.abs_le]; omega)
  obtain ⟨b1, b2⟩ := hB.between (e := a - (i + 1 : ℕ)) bk bl
    (x := n * 2 ^ (a - 1) + tol) (by rw [e]; push_cast at h1 ⊢; linarith)
    (by rw [e] at h2 ⊢; push_cast at h2 ⊢; linarith)
  set y := R.rnd (n * 2 ^ (a - 1) + tol) with hy
  have q : ∀ k : ℤ, (k : ℚ) * 2 ^ (a - (i + 1 : ℕ)) = k * 2 ^ (-(i + 1 : ℕ) : ℤ) * 2 ^ a := by
    intro k
    rw [mul_assoc, ← zpow_add₀ (by norm_num)]; congr 2; ring
  obtain ⟨c1, c2⟩ := hB.between (e := -(i + 1 : ℕ)) bk bl (x := y / 2 ^ a)
    (by rw [le_div_iff₀ c, ← q]; exact b1) (by rw [div_le_iff₀ c, ← q]; exact b2)
  have z : (2 : ℚ) ^ (-(i + 1 : ℕ) : ℤ) * 2 ^ i = 1 / 2 := by
    rw [zpow_neg, zpow_natCast, pow_succ]
    have : (2 : ℚ) ^ i ≠ 0 := by positivity
    field_simp
  have v := two_zpow_pos (-(i + 1 : ℕ) : ℤ)
  have hn2 : n = 2 * (n / 2) + n % 2 := by omega
  have hm := Int.emod_nonneg n (by norm_num : (2 : ℤ) ≠ 0)
  have hm' : n % 2 ≤ 1 := by omega
  have r0 : (0 : ℚ) ≤ ((n % 2 : ℤ) : ℚ) := by exact_mod_cast hm
  have r1 : ((n % 2 : ℤ) : ℚ) ≤ 1 := by exact_mod_cast hm'
  have hnq : (n : ℚ) = 2 * ((n / 2 : ℤ) : ℚ) + ((n % 2 : ℤ) : ℚ) := by exact_mod_cast hn2
  have w : ∀ d : ℚ, ((n : ℚ) * 2 ^ i + d) * 2 ^ (-(i + 1 : ℕ) : ℤ) =
      n / 2 + d * 2 ^ (-(i + 1 : ℕ) : ℤ) := by
    intro d; linarith [congrArg (fun t => (n : ℚ) * t) z]
  push_cast at c1 c2 w v z
  rw [w] at c1 c2
  rw [sub_mul, mul_comm ((2 : ℚ) ^ i), z] at c2
  rw [Int.floor_eq_iff]
  constructor <;> linarith

/-- Rounded arithmetic is exact on whole numbers of cells. -/
def binaryCells : CellArith (Flt R) (((2 : ℚ) ^ a : ℚ) : Flt R) (tol : Flt R) N C where
  emb n := ((n * 2 ^ a : ℚ) : Flt R)
  zero := by
    have := hB.fix 0 0 (by simp)
    show R.rnd 0 = _
    simpa using this
  one := by show (2 : ℚ) ^ a = _; simp
  add m n _ _ h := by
    show R.rnd ((m : ℚ) * 2 ^ a + n * 2 ^ a) = ((m + n : ℤ) : ℚ) * 2 ^ a
    rw [← D.fix hB h]; push_cast; ring_nf
  sub m n _ _ h := by
    show R.rnd ((m : ℚ) * 2 ^ a - n * 2 ^ a) = ((m - n : ℤ) : ℚ) * 2 ^ a
    rw [← D.fix hB h]; push_cast; ring_nf
  abs n _ := by
    have c := two_zpow_pos a
    show (if (n : ℚ) * 2 ^ a < 0 then -((n : ℚ) * 2 ^ a) else n * 2 ^ a) = ((|n| : ℤ) : ℚ) * 2 ^ a
    split_ifs with h
    · have : (n : ℚ) < 0 := by by_contra hc; rw [not_lt] at hc; nlinarith
      have : n < 0 := by exact_mod_cast this
      rw [abs_of_neg this]; push_cast; ring
    · have : (0 : ℚ) ≤ n := by by_contra hc; rw [not_le] at hc; exact h (mul_neg_of_neg_of_pos hc c)
      have : 0 ≤ n := by exact_mod_cast this
      rw [abs_of_nonneg this]
  lt m n _ _ := by
    have c := two_zpow_pos a
    show decide ((m : ℚ) * 2 ^ a < n * 2 ^ a) = _
    simp [c]
  eq m n _ _ := by
    have c := (two_zpow_pos a).ne'
    show decide ((m : ℚ) * 2 ^ a = n * 2 ^ a) = _
    simp [c]
  addTol_lt m n hm _ := by
    have c := two_zpow_pos a
    obtain ⟨h1, h2⟩ := D.add_tol hB hm
    show decide (R.rnd ((m : ℚ) * 2 ^ a + tol) < n * 2 ^ a) = _
    congr 1
    apply propext
    constructor
    · intro h
      by_contra hc
      have : (n : ℚ) ≤ m := by exact_mod_cast not_lt.mp hc
      nlinarith
    · intro h
      have : (m : ℚ) + 1 ≤ n := by exact_mod_cast h
      nlinarith
  lt_addTol m n _ hn := by
    have c := two_zpow_pos a
    obtain ⟨h1, h2⟩ := D.add_tol hB hn
    show decide ((m : ℚ) * 2 ^ a < R.rnd ((n : ℚ) * 2 ^ a + tol)) = _
    congr 1
    apply propext
    constructor
    · intro h
      by_contra hc
      have : (n : ℚ) + 1 ≤ m := by exact_mod_cast not_le.mp hc
      nlinarith
    · intro h
      have : (m : ℚ) ≤ n := by exact_mod_cast h
      nlinarith
  lt_subTol m n _ hn := by
    have c := two_zpow_pos a
    obtain ⟨h1, h2⟩ := D.sub_tol hB hn
    show decide ((m : ℚ) * 2 ^ a < R.rnd ((n : ℚ) * 2 ^ a - tol)) = _
    congr 1
    apply propext
    constructor
    · intro h
      by_contra hc
      have : (n : ℚ) ≤ m := by exact_mod_cast not_lt.mp hc
      nlinarith
    · intro h
      have : (m : ℚ) + 1 ≤ n := by exact_mod_cast h
      nlinarith
  subTol_lt m n hm _ := by
    have c := two_zpow_pos a
    obtain ⟨h1, h2⟩ := D.sub_tol hB hm
    show decide (R.rnd ((m : ℚ) * 2 ^ a - tol) < n * 2 ^ a) = _
    congr 1
    apply propext
    constructor
    · intro h
      by_contra hc
      have : (n : ℚ) + 1 ≤ m := by exact_mod_cast not_le.mp hc
      nlinarith
    · intro h
      have : (m : ℚ) ≤ n := by exact_mod_cast h
      nlinarith
  tol_lt n _ := by
    have c := two_zpow_pos a
    have u := two_zpow_pos (a - j)
    have h1 := D.tol_ge
    have h2 := D.tol_le
    have hc := half_cell a
    show decide (tol < (n : ℚ) * 2 ^ a) = _
    congr 1
    apply propext
    constructor
    · intro h
      by_contra hc
      have : (n : ℚ) ≤ 0 := by exact_mod_cast not_lt.mp hc
      nlinarith
    · intro h
      have : (1 : ℚ) ≤ n := by exact_mod_cast h
      nlinarith
  lt_tol n _ := by
    have c := two_zpow_pos a
    have u := two_zpow_pos (a - j)
    have h1 := D.tol_ge
    have h2 := D.tol_le
    have hc := half_cell a
    show decide ((n : ℚ) * 2 ^ a < tol) = _
    congr 1
    apply propext
    constructor
    · intro h
      by_contra hc
      have : (1 : ℚ) ≤ n := by exact_mod_cast not_le.mp hc
      nlinarith
    · intro h
      have : (n : ℚ) ≤ 0 := by exact_mod_cast h
      nlinarith
  half n hn := by
    have c := two_zpow_pos a
    have e1 : R.rnd (1 / 2) = 1 / 2 := by
      have := hB.fix 1 (-1) (by simpa using one_le_pow₀ (by norm_num : (1 : ℤ) ≤ 2))
      norm_num at this ⊢
      exact this
    show R.rnd ((2 : ℚ) ^ a * ((⌊R.rnd (R.rnd (R.rnd (R.rnd (1 / 2) * (n * 2 ^ a)) + tol) / 2 ^ a)⌋ : ℤ) : ℚ)) =
      ((n / 2 : ℤ) : ℚ) * 2 ^ a
    have e2 : (1 / 2 : ℚ) * (n * 2 ^ a) = n * 2 ^ (a - 1) := by rw [half_cell a]; ring
    rw [e1, e2, D.fix hB hn, D.half_tol hB hn, mul_comm, D.fix hB]
    have := abs_le.mp hn
    rw [abs_le]; omega
  small n _ := by
    have c := two_zpow_pos a
    have h8 : (8 : ℤ) ≤ 2 ^ prec := by
      calc (8 : ℤ) = 2 ^ 3 := by norm_num
        _ ≤ _ := pow_le_pow_right₀ (by norm_num) D.digits
    obtain ⟨b1, b2⟩ := hB.between (k := 7) (l := 8) (e := -3) (by rw [abs_le]; omega) (by rw [abs_le]; omega)
      (x := 9 / 10) (by norm_num) (by norm_num)
    have r1 : 7 / 8 ≤ R.rnd (9 / 10) := by refine le_trans ?_ b1; norm_num
    have r2 : R.rnd (9 / 10) ≤ 1 := by refine le_trans b2 ?_; norm_num
    obtain ⟨d1, d2⟩ := hB.between (k := 7) (l := 8) (e := a - 3) (by rw [abs_le]; omega)
      (by rw [abs_le]; omega) (x := R.rnd (9 / 10) * 2 ^ a)
      (by rw [zpow_sub₀ (by norm_num)]; norm_num; nlinarith)
      (by rw [zpow_sub₀ (by norm_num)]; norm_num; nlinarith)
    have d3 : (0 : ℚ) < R.rnd (R.rnd (9 / 10) * 2 ^ a) := by
      refine lt_of_lt_of_le ?_ d1
      have := two_zpow_pos (a - 3)
      push_cast; linarith
    have d4 : R.rnd (R.rnd (9 / 10) * 2 ^ a) ≤ 2 ^ a := by
      refine le_trans d2 ?_
      rw [zpow_sub₀ (by norm_num)]; norm_num; linarith
    show decide ((n : ℚ) * 2 ^ a < R.rnd (R.rnd (9 / 10) * 2 ^ a)) = _
    congr 1
    apply propext
    constructor
    · intro h
      by_contra hc
      have : (1 : ℚ) ≤ n := by exact_mod_cast not_le.mp hc
      nlinarith
    · intro h
      have : (n : ℚ) ≤ 0 := by exact_mod_cast h
      nlinarith
  round n hn := by
    have c := (two_zpow_pos a).ne'
    show R.rnd ((2 : ℚ) ^ a * ((roundAway (R.rnd ((n : ℚ) * 2 ^ a / 2 ^ a)) : ℤ) : ℚ)) = n * 2 ^ a
    have e1 : (n : ℚ) * 2 ^ a / 2 ^ a = n * 2 ^ (0 : ℤ) := by field_simp
    rw [e1, D.fix hB hn]
    simp only [zpow_zero, mul_one, roundAway_intCast]
    rw [mul_comm, D.fix hB hn]
  count k n hk hn hkn := by
    have c := (two_zpow_pos a).ne'
    have hCp := D.count
    have f : ∀ m : ℤ, |m| ≤ C → R.rnd m = m := by
      intro m hm
      have := hB.fix m 0 (hm.trans hCp)
      simpa using this
    have e1 : (n : ℚ) * 2 ^ a / 2 ^ a = n * 2 ^ (0 : ℤ) := by field_simp
    have e2 : @FOps.add (Flt R) _ (FOps.ofInt k) (FOps.round (@FOps.div (Flt R) _ ((n * 2 ^ a : ℚ)) ((2 ^ a : ℚ)))) =
        ((k + n : ℤ) : ℚ) := by
      show R.rnd (R.rnd (k : ℚ) + ((roundAway (R.rnd ((n : ℚ) * 2 ^ a / 2 ^ a)) : ℤ) : ℚ)) = _
      rw [e1, D.fix hB hn, f k hk]
      simp only [zpow_zero, mul_one, roundAway_intCast]
      rw [← Int.cast_add]
      exact f _ hkn
    rw [e2]
    have h31 : |((k + n : ℤ) : ℚ)| < 2 ^ 31 := by
      have h1 := D.int
      have : |k + n| < 2 ^ 31 := by omega
      rw [← Int.cast_abs]
      exact_mod_cast this
    have : @FOps.toInt (Flt R) _ ((k + n : ℤ) : ℚ) = some (k + n) := by
      show (if |((k + n : ℤ) : ℚ)| < 2 ^ 31 then some (truncZ ((k + n : ℤ) : ℚ)) else none) = _
      rw [if_pos h31, truncZ]
      simp
    unfold castInt
    rw [this]

end cells

end Soil
