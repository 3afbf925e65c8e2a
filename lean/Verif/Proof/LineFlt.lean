import Verif.Proof.InitFlt
import Verif.Proof.Safe
import Verif.Spec.Rounded
import Verif.Spec.Fits

/-! # Rasterisation of lines in rounded arithmetic -/

namespace Soil

open FOps

variable {R : Rounding} {prec : ℕ}

/-- Relative error of rounding to `prec` digits -/
theorem roundBinary_rel (hp : 1 ≤ prec) (x : ℚ) : |roundBinary prec x - x| ≤ 2 ^ (-(prec : ℤ)) * |x| := by
  have pos : ∀ x : ℚ, 0 < x → |roundPos prec x - x| ≤ 2 ^ (-(prec : ℤ)) * x := by
    intro x hx
    have hd := two_zpow_pos (lastDigit prec x)
    have h1 := (digits_pos (prec := prec) hx).1
    have h2 := halfEven_le (x / 2 ^ lastDigit prec x)
    unfold roundPos
    have e : (halfEven (x / 2 ^ lastDigit prec x) : ℚ) * 2 ^ lastDigit prec x - x =
        (halfEven (x / 2 ^ lastDigit prec x) - x / 2 ^ lastDigit prec x) * 2 ^ lastDigit prec x := by
      field_simp
    rw [e, abs_mul, abs_of_pos hd]
    have h3 : (2 : ℚ) ^ (-(prec : ℤ)) * (2 ^ ((prec : ℤ) - 1)) = 1 / 2 := by
      rw [← zpow_add₀ (by norm_num)]
      rw [show -(prec : ℤ) + (prec - 1) = -1 by ring]
      norm_num
    have h4 : (1 : ℚ) / 2 ≤ 2 ^ (-(prec : ℤ)) * (x / 2 ^ lastDigit prec x) := by
      rw [← h3]
      exact mul_le_mul_of_nonneg_left h1 (two_zpow_pos _).le
    calc _ ≤ 1 / 2 * (2 : ℚ) ^ lastDigit prec x := mul_le_mul_of_nonneg_right h2 hd.le
      _ ≤ 2 ^ (-(prec : ℤ)) * (x / 2 ^ lastDigit prec x) * 2 ^ lastDigit prec x := mul_le_mul_of_nonneg_right h4 hd.le
      _ = _ := by field_simp
  unfold roundBinary
  rcases lt_trichotomy x 0 with h | h | h
  · rw [if_neg h.ne, if_neg (not_lt.mpr h.le), abs_of_neg h]
    have := pos (-x) (by linarith)
    rw [show -roundPos prec (-x) - x = -(roundPos prec (-x) - -x) by ring, abs_neg]
    exact this
  · subst h; simp
  · rw [if_neg h.ne', if_pos h, abs_of_pos h]
    exact pos x h

/-- What is used of the rounding: monotone, exact on short numbers, relative error `u`; and of the library -/
structure Accurate (R : Rounding) (prec : ℕ) (u : ℚ) : Prop where
  binary : Binary R.rnd prec
  rel : ∀ x, |R.rnd x - x| ≤ u * |x|
  pos : 0 ≤ u
  small : u ≤ 1 / 16
  sqrt : SqrtAccurate R u

variable {u : ℚ} (A : Accurate R prec u)

include A

theorem Accurate.lo {x : ℚ} (h : 0 ≤ x) : x * (1 - u) ≤ R.rnd x := by
  have := abs_le.mp (A.rel x)
  rw [abs_of_nonneg h] at this
  linarith [this.1]

theorem Accurate.hi {x : ℚ} (h : 0 ≤ x) : R.rnd x ≤ x * (1 + u) := by
  have := abs_le.mp (A.rel x)
  rw [abs_of_nonneg h] at this
  linarith [this.2]

theorem Accurate.nn {x : ℚ} (h : 0 ≤ x) : 0 ≤ R.rnd x := A.binary.nonneg h

theorem Accurate.rpos {x : ℚ} (h : 0 < x) : 0 < R.rnd x := by
  have := A.lo h.le
  have := A.small
  nlinarith

/-- `ab_norm` -/
theorem Accurate.norm (x y z : ℚ) :
    R.sqrt (R.rnd (R.rnd (R.rnd (x * x) + R.rnd (y * y)) + R.rnd (z * z))) ^ 2 * (1 - u) ^ 5 ≤ x ^ 2 + y ^ 2 + z ^ 2 := by
  have hu := A.pos
  have hs := A.small
  have a1 := A.hi (mul_self_nonneg x)
  have a2 := A.hi (mul_self_nonneg y)
  have a3 := A.hi (mul_self_nonneg z)
  have n1 := A.nn (mul_self_nonneg x)
  have n2 := A.nn (mul_self_nonneg y)
  have n3 := A.nn (mul_self_nonneg z)
  have b1 := A.hi (add_nonneg n1 n2)
  have m1 := A.nn (add_nonneg n1 n2)
  have c1 := A.hi (add_nonneg m1 n3)
  have k1 := A.nn (add_nonneg m1 n3)
  have s1 := A.sqrt.upper _ k1
  set S := x ^ 2 + y ^ 2 + z ^ 2 with hS
  have p : 0 ≤ 1 + u := by linarith
  have q : 0 ≤ 1 - u := by linarith
  have e1 : R.rnd (R.rnd (x * x) + R.rnd (y * y)) ≤ (x ^ 2 + y ^ 2) * (1 + u) ^ 2 := by
    calc _ ≤ _ := b1
      _ ≤ (x * x * (1 + u) + y * y * (1 + u)) * (1 + u) := mul_le_mul_of_nonneg_right (by linarith) p
      _ = _ := by ring
  have e2 : R.rnd (R.rnd (R.rnd (x * x) + R.rnd (y * y)) + R.rnd (z * z)) ≤ S * (1 + u) ^ 3 := by
    have : z * z * (1 + u) ≤ z ^ 2 * (1 + u) ^ 2 := by
      have : 0 ≤ z ^ 2 * (1 + u) := by positivity
      nlinarith
    calc _ ≤ _ := c1
      _ ≤ ((x ^ 2 + y ^ 2) * (1 + u) ^ 2 + z ^ 2 * (1 + u) ^ 2) * (1 + u) := mul_le_mul_of_nonneg_right (by linarith) p
      _ = _ := by rw [hS]; ring
  have e3 := s1.trans (mul_le_mul_of_nonneg_right e2 (sq_nonneg (1 + u)))
  have hS0 : 0 ≤ S := by positivity
  have w : ((1 + u) * (1 - u)) ^ 5 ≤ 1 := pow_le_one₀ (mul_nonneg p q) (by nlinarith)
  calc _ ≤ S * (1 + u) ^ 3 * (1 + u) ^ 2 * (1 - u) ^ 5 := mul_le_mul_of_nonneg_right e3 (by positivity)
    _ = S * ((1 + u) * (1 - u)) ^ 5 := by ring
    _ ≤ S * 1 := mul_le_mul_of_nonneg_left w hS0
    _ = S := mul_one S

/-- `t_delta` -/
theorem Accurate.delta {d : ℚ} (hd : d ≠ 0) (e f : ℚ) :
    0 ≤ R.sqrt (R.rnd (1 + R.rnd (R.rnd (R.rnd (e * e) + R.rnd (f * f)) / R.rnd (d * d)))) ∧
    (d ^ 2 + e ^ 2 + f ^ 2) * (1 - u) ^ 7 ≤
      R.sqrt (R.rnd (1 + R.rnd (R.rnd (R.rnd (e * e) + R.rnd (f * f)) / R.rnd (d * d)))) ^ 2 * d ^ 2 := by
  have hu := A.pos
  have hs := A.small
  have hdd : 0 < d * d := mul_self_pos.mpr hd
  have a1 := A.lo (mul_self_nonneg e)
  have a2 := A.lo (mul_self_nonneg f)
  have n1 := A.nn (mul_self_nonneg e)
  have n2 := A.nn (mul_self_nonneg f)
  have a3 := A.hi hdd.le
  have n3 := A.rpos hdd
  have b1 := A.lo (add_nonneg n1 n2)
  have m1 := A.nn (add_nonneg n1 n2)
  have k0 : 0 ≤ R.rnd (R.rnd (e * e) + R.rnd (f * f)) / R.rnd (d * d) := div_nonneg m1 n3.le
  have c1 := A.lo k0
  have k1 := A.nn k0
  have k2 : 0 ≤ 1 + R.rnd (R.rnd (R.rnd (e * e) + R.rnd (f * f)) / R.rnd (d * d)) := by linarith
  have d1 := A.lo k2
  have k3 := A.nn k2
  have s1 := A.sqrt.lower _ k3
  have q : 0 ≤ 1 - u := by linarith
  refine ⟨A.sqrt.nonneg _ k3, ?_⟩
  have e1 : (e ^ 2 + f ^ 2) * (1 - u) ^ 2 ≤ R.rnd (R.rnd (e * e) + R.rnd (f * f)) := by
    calc (e ^ 2 + f ^ 2) * (1 - u) ^ 2 = (e * e * (1 - u) + f * f * (1 - u)) * (1 - u) := by ring
      _ ≤ (R.rnd (e * e) + R.rnd (f * f)) * (1 - u) := mul_le_mul_of_nonneg_right (by linarith) q
      _ ≤ _ := b1
  have e2 : (e ^ 2 + f ^ 2) * (1 - u) ^ 3 ≤ R.rnd (R.rnd (e * e) + R.rnd (f * f)) / R.rnd (d * d) * d ^ 2 := by
    rw [div_mul_eq_mul_div, le_div_iff₀ n3]
    calc _ ≤ (e ^ 2 + f ^ 2) * (1 - u) ^ 3 * (d * d * (1 + u)) := mul_le_mul_of_nonneg_left a3 (by positivity)
      _ = (e ^ 2 + f ^ 2) * (1 - u) ^ 2 * d ^ 2 * ((1 + u) * (1 - u)) := by ring
      _ ≤ (e ^ 2 + f ^ 2) * (1 - u) ^ 2 * d ^ 2 * 1 := mul_le_mul_of_nonneg_left (by nlinarith) (by positivity)
      _ = (e ^ 2 + f ^ 2) * (1 - u) ^ 2 * d ^ 2 := mul_one _
      _ ≤ _ := mul_le_mul_of_nonneg_right e1 (sq_nonneg d)
  have e3 : (e ^ 2 + f ^ 2) * (1 - u) ^ 4 ≤ R.rnd (R.rnd (R.rnd (e * e) + R.rnd (f * f)) / R.rnd (d * d)) * d ^ 2 := by
    calc (e ^ 2 + f ^ 2) * (1 - u) ^ 4 = (e ^ 2 + f ^ 2) * (1 - u) ^ 3 * (1 - u) := by ring
      _ ≤ R.rnd (R.rnd (e * e) + R.rnd (f * f)) / R.rnd (d * d) * d ^ 2 * (1 - u) := mul_le_mul_of_nonneg_right e2 q
      _ = R.rnd (R.rnd (e * e) + R.rnd (f * f)) / R.rnd (d * d) * (1 - u) * d ^ 2 := by ring
      _ ≤ _ := mul_le_mul_of_nonneg_right c1 (sq_nonneg d)
  have e4 : (d ^ 2 + e ^ 2 + f ^ 2) * (1 - u) ^ 5 ≤
      R.rnd (1 + R.rnd (R.rnd (R.rnd (e * e) + R.rnd (f * f)) / R.rnd (d * d))) * d ^ 2 := by
    have w : (1 - u) ^ 4 ≤ 1 := pow_le_one₀ q (by linarith)
    calc (d ^ 2 + e ^ 2 + f ^ 2) * (1 - u) ^ 5 = (d ^ 2 * (1 - u) ^ 4 + (e ^ 2 + f ^ 2) * (1 - u) ^ 4) * (1 - u) := by ring
      _ ≤ (d ^ 2 * 1 + R.rnd (R.rnd (R.rnd (e * e) + R.rnd (f * f)) / R.rnd (d * d)) * d ^ 2) * (1 - u) :=
          mul_le_mul_of_nonneg_right (add_le_add (mul_le_mul_of_nonneg_left w (sq_nonneg d)) e3) q
      _ = (1 + R.rnd (R.rnd (R.rnd (e * e) + R.rnd (f * f)) / R.rnd (d * d))) * (1 - u) * d ^ 2 := by ring
      _ ≤ _ := mul_le_mul_of_nonneg_right d1 (sq_nonneg d)
  calc (d ^ 2 + e ^ 2 + f ^ 2) * (1 - u) ^ 7 = (d ^ 2 + e ^ 2 + f ^ 2) * (1 - u) ^ 5 * (1 - u) ^ 2 := by ring
    _ ≤ R.rnd (1 + R.rnd (R.rnd (R.rnd (e * e) + R.rnd (f * f)) / R.rnd (d * d))) * d ^ 2 * (1 - u) ^ 2 :=
        mul_le_mul_of_nonneg_right e4 (sq_nonneg _)
    _ = R.rnd (1 + R.rnd (R.rnd (R.rnd (e * e) + R.rnd (f * f)) / R.rnd (d * d))) * (1 - u) ^ 2 * d ^ 2 := by ring
    _ ≤ _ := mul_le_mul_of_nonneg_right s1 (sq_nonneg d)

/-! ## One axis -/

/-- Along one axis: `n` steps have been made from `x0` in direction `s`. -/
structure Along (u M x0 d off D : ℚ) (s : ℤ) (n : ℕ) (x t : ℚ) : Prop where
  time : (off + n) * D * (1 - (n + 1) * u) ≤ t
  drift : |x - (x0 + s * n)| ≤ n * (2 * (M + 1) * u)
  few : (n : ℚ) ≤ |d| + 9 / 8

/-- A step is made only as long as the end is not yet reached. -/
theorem Along.late {M x0 d off D N S : ℚ} {s : ℤ} {n : ℕ} {x t : ℚ} (h : Along u M x0 d off D s n x t) (h0 : 0 ≤ off) (h1 : off ≤ 2)
    (hM : |d| + 2 ≤ M) (hu : (M + 1) * (M + 7) * u ≤ 1 / 8) (hD0 : 0 ≤ D) (hS : 0 < S) (hD : S * (1 - u) ^ 7 ≤ D ^ 2 * d ^ 2)
    (hN : N ^ 2 * (1 - u) ^ 5 ≤ S) (ht : t < N) : off + n < |d| + 1 / 8 := by
  have hu0 := A.pos
  have hus := A.small
  have ha := abs_nonneg d
  have q : 0 < 1 - u := by linarith
  have hnM : (n : ℚ) ≤ M := by linarith [h.few]
  have hn0 : (0 : ℚ) ≤ n := Nat.cast_nonneg n
  have hw : ((n : ℚ) + 7) * u ≤ 1 / 8 := by
    have : ((n : ℚ) + 7) * u ≤ (M + 1) * (M + 7) * u := mul_le_mul_of_nonneg_right (by nlinarith) hu0
    linarith
  have hw1 : 0 ≤ 1 - ((n : ℚ) + 1) * u := by nlinarith
  -- the bound without roots
  have key : (off + n) * (1 - (n + 1) * u) * (1 - u) ^ 6 < |d| := by
    have p0 : 0 ≤ (off + n) * D * (1 - (n + 1) * u) := by positivity
    have p1 : (off + n) * D * (1 - (n + 1) * u) < N := h.time.trans_lt ht
    have p2 : ((off + n) * D * (1 - (n + 1) * u)) ^ 2 < N ^ 2 := pow_lt_pow_left₀ p1 p0 (by norm_num)
    by_contra hc
    push Not at hc
    have c0 : 0 ≤ (off + n) * (1 - (n + 1) * u) * (1 - u) ^ 6 := by positivity
    have c1 : |d| ^ 2 ≤ ((off + n) * (1 - (n + 1) * u) * (1 - u) ^ 6) ^ 2 := pow_le_pow_left₀ ha hc 2
    rw [sq_abs] at c1
    have p3 : ((off + n) * D * (1 - (n + 1) * u)) ^ 2 * (1 - u) ^ 5 < S := by
      calc _ < N ^ 2 * (1 - u) ^ 5 := mul_lt_mul_of_pos_right p2 (by positivity)
        _ ≤ S := hN
    have p4 : S * d ^ 2 ≤ ((off + n) * D * (1 - (n + 1) * u)) ^ 2 * (1 - u) ^ 5 * d ^ 2 := by
      have w1 : S * (1 - u) ^ 7 * (((off + n) * (1 - (n + 1) * u)) ^ 2 * (1 - u) ^ 5) ≤
          D ^ 2 * d ^ 2 * (((off + n) * (1 - (n + 1) * u)) ^ 2 * (1 - u) ^ 5) :=
        mul_le_mul_of_nonneg_right hD (by positivity)
      calc S * d ^ 2 ≤ S * ((off + n) * (1 - (n + 1) * u) * (1 - u) ^ 6) ^ 2 := mul_le_mul_of_nonneg_left c1 hS.le
        _ = S * (1 - u) ^ 7 * (((off + n) * (1 - (n + 1) * u)) ^ 2 * (1 - u) ^ 5) := by ring
        _ ≤ _ := w1
        _ = _ := by ring
    have hd2 : 0 < d ^ 2 := by
      rcases (sq_nonneg d).eq_or_lt with e | e
      · rw [← e, mul_zero] at hD
        have : 0 < S * (1 - u) ^ 7 := by positivity
        linarith
      · exact e
    have := mul_lt_mul_of_pos_right p3 hd2
    linarith
  have bern : 1 - ((n : ℚ) + 7) * u ≤ (1 - (n + 1) * u) * (1 - u) ^ 6 := by
    have b1 : 1 - 6 * u ≤ (1 - u) ^ 6 := by
      have := one_add_mul_le_pow (a := -u) (by linarith) 6
      push_cast at this
      linarith
    have b2 := mul_le_mul_of_nonneg_left b1 hw1
    have : (0 : ℚ) ≤ ((n : ℚ) + 1) * u * (6 * u) := by positivity
    nlinarith
  have b3 := mul_le_mul_of_nonneg_left bern (show (0 : ℚ) ≤ off + n by linarith)
  have b4 : (off + n) * (((n : ℚ) + 7) * u) ≤ 1 / 8 := by
    have hoff : off + n ≤ M + 1 ∨ M + 1 < off + n := le_or_gt _ _
    rcases hoff with ho | ho
    · calc (off + n) * (((n : ℚ) + 7) * u) ≤ (M + 1) * ((M + 7) * u) := by
            apply mul_le_mul ho _ (by positivity) (by linarith)
            exact mul_le_mul_of_nonneg_right (by linarith) hu0
        _ ≤ 1 / 8 := by linarith
    · -- then the position is beyond the end by more than the error
      exfalso
      have e1 : off + n - (off + n) * (((n : ℚ) + 7) * u) < |d| := by nlinarith
      have e2 : (off + n) * (((n : ℚ) + 7) * u) ≤ (off + n) * (1 / 8) := mul_le_mul_of_nonneg_left hw (by linarith)
      have e3 : ((M : ℚ) + 7) * u * (M + 1) ≤ 1 / 8 := by linarith
      have e4 : ((n : ℚ) + 7) * u ≤ (M + 7) * u := mul_le_mul_of_nonneg_right (by linarith) hu0
      have e5 : (M + 7) * u ≤ 1 / 8 / (M + 1) := by rw [le_div_iff₀ (by linarith)]; linarith
      have e6 : off + n ≤ M + 2 := by linarith
      have e7 : (off + n) * (((n : ℚ) + 7) * u) ≤ (M + 2) * (1 / 8 / (M + 1)) := by
        apply mul_le_mul e6 (e4.trans e5) (by positivity) (by linarith)
      have e8 : (M + 2) * (1 / 8 / (M + 1)) ≤ 1 / 4 := by
        rw [mul_div_assoc', div_le_iff₀ (by linarith)]
        linarith
      linarith
  nlinarith

omit A in
/-- What is assumed of the numbers of one axis -/
structure AxisOK (u M x0 d off D N S : ℚ) (s : ℤ) : Prop where
  off0 : 0 ≤ off
  off1 : off ≤ 2
  start : |x0| ≤ M
  len : |d| + 2 ≤ M
  room : (M + 1) * (M + 7) * u ≤ 1 / 8
  D0 : 0 ≤ D
  S0 : 0 < S
  delta : S * (1 - u) ^ 7 ≤ D ^ 2 * d ^ 2
  norm : N ^ 2 * (1 - u) ^ 5 ≤ S
  dir : s = 1 ∨ s = -1

theorem Along.next {M x0 d off D N S : ℚ} {s : ℤ} {n : ℕ} {x t : ℚ} (h : Along u M x0 d off D s n x t)
    (ok : AxisOK u M x0 d off D N S s) (ht : t < N) : Along u M x0 d off D s (n + 1) (R.rnd (x + s)) (R.rnd (t + D)) := by
  have late := h.late A ok.off0 ok.off1 ok.len ok.room ok.D0 ok.S0 ok.delta ok.norm ht
  have hu0 := A.pos
  have ha := abs_nonneg d
  have hn0 : (0 : ℚ) ≤ n := Nat.cast_nonneg n
  have hnM : (n : ℚ) ≤ M := by linarith [h.few, ok.len]
  have hM := ok.len
  have hw : ((n : ℚ) + 7) * u ≤ 1 / 8 := by
    have : ((n : ℚ) + 7) * u ≤ (M + 1) * (M + 7) * u := mul_le_mul_of_nonneg_right (by nlinarith) hu0
    linarith [ok.room]
  have hw1 : 0 ≤ 1 - ((n : ℚ) + 1) * u := by nlinarith
  have hq : 0 ≤ 1 - u := by linarith [A.small]
  have hD := ok.D0
  have ho := ok.off0
  have t0 : 0 ≤ (off + n) * D * (1 - (n + 1) * u) := by positivity
  refine ⟨?_, ?_, ?_⟩
  · have h1 := A.lo (x := t + D) (by linarith [h.time])
    have h2 : ((off + n) * D * (1 - (n + 1) * u) + D) * (1 - u) ≤ (t + D) * (1 - u) :=
      mul_le_mul_of_nonneg_right (by linarith [h.time]) hq
    refine le_trans ?_ (h2.trans h1)
    push_cast
    have e1 : 0 ≤ (off + n) * D * ((n + 1) * u * u) := by positivity
    have e2 : 0 ≤ D * ((n + 1) * u) := by positivity
    nlinarith
  · have hr := A.rel (x + s)
    have hs : |(s : ℚ)| = 1 := by rcases ok.dir with e | e <;> rw [e] <;> norm_num
    have hdr : (n : ℚ) * (2 * (M + 1) * u) ≤ 1 / 4 := by
      have : (n : ℚ) * (2 * (M + 1) * u) ≤ M * (2 * (M + 1) * u) :=
        mul_le_mul_of_nonneg_right hnM (by have : 0 ≤ M := by linarith
                                           positivity)
      have h6 : M * (2 * (M + 1) * u) ≤ 2 * ((M + 1) * (M + 7) * u) := by
        have : 0 ≤ (M + 1) * u := by have : 0 ≤ M := by linarith
                                     positivity
        nlinarith
      linarith [ok.room]
    have hx : |x + s| ≤ 2 * (M + 1) := by
      have e : x + s = (x - (x0 + s * n)) + (x0 + s * (n + 1)) := by ring
      rw [e]
      have h1 := abs_add_le (x - (x0 + s * n)) (x0 + s * (n + 1))
      have h2 := abs_add_le x0 ((s : ℚ) * (n + 1))
      rw [abs_mul, hs, one_mul, abs_of_nonneg (show (0 : ℚ) ≤ n + 1 by linarith)] at h2
      have := h.drift
      have := ok.start
      have : (n : ℚ) + 1 ≤ M := by linarith
      linarith
    have e : R.rnd (x + s) - (x0 + s * ((n + 1 : ℕ) : ℚ)) = (R.rnd (x + s) - (x + s)) + (x - (x0 + s * n)) := by
      push_cast; ring
    rw [e]
    have h1 := abs_add_le (R.rnd (x + s) - (x + s)) (x - (x0 + s * n))
    have h2 := mul_le_mul_of_nonneg_left hx hu0
    push_cast
    have := h.drift
    nlinarith
  · push_cast
    linarith

/-- The positions reached are near the segment. -/
theorem Along.near {M x0 d off D N S : ℚ} {s : ℤ} {n : ℕ} {x t : ℚ} (h : Along u M x0 d off D s n x t)
    (ok : AxisOK u M x0 d off D N S s) : |x - (x0 + s * n)| ≤ 1 / 4 ∧ (n : ℚ) ≤ |d| + 9 / 8 := by
  refine ⟨h.drift.trans ?_, h.few⟩
  have hM := ok.len
  have ha := abs_nonneg d
  have hM0 : 0 ≤ M := by linarith
  have hnM : (n : ℚ) ≤ M := by linarith [h.few]
  have hu0 := A.pos
  have : (n : ℚ) * (2 * (M + 1) * u) ≤ M * (2 * (M + 1) * u) := mul_le_mul_of_nonneg_right hnM (by positivity)
  have h6 : M * (2 * (M + 1) * u) ≤ 2 * ((M + 1) * (M + 7) * u) := by
    have : 0 ≤ (M + 1) * u := by positivity
    nlinarith
  linarith [ok.room]

/-- Start of the traversal along one axis -/
theorem Along.start (M x0 : ℚ) {d off D : ℚ} (s : ℤ) (h0 : 0 ≤ off) (hD : 0 ≤ D) :
    Along u M x0 d off D s 0 x0 (R.rnd (off * D)) := by
  refine ⟨?_, by simp, ?_⟩
  · have := A.lo (mul_nonneg h0 hD)
    simpa using this
  · have := abs_nonneg d
    push_cast
    linarith

/-! ## The loop -/



omit A in
/-- Which axis is stepped -/
theorem lineStep_cases (c : LineCfg (Flt R)) (l : LineSt (Flt R)) (h : lineCont c l = true) :
    ((l.tX.val < c.norm.val) ∧ lineStep c l = { l with p := { l.p with x := R.rnd (l.p.x.val + R.rnd c.stepX) }, tX := R.rnd (l.tX.val + c.dX.val) }) ∨
    ((l.tY.val < c.norm.val) ∧ lineStep c l = { l with p := { l.p with y := R.rnd (l.p.y.val + R.rnd c.stepY) }, tY := R.rnd (l.tY.val + c.dY.val) }) ∨
    ((l.tZ.val < c.norm.val) ∧ lineStep c l = { l with p := { l.p with z := R.rnd (l.p.z.val + R.rnd c.stepZ) }, tZ := R.rnd (l.tZ.val + c.dZ.val) }) := by
  have hc : l.tX.val < c.norm.val ∨ l.tY.val < c.norm.val ∨ l.tZ.val < c.norm.val := by
    simp only [lineCont, Bool.or_eq_true] at h
    rcases h with (h | h) | h
    · exact .inl (of_decide_eq_true h)
    · exact .inr (.inl (of_decide_eq_true h))
    · exact .inr (.inr (of_decide_eq_true h))
  unfold lineStep
  by_cases h1 : l.tX.val < l.tY.val
  · have e1 : FOps.lt l.tX l.tY = true := decide_eq_true (p := l.tX.val < l.tY.val) h1
    by_cases h2 : l.tX.val < l.tZ.val
    · have e2 : FOps.lt l.tX l.tZ = true := decide_eq_true (p := l.tX.val < l.tZ.val) h2
      left
      rw [if_pos e1, if_pos e2]
      refine ⟨?_, rfl⟩
      rcases hc with h | h | h
      exacts [h, h1.trans h, h2.trans h]
    · have e2 : ¬ FOps.lt l.tX l.tZ = true := fun e => h2 (of_decide_eq_true e)
      right; right
      rw [if_pos e1, if_neg e2]
      refine ⟨?_, rfl⟩
      push Not at h2
      rcases hc with h | h | h
      exacts [h2.trans_lt h, (h2.trans h1.le).trans_lt h, h]
  · have e1 : ¬ FOps.lt l.tX l.tY = true := fun e => h1 (of_decide_eq_true e)
    push Not at h1
    by_cases h2 : l.tY.val < l.tZ.val
    · have e2 : FOps.lt l.tY l.tZ = true := decide_eq_true (p := l.tY.val < l.tZ.val) h2
      right; left
      rw [if_neg e1, if_pos e2]
      refine ⟨?_, rfl⟩
      rcases hc with h | h | h
      exacts [h1.trans_lt h, h, h2.trans h]
    · have e2 : ¬ FOps.lt l.tY l.tZ = true := fun e => h2 (of_decide_eq_true e)
      right; right
      rw [if_neg e1, if_neg e2]
      refine ⟨?_, rfl⟩
      push Not at h2
      rcases hc with h | h | h
      exacts [(h2.trans h1).trans_lt h, h2.trans_lt h, h]

theorem Accurate.stepInt {s : ℤ} (hs : s = 1 ∨ s = -1) : R.rnd s = s := by
  refine A.binary.nat s ?_
  have : (1 : ℤ) ≤ 2 ^ prec := one_le_pow₀ (by norm_num)
  rcases hs with e | e <;> rw [e] <;> simpa using this

/-! ## Start of the traversal -/

theorem Accurate.ifZero (x v : Flt R) : ifZero x v = if x.val = 0 then v else x := by
  have z : R.rnd 0 = 0 := A.binary.zero
  show (if decide (x.val = R.rnd 0) = true then v else x) = _
  rw [z]
  simp

/-- Length along one axis -/
def axisLen (R : Rounding) (p q : ℚ) : ℚ := if R.rnd (q - p) = 0 then R.rnd (1 / 10000000000) else R.rnd (q - p)

/-- Direction along one axis -/
def axisDir (p q : ℚ) : ℤ := if p < q then 1 else -1

omit A in
theorem axisDir_or (p q : ℚ) : axisDir p q = 1 ∨ axisDir p q = -1 := by
  unfold axisDir; split_ifs <;> simp

theorem axisLen_ne (p q : ℚ) : axisLen R p q ≠ 0 := by
  unfold axisLen
  split_ifs with h
  · exact (A.rpos (by norm_num)).ne'
  · exact h

theorem axisLen_le {B : ℤ} (hB : Small prec u B) {p q : ℚ} (hp : 0 ≤ p) (hp' : p ≤ B) (hq : 0 ≤ q) (hq' : q ≤ B) :
    |axisLen R p q| ≤ B ∧ |axisLen R p q| ≤ |q - p| + 1 / 16 := by
  have hus := A.small
  have hu := A.pos
  have hb : (1 : ℚ) ≤ B := by exact_mod_cast hB.one
  have hpq : |q - p| ≤ B := abs_le.mpr ⟨by linarith, by linarith⟩
  unfold axisLen
  split_ifs with h
  · have h1 := A.rpos (x := 1 / 10000000000) (by norm_num)
    have h2 := A.hi (x := 1 / 10000000000) (by norm_num)
    rw [abs_of_pos h1]
    have := abs_nonneg (q - p)
    constructor <;> nlinarith
  · constructor
    · have := A.binary.abs_le (x := q - p) B 0 (by
        rw [abs_of_nonneg (by have := hB.one; omega)]; have := hB.digits; have := hB.one; omega) (by simpa using hpq)
      simpa using this
    · have h1 := A.rel (q - p)
      have h2 : |R.rnd (q - p)| ≤ |R.rnd (q - p) - (q - p)| + |q - p| := by
        have := abs_add_le (R.rnd (q - p) - (q - p)) (q - p)
        simpa using this
      have h3 : u * |q - p| ≤ u * B := mul_le_mul_of_nonneg_left hpq hu
      have h4 : u * B ≤ 1 / 16 := by
        have h6 : u * (4 * 10) ≤ u * ((B + 3) * (B + 9)) := mul_le_mul_of_nonneg_left (by nlinarith) hu
        have h7 : u * (10 * B) ≤ u * ((B + 3) * (B + 9)) := mul_le_mul_of_nonneg_left (by nlinarith) hu
        have := hB.room
        nlinarith
      linarith

omit A in
/-- The whole number nearest to an index -/
theorem roundAway_range {B : ℤ} {x : ℚ} (h0 : 0 ≤ x) (h1 : x ≤ B) : 0 ≤ roundAway x ∧ roundAway x ≤ B :=
  ⟨le_roundAway_of_le (by exact_mod_cast h0), roundAway_le_of_le h1⟩

theorem Accurate.halves : R.rnd (1 / 2) = 1 / 2 := by
  have := A.binary.fix 1 (-1) (by rw [abs_one]; exact one_le_pow₀ (by norm_num))
  norm_num at this ⊢
  exact this

theorem Accurate.one : R.rnd 1 = 1 := by
  have := A.stepInt (s := 1) (.inl rfl)
  simpa using this

theorem Accurate.unit {x : ℚ} (h0 : 0 ≤ x) (h1 : x ≤ 1) : 0 ≤ R.rnd x ∧ R.rnd x ≤ 1 :=
  ⟨A.nn h0, (A.binary.mono h1).trans_eq A.one⟩

/-- Offset to the first boundary, X and Y -/
theorem offsetXY_flt {B : ℤ} (hB : Small prec u B) {x : Flt R} (h0 : 0 ≤ x.val) (h1 : x.val ≤ B) (s : ℤ) :
    0 ≤ (offsetXY s x).val ∧ (offsetXY s x).val ≤ 1 := by
  obtain ⟨r0, r1⟩ := roundAway_range h0 h1
  have hr := abs_le.mp (abs_roundAway_sub_le x.val)
  unfold offsetXY
  split_ifs with hs
  · show 0 ≤ R.rnd (R.rnd ((roundAway x.val : ℚ) + R.rnd (1 / 2)) - x.val) ∧ R.rnd (R.rnd ((roundAway x.val : ℚ) + R.rnd (1 / 2)) - x.val) ≤ 1
    rw [A.halves]
    have e : R.rnd ((roundAway x.val : ℚ) + 1 / 2) = roundAway x.val + 1 / 2 := by
      have := A.binary.fix (2 * roundAway x.val + 1) (-1) (by
        rw [abs_of_nonneg (by omega)]; have := hB.digits; omega)
      push_cast at this
      rw [show ((2 : ℚ) * roundAway x.val + 1) * 2 ^ (-1 : ℤ) = roundAway x.val + 1 / 2 by norm_num; ring] at this
      exact this
    rw [e]
    exact A.unit (by linarith) (by linarith)
  · show 0 ≤ R.rnd (R.rnd (x.val - (roundAway x.val : ℚ)) + R.rnd (1 / 2)) ∧ R.rnd (R.rnd (x.val - (roundAway x.val : ℚ)) + R.rnd (1 / 2)) ≤ 1
    rw [A.halves]
    have e := A.binary.abs_le (x := x.val - roundAway x.val) 1 (-1) (by rw [abs_one]; exact one_le_pow₀ (by norm_num)) (by
      rw [abs_le]; norm_num; constructor <;> linarith)
    norm_num at e
    have e' := abs_le.mp e
    exact A.unit (by linarith) (by linarith)

/-- Offset to the first boundary, Z -/
theorem offsetZ_flt (z : Flt R) (s : ℤ) : 0 ≤ (offsetZ s z).val ∧ (offsetZ s z).val ≤ 1 := by
  unfold offsetZ
  split_ifs with hs
  · show 0 ≤ R.rnd ((⌈z.val⌉ : ℚ) - z.val) ∧ R.rnd ((⌈z.val⌉ : ℚ) - z.val) ≤ 1
    have := Int.le_ceil z.val
    have := Int.ceil_lt_add_one z.val
    exact A.unit (by linarith) (by linarith)
  · show 0 ≤ R.rnd (z.val - (⌊z.val⌋ : ℚ)) ∧ R.rnd (z.val - (⌊z.val⌋ : ℚ)) ≤ 1
    have := Int.floor_le z.val
    have := Int.lt_floor_add_one z.val
    exact A.unit (by linarith) (by linarith)

theorem ifZero_unit {x : Flt R} (h : 0 ≤ x.val ∧ x.val ≤ 1) :
    0 ≤ (ifZero x (FOps.ofRat 1)).val ∧ (ifZero x (FOps.ofRat 1)).val ≤ 1 := by
  rw [A.ifZero]
  split_ifs
  · show 0 ≤ R.rnd 1 ∧ R.rnd 1 ≤ 1
    rw [A.one]; norm_num
  · exact h

/-- `t_delta` and `ab_norm` -/
theorem axis_numbers {d e f : ℚ} (hd : d ≠ 0) :
    0 ≤ (tDelta (F := Flt R) d e f).val ∧
      (d ^ 2 + e ^ 2 + f ^ 2) * (1 - u) ^ 7 ≤ (tDelta (F := Flt R) d e f).val ^ 2 * d ^ 2 := by
  have := A.delta hd e f
  show 0 ≤ R.sqrt (R.rnd (R.rnd 1 + _)) ∧ _ ≤ R.sqrt (R.rnd (R.rnd 1 + _)) ^ 2 * d ^ 2
  rw [A.one]
  exact this

/-! ## The cells of a line -/

omit A in
/-- A position reached along one axis -/
def CloseAt (x0 d : ℚ) (s : ℤ) (x : ℚ) : Prop := ∃ n : ℕ, |x - (x0 + s * n)| ≤ 1 / 4 ∧ (n : ℚ) ≤ |d| + 9 / 8

omit A in
theorem CloseAt.abs_le {x0 d x : ℚ} {s : ℤ} (hs : s = 1 ∨ s = -1) (h : CloseAt x0 d s x) : |x| ≤ |x0| + |d| + 11 / 8 := by
  obtain ⟨n, h1, h2⟩ := h
  have e : x = (x - (x0 + s * n)) + (x0 + s * n) := by ring
  have a1 := abs_add_le (x - (x0 + s * n)) (x0 + s * n)
  rw [← e] at a1
  have a2 := abs_add_le x0 ((s : ℚ) * n)
  have a3 : |(s : ℚ) * n| = n := by
    rw [abs_mul, abs_of_nonneg (show (0 : ℚ) ≤ n from Nat.cast_nonneg n)]
    rcases hs with e | e <;> rw [e] <;> norm_num
  linarith

omit A in
theorem castInt_int (z : ℤ) (hz : |z| < 2 ^ 31) : castInt (F := Flt R) ((z : ℚ) : Flt R) = .ok z := by
  have h : |((z : ℤ) : ℚ)| < 2 ^ 31 := by exact_mod_cast hz
  have e : FOps.toInt (F := Flt R) ((z : ℚ) : Flt R) = some z := by
    show (if |(z : ℚ)| < 2 ^ 31 then some (truncZ (z : ℚ)) else none) = some z
    rw [if_pos h]
    simp [truncZ]
  unfold castInt
  rw [e]

omit A in
theorem cellOf_flt (p : Vec3 (Flt R)) {L : ℤ} (hL : L + 1 < 2 ^ 31) (hx : |p.x.val| ≤ L) (hy : |p.y.val| ≤ L) (hz : |p.z.val| ≤ L) :
    cellOf p = .ok (roundAway p.x.val, roundAway p.y.val, ⌈p.z.val⌉) := by
  have r : ∀ x : ℚ, |x| ≤ L → |roundAway x| < 2 ^ 31 := by
    intro x h
    obtain ⟨h1, h2⟩ := abs_le.mp h
    have := roundAway_le_of_le h2
    have := le_roundAway_of_le (x := x) (z := -L) (by push_cast; linarith)
    rw [abs_lt]; constructor <;> omega
  have c : |⌈p.z.val⌉| < 2 ^ 31 := by
    obtain ⟨h1, h2⟩ := abs_le.mp hz
    have := Int.ceil_le.mpr h2
    have : -L ≤ ⌈p.z.val⌉ := by
      have := Int.le_ceil p.z.val
      have : ((-L : ℤ) : ℚ) ≤ ⌈p.z.val⌉ := by push_cast; linarith
      exact_mod_cast this
    rw [abs_lt]; constructor <;> omega
  unfold cellOf
  have e1 : castInt (FOps.round p.x) = .ok (roundAway p.x.val) := castInt_int _ (r _ hx)
  have e2 : castInt (FOps.round p.y) = .ok (roundAway p.y.val) := castInt_int _ (r _ hy)
  have e3 : castInt (FOps.ceil p.z) = .ok ⌈p.z.val⌉ := castInt_int _ c
  rw [e1, ok_bind, e2, ok_bind, e3, ok_bind]
  rfl

/-- The cells found by the loop -/
theorem lineLoop_flt {B : ℤ} (hB : Small prec u B) {c : LineCfg (Flt R)} {p : Vec3 (Flt R)} {dx dy dz ox oy oz Sx Sy Sz : ℚ}
    (okx : AxisOK u (B + 2) p.x.val dx ox c.dX.val c.norm.val Sx c.stepX)
    (oky : AxisOK u (B + 2) p.y.val dy oy c.dY.val c.norm.val Sy c.stepY)
    (okz : AxisOK u (B + 2) p.z.val dz oz c.dZ.val c.norm.val Sz c.stepZ) :
    ∀ (fuel : ℕ) (l : LineSt (Flt R)) (nx ny nz : ℕ),
      Along u (B + 2) p.x.val dx ox c.dX.val c.stepX nx l.p.x.val l.tX.val →
      Along u (B + 2) p.y.val dy oy c.dY.val c.stepY ny l.p.y.val l.tY.val →
      Along u (B + 2) p.z.val dz oz c.dZ.val c.stepZ nz l.p.z.val l.tZ.val →
      (lineLoop c fuel l = .error .fuel ∧ ((fuel + nx + ny + nz : ℕ) : ℤ) < 3 * B + 4) ∨
      ∃ r, lineLoop c fuel l = .ok r ∧ ∀ t ∈ r, ∃ x y z : ℚ, t = (roundAway x, roundAway y, ⌈z⌉) ∧
        CloseAt p.x.val dx c.stepX x ∧ CloseAt p.y.val dy c.stepY y ∧ CloseAt p.z.val dz c.stepZ z := by
  intro fuel
  induction fuel with
  | zero =>
    intro l nx ny nz ax ay az
    unfold lineLoop
    by_cases h : lineCont c l = true
    · left
      rw [if_pos h]
      refine ⟨rfl, ?_⟩
      have h1 := ax.few
      have h2 := ay.few
      have h3 := az.few
      have k1 : (nx : ℚ) < ((B + 2 : ℤ) : ℚ) := by push_cast; linarith [okx.len]
      have k2 : (ny : ℚ) < ((B + 2 : ℤ) : ℚ) := by push_cast; linarith [oky.len]
      have k3 : (nz : ℚ) < ((B + 2 : ℤ) : ℚ) := by push_cast; linarith [okz.len]
      have k1' : (nx : ℤ) < B + 2 := by exact_mod_cast k1
      have k2' : (ny : ℤ) < B + 2 := by exact_mod_cast k2
      have k3' : (nz : ℤ) < B + 2 := by exact_mod_cast k3
      push_cast
      omega
    · right
      rw [if_neg h]
      exact ⟨[], rfl, by simp⟩
  | succ fuel ih =>
    intro l nx ny nz ax ay az
    rw [lineLoop]
    by_cases h : lineCont c l = true
    · rw [if_pos h]
      obtain ⟨mx, my, mz, hn, bx, byy, bz⟩ : ∃ mx my mz, mx + my + mz = nx + ny + nz + 1 ∧
          Along u (B + 2) p.x.val dx ox c.dX.val c.stepX mx (lineStep c l).p.x.val (lineStep c l).tX.val ∧
          Along u (B + 2) p.y.val dy oy c.dY.val c.stepY my (lineStep c l).p.y.val (lineStep c l).tY.val ∧
          Along u (B + 2) p.z.val dz oz c.dZ.val c.stepZ mz (lineStep c l).p.z.val (lineStep c l).tZ.val := by
        rcases lineStep_cases c l h with ⟨ht, e⟩ | ⟨ht, e⟩ | ⟨ht, e⟩
        · rw [e]
          refine ⟨nx + 1, ny, nz, by omega, ?_, ay, az⟩
          have := ax.next A okx ht
          rw [← A.stepInt okx.dir] at this
          exact this
        · rw [e]
          refine ⟨nx, ny + 1, nz, by omega, ax, ?_, az⟩
          have := ay.next A oky ht
          rw [← A.stepInt oky.dir] at this
          exact this
        · rw [e]
          refine ⟨nx, ny, nz + 1, by omega, ax, ay, ?_⟩
          have := az.next A okz ht
          rw [← A.stepInt okz.dir] at this
          exact this
      have cx : CloseAt p.x.val dx c.stepX (lineStep c l).p.x.val := ⟨mx, bx.near A okx⟩
      have cy : CloseAt p.y.val dy c.stepY (lineStep c l).p.y.val := ⟨my, byy.near A oky⟩
      have cz : CloseAt p.z.val dz c.stepZ (lineStep c l).p.z.val := ⟨mz, bz.near A okz⟩
      have hc := cellOf_flt (lineStep c l).p (L := 2 * B + 4) (by have := hB.int; omega)
        (by have := cx.abs_le okx.dir; push_cast; linarith [okx.len, okx.start])
        (by have := cy.abs_le oky.dir; push_cast; linarith [oky.len, oky.start])
        (by have := cz.abs_le okz.dir; push_cast; linarith [okz.len, okz.start])
      rcases ih (lineStep c l) mx my mz bx byy bz with ⟨h1, h2⟩ | ⟨r, h1, h2⟩
      · left
        refine ⟨?_, by push_cast at h2 ⊢; omega⟩
        simp only [hc, h1, ok_bind]
        rfl
      · right
        refine ⟨(roundAway (lineStep c l).p.x.val, roundAway (lineStep c l).p.y.val, ⌈(lineStep c l).p.z.val⌉) :: r, ?_, ?_⟩
        · simp only [hc, h1, ok_bind]
          rfl
        · intro t ht
          rcases List.mem_cons.mp ht with rfl | ht
          · exact ⟨_, _, _, rfl, cx, cy, cz⟩
          · exact h2 t ht
    · right
      rw [if_neg h]
      exact ⟨[], rfl, by simp⟩

omit A in
/-- The coordinates of an index position are between 0 and `B`. -/
def InRange (B : ℤ) (p : Vec3 (Flt R)) : Prop :=
  (0 ≤ p.x.val ∧ p.x.val ≤ B) ∧ (0 ≤ p.y.val ∧ p.y.val ≤ B) ∧ 0 ≤ p.z.val ∧ p.z.val ≤ B

omit A in
/-- Closeness of a whole number to a segment -/
def NearSeg (p q : ℚ) (i : ℤ) : Prop := Min.min p q - 2 < i ∧ (i : ℚ) < Max.max p q + 2

theorem CloseAt.near {B : ℤ} (hB : Small prec u B) {p q x : ℚ} (hp : 0 ≤ p ∧ p ≤ B) (hq : 0 ≤ q ∧ q ≤ B)
    (h : CloseAt p (axisLen R p q) (axisDir p q) x) : Min.min p q - 23 / 16 ≤ x ∧ x ≤ Max.max p q + 23 / 16 := by
  obtain ⟨n, h1, h2⟩ := h
  have hl := (axisLen_le A hB hp.1 hp.2 hq.1 hq.2).2
  have hn : (0 : ℚ) ≤ n := Nat.cast_nonneg n
  obtain ⟨a, b⟩ := _root_.abs_le.mp h1
  unfold axisDir at a b
  split_ifs at a b with c
  · rw [abs_of_pos (a := q - p) (by linarith)] at hl
    rw [min_eq_left c.le, max_eq_right c.le]
    push_cast at a b
    constructor <;> linarith
  · push Not at c
    rw [abs_of_nonpos (a := q - p) (by linarith)] at hl
    rw [min_eq_right c, max_eq_left c]
    push_cast at a b
    constructor <;> linarith

omit A in
theorem NearSeg.of {p q x : ℚ} (h : Min.min p q - 23 / 16 ≤ x ∧ x ≤ Max.max p q + 23 / 16) : NearSeg p q (roundAway x) := by
  obtain ⟨a, b⟩ := abs_le.mp (abs_roundAway_sub_le x)
  constructor <;> linarith

/-- The cells of a line -/
theorem calcLinePos_flt {B : ℤ} (hB : Small prec u B) {g : Grid (Flt R)} {a b : Vec3 (Flt R)}
    (ha : InRange B (toIndex g a)) (hb : InRange B (toIndex g b)) (fuel : ℕ) :
    (calcLinePos fuel a b g = .error .fuel ∧ (fuel : ℤ) < 3 * B + 4) ∨
    ∃ r, calcLinePos fuel a b g = .ok r ∧ r ≠ [] ∧ ∀ t ∈ r,
      NearSeg (toIndex g a).x.val (toIndex g b).x.val t.1 ∧ NearSeg (toIndex g a).y.val (toIndex g b).y.val t.2.1 ∧
      Min.min (toIndex g a).z.val (toIndex g b).z.val - 2 < (t.2.2 : ℚ) ∧
      (t.2.2 : ℚ) < Max.max (toIndex g a).z.val (toIndex g b).z.val + 3 := by
  unfold calcLinePos
  set p := toIndex g a with hp
  set q := toIndex g b with hq
  obtain ⟨⟨px, px'⟩, ⟨py, py'⟩, pz, pz'⟩ := ha
  obtain ⟨⟨qx, qx'⟩, ⟨qy, qy'⟩, qz, qz'⟩ := hb
  have lenx := axisLen_le A hB px px' qx qx'
  have leny := axisLen_le A hB py py' qy qy'
  have lenz := axisLen_le A hB pz pz' qz qz'
  have nex := axisLen_ne A p.x.val q.x.val
  have ney := axisLen_ne A p.y.val q.y.val
  have nez := axisLen_ne A p.z.val q.z.val
  set dx := axisLen R p.x.val q.x.val with hdx
  set dy := axisLen R p.y.val q.y.val with hdy
  set dz := axisLen R p.z.val q.z.val with hdz
  have e0 : ∀ x y : Flt R, ifZero (FOps.sub y x) (FOps.ofRat (1 / 10000000000)) = (axisLen R x.val y.val : Flt R) := by
    intro x y
    rw [A.ifZero]
    rfl
  have ed : ∀ x y : Flt R, (if FOps.lt x y = true then (1 : ℤ) else -1) = axisDir x.val y.val := by
    intro x y
    show (if decide (x.val < y.val) = true then (1 : ℤ) else -1) = axisDir x.val y.val
    simp [axisDir]
  have room : ((B : ℚ) + 2 + 1) * (B + 2 + 7) * u ≤ 1 / 8 := by
    have := hB.room
    rw [show ((B : ℚ) + 2 + 1) * (B + 2 + 7) = (B + 3) * (B + 9) by ring]
    exact this
  have hb1 : (1 : ℚ) ≤ B := by exact_mod_cast hB.one
  set sx := axisDir p.x.val q.x.val with hsx
  set sy := axisDir p.y.val q.y.val with hsy
  set sz := axisDir p.z.val q.z.val with hsz
  set ox : Flt R := ifZero (offsetXY sx p.x) (FOps.ofRat 1) with hox
  set oy : Flt R := ifZero (offsetXY sy p.y) (FOps.ofRat 1) with hoy
  set oz : Flt R := ifZero (offsetZ sz p.z) (FOps.ofRat 1) with hoz
  have bx := ifZero_unit A (offsetXY_flt A hB px px' sx)
  have byy := ifZero_unit A (offsetXY_flt A hB py py' sy)
  have bz := ifZero_unit A (offsetZ_flt A p.z sz)
  have tx := axis_numbers A (e := dy) (f := dz) nex
  have ty := axis_numbers A (e := dx) (f := dz) ney
  have tz := axis_numbers A (e := dx) (f := dy) nez
  set X : Flt R := tDelta (F := Flt R) dx dy dz with hX
  set Y : Flt R := tDelta (F := Flt R) dy dx dz with hY
  set Z : Flt R := tDelta (F := Flt R) dz dx dy with hZ
  have hN := A.norm dx dy dz
  set N : Flt R := R.sqrt (R.rnd (R.rnd (R.rnd (dx * dx) + R.rnd (dy * dy)) + R.rnd (dz * dz))) with hN'
  have hinit : lineInit p q = (⟨sx, sy, sz, X, Y, Z, N⟩,
      ⟨p, R.rnd (ox.val * X.val), R.rnd (oy.val * Y.val), R.rnd (oz.val * Z.val)⟩) := by
    unfold lineInit
    simp only [e0, ed]
    rfl
  have S0 : 0 < dx ^ 2 + dy ^ 2 + dz ^ 2 := by
    have := sq_nonneg dy
    have := sq_nonneg dz
    have := pow_pos (abs_pos.mpr nex) 2
    rw [sq_abs] at this
    linarith
  have okx : AxisOK u (B + 2) p.x.val dx ox.val X.val N.val (dx ^ 2 + dy ^ 2 + dz ^ 2) sx :=
    ⟨bx.1, by linarith [bx.2], by rw [abs_of_nonneg px]; linarith, by linarith [lenx.1], room, tx.1, S0, tx.2, hN, axisDir_or _ _⟩
  have oky : AxisOK u (B + 2) p.y.val dy oy.val Y.val N.val (dx ^ 2 + dy ^ 2 + dz ^ 2) sy :=
    ⟨byy.1, by linarith [byy.2], by rw [abs_of_nonneg py]; linarith, by linarith [leny.1], room, ty.1, S0,
      by rw [show dx ^ 2 + dy ^ 2 + dz ^ 2 = dy ^ 2 + dx ^ 2 + dz ^ 2 by ring]; exact ty.2, hN, axisDir_or _ _⟩
  have okz : AxisOK u (B + 2) p.z.val dz oz.val Z.val N.val (dx ^ 2 + dy ^ 2 + dz ^ 2) sz :=
    ⟨bz.1, by linarith [bz.2], by rw [abs_of_nonneg pz]; linarith, by linarith [lenz.1], room, tz.1, S0,
      by rw [show dx ^ 2 + dy ^ 2 + dz ^ 2 = dz ^ 2 + dx ^ 2 + dy ^ 2 by ring]; exact tz.2, hN, axisDir_or _ _⟩
  have fin : ∀ x y z : ℚ, CloseAt p.x.val dx sx x → CloseAt p.y.val dy sy y → CloseAt p.z.val dz sz z →
      NearSeg p.x.val q.x.val (roundAway x) ∧ NearSeg p.y.val q.y.val (roundAway y) ∧
      Min.min p.z.val q.z.val - 2 < (⌈z⌉ : ℚ) ∧ (⌈z⌉ : ℚ) < Max.max p.z.val q.z.val + 3 := by
    intro x y z h1 h2 h3
    have k3 := h3.near A hB ⟨pz, pz'⟩ ⟨qz, qz'⟩
    have c1 := Int.le_ceil z
    have c2 := Int.ceil_lt_add_one z
    exact ⟨.of (h1.near A hB ⟨px, px'⟩ ⟨qx, qx'⟩), .of (h2.near A hB ⟨py, py'⟩ ⟨qy, qy'⟩), by linarith, by linarith⟩
  have zero : ∀ (x d : ℚ) (s : ℤ), CloseAt x d s x := fun x d s => ⟨0, by simp, by have := abs_nonneg d; push_cast; linarith⟩
  have hc := cellOf_flt p (L := B) (by have := hB.int; omega) (by rw [abs_of_nonneg px]; exact px')
    (by rw [abs_of_nonneg py]; exact py') (by rw [abs_of_nonneg pz]; exact pz')
  simp only [hinit, hc, ok_bind]
  rcases lineLoop_flt A hB (c := ⟨sx, sy, sz, X, Y, Z, N⟩) (p := p) okx oky okz fuel
    ⟨p, R.rnd (ox.val * X.val), R.rnd (oy.val * Y.val), R.rnd (oz.val * Z.val)⟩ 0 0 0
    (Along.start A _ _ _ bx.1 tx.1) (Along.start A _ _ _ byy.1 ty.1) (Along.start A _ _ _ bz.1 tz.1) with ⟨h1, h2⟩ | ⟨r, h1, h2⟩
  · left
    rw [h1]
    exact ⟨rfl, by push_cast at h2; omega⟩
  · right
    rw [h1]
    refine ⟨(roundAway p.x.val, roundAway p.y.val, ⌈p.z.val⌉) :: r, rfl, by simp, ?_⟩
    intro t ht
    rcases List.mem_cons.mp ht with rfl | ht
    · exact fin _ _ _ (zero _ _ _) (zero _ _ _) (zero _ _ _)
    · obtain ⟨x, y, z, rfl, k1, k2, k3⟩ := h2 t ht
      exact fin x y z k1 k2 k3

end Soil
