import Verif.Proof.MovedFlt
import Verif.Proof.BallFlt

/-! # Corners of the body in rounded arithmetic: lemmas for C71 -/

namespace Soil

open FOps

theorem four_le {u : ℚ} (u0 : 0 ≤ u) (hu : u ≤ 1 / 500) : (1 + u) ^ 2 * (1 + u) ^ 2 ≤ 1 + 21 / 5 * u := by
  have d0 : (1 + u) ^ 2 ≤ 1 + 41 / 20 * u := by nlinarith
  have := mul_le_mul d0 d0 (sq_nonneg _) (by linarith)
  nlinarith

theorem rot_sub {q : Quat ℚ} (h : qnormSq q ≠ 0) (a b : Vec3 ℚ) :
    vsub (calcRotationQuaternion q a) (calcRotationQuaternion q b) = calcRotationQuaternion q (vsub a b) := by
  have e : a = vadd (vsub a b) b := by cases a; cases b; simp [vadd, vsub]
  conv_lhs => rw [e, (C05_linear q h _ _ 1).1]
  simp [vadd, vsub]

theorem coords_le {a : Vec3 ℚ} {r : ℚ} (hr : 0 ≤ r) (h : dot a a ≤ r ^ 2) : |a.x| ≤ r ∧ |a.y| ≤ r ∧ |a.z| ≤ r := by
  unfold dot at h
  refine ⟨abs_le_of_sq_le_sq ?_ hr, abs_le_of_sq_le_sq ?_ hr, abs_le_of_sq_le_sq ?_ hr⟩ <;>
    nlinarith [sq_nonneg a.x, sq_nonneg a.y, sq_nonneg a.z]

section Rounded

variable {R : Rounding} {prec : ℕ} {u : ℚ}

variable (A : Accurate R prec u)

include A

theorem Accurate.shrink (x : ℚ) : (1 - u) ^ 2 * x ^ 2 ≤ R.rnd x ^ 2 := by
  have u0 := A.pos
  have u1 := A.small
  have h := A.rel x
  have h1 : (1 - u) * |x| ≤ |R.rnd x| := by
    have := abs_sub_abs_le_abs_sub x (R.rnd x)
    rw [abs_sub_comm] at this
    linarith
  have h2 := pow_le_pow_left₀ (mul_nonneg (by linarith) (abs_nonneg x)) h1 2
  rw [mul_pow, sq_abs, sq_abs] at h2
  exact h2

theorem Accurate.norm3 (x y z : ℚ) :
    let s := R.sqrt (R.rnd (R.rnd (R.rnd (x * x) + R.rnd (y * y)) + R.rnd (z * z)))
    (x ^ 2 + y ^ 2 + z ^ 2) * (1 - u) ^ 5 ≤ s ^ 2 ∧ s ^ 2 ≤ (x ^ 2 + y ^ 2 + z ^ 2) * (1 + u) ^ 5 ∧ 0 ≤ s := by
  intro s
  have hu := A.pos
  have hs := A.small
  have n1 := A.nn (mul_self_nonneg x)
  have n2 := A.nn (mul_self_nonneg y)
  have n3 := A.nn (mul_self_nonneg z)
  have m1 := A.nn (add_nonneg n1 n2)
  have k1 := A.nn (add_nonneg m1 n3)
  have p : 0 ≤ 1 + u := by linarith
  have q : 0 ≤ 1 - u := by linarith
  have x2 := sq_nonneg x
  have y2 := sq_nonneg y
  have z2 := sq_nonneg z
  refine ⟨?_, ?_, A.sqrt.nonneg _ k1⟩
  · have a1 := A.lo (mul_self_nonneg x)
    have a2 := A.lo (mul_self_nonneg y)
    have a3 := A.lo (mul_self_nonneg z)
    have b1 := A.lo (add_nonneg n1 n2)
    have c1 := A.lo (add_nonneg m1 n3)
    have s1 := A.sqrt.lower _ k1
    have e1 : (x ^ 2 + y ^ 2) * (1 - u) ^ 2 ≤ R.rnd (R.rnd (x * x) + R.rnd (y * y)) := by
      calc _ = (x * x * (1 - u) + y * y * (1 - u)) * (1 - u) := by ring
        _ ≤ _ := mul_le_mul_of_nonneg_right (by linarith) q
        _ ≤ _ := b1
    have e2 : (x ^ 2 + y ^ 2 + z ^ 2) * (1 - u) ^ 3 ≤ R.rnd (R.rnd (R.rnd (x * x) + R.rnd (y * y)) + R.rnd (z * z)) := by
      have : z ^ 2 * (1 - u) ^ 2 ≤ z * z * (1 - u) := by
        have : 0 ≤ z ^ 2 * (1 - u) := by positivity
        nlinarith
      calc _ = ((x ^ 2 + y ^ 2) * (1 - u) ^ 2 + z ^ 2 * (1 - u) ^ 2) * (1 - u) := by ring
        _ ≤ _ := mul_le_mul_of_nonneg_right (by linarith) q
        _ ≤ _ := c1
    calc _ = (x ^ 2 + y ^ 2 + z ^ 2) * (1 - u) ^ 3 * (1 - u) ^ 2 := by ring
      _ ≤ _ := mul_le_mul_of_nonneg_right e2 (sq_nonneg _)
      _ ≤ _ := s1
  · have a1 := A.hi (mul_self_nonneg x)
    have a2 := A.hi (mul_self_nonneg y)
    have a3 := A.hi (mul_self_nonneg z)
    have b1 := A.hi (add_nonneg n1 n2)
    have c1 := A.hi (add_nonneg m1 n3)
    have s1 := A.sqrt.upper _ k1
    have e1 : R.rnd (R.rnd (x * x) + R.rnd (y * y)) ≤ (x ^ 2 + y ^ 2) * (1 + u) ^ 2 := by
      calc _ ≤ _ := b1
        _ ≤ (x * x * (1 + u) + y * y * (1 + u)) * (1 + u) := mul_le_mul_of_nonneg_right (by linarith) p
        _ = _ := by ring
    have e2 : R.rnd (R.rnd (R.rnd (x * x) + R.rnd (y * y)) + R.rnd (z * z)) ≤ (x ^ 2 + y ^ 2 + z ^ 2) * (1 + u) ^ 3 := by
      have : z * z * (1 + u) ≤ z ^ 2 * (1 + u) ^ 2 := by
        have : 0 ≤ z ^ 2 * (1 + u) := by positivity
        nlinarith
      calc _ ≤ _ := c1
        _ ≤ ((x ^ 2 + y ^ 2) * (1 + u) ^ 2 + z ^ 2 * (1 + u) ^ 2) * (1 + u) := mul_le_mul_of_nonneg_right (by linarith) p
        _ = _ := by ring
    calc _ ≤ _ := s1
      _ ≤ (x ^ 2 + y ^ 2 + z ^ 2) * (1 + u) ^ 3 * (1 + u) ^ 2 := mul_le_mul_of_nonneg_right e2 (sq_nonneg _)
      _ = _ := by ring

/-- rounding the coordinates of a vector -/
theorem Accurate.vec (x y z : ℚ) :
    (1 - u) ^ 2 * (x ^ 2 + y ^ 2 + z ^ 2) ≤ R.rnd x ^ 2 + R.rnd y ^ 2 + R.rnd z ^ 2 ∧
      R.rnd x ^ 2 + R.rnd y ^ 2 + R.rnd z ^ 2 ≤ (1 + u) ^ 2 * (x ^ 2 + y ^ 2 + z ^ 2) := by
  have := A.shrink x; have := A.shrink y; have := A.shrink z
  have := A.grow x; have := A.grow y; have := A.grow z
  constructor <;> linarith

/-- a vector divided by its computed length -/
theorem unit_err (hu : u ≤ 1 / 500) {x y z : ℚ} (h : 0 < x ^ 2 + y ^ 2 + z ^ 2) :
    let s := R.sqrt (R.rnd (R.rnd (R.rnd (x * x) + R.rnd (y * y)) + R.rnd (z * z)))
    1 - 8 * u ≤ R.rnd (x / s) ^ 2 + R.rnd (y / s) ^ 2 + R.rnd (z / s) ^ 2 ∧
      R.rnd (x / s) ^ 2 + R.rnd (y / s) ^ 2 + R.rnd (z / s) ^ 2 ≤ 1 + 8 * u := by
  intro s
  have u0 := A.pos
  obtain ⟨s1, s2, s0⟩ := A.norm3 x y z
  change _ ≤ s ^ 2 at s1
  change s ^ 2 ≤ _ at s2
  obtain ⟨v1, v2⟩ := A.vec (x / s) (y / s) (z / s)
  set S := x ^ 2 + y ^ 2 + z ^ 2 with hS
  have sp : 0 < s ^ 2 := lt_of_lt_of_le (mul_pos h (pow_pos (by linarith) 5)) s1
  have e : (x / s) ^ 2 + (y / s) ^ 2 + (z / s) ^ 2 = S / s ^ 2 := by
    rw [div_pow, div_pow, div_pow, ← add_div, ← add_div]
  rw [e] at v1 v2
  have l5 : 1 - 5 * u ≤ (1 - u) ^ 5 := by
    have := one_add_mul_le_pow (a := -u) (by linarith) 5
    norm_num at this
    rw [show (1 : ℚ) - u = 1 + -u by ring]
    linarith
  have h5 : (1 + u) ^ 5 ≤ 1 + 21 / 4 * u := by
    have c2 : u ^ 2 ≤ u / 500 := by nlinarith
    have c3 : u ^ 3 ≤ u / 500 := by nlinarith [mul_nonneg u0 u0]
    have c4 : u ^ 4 ≤ u / 500 := by nlinarith [pow_nonneg u0 3]
    have c5 : u ^ 5 ≤ u / 500 := by nlinarith [pow_nonneg u0 4]
    nlinarith
  refine ⟨le_trans ?_ v1, v2.trans ?_⟩
  · rw [← mul_div_assoc, le_div_iff₀ sp]
    have k : (1 - 8 * u) * (1 + u) ^ 5 ≤ (1 - u) ^ 2 := by
      have := mul_le_mul_of_nonneg_left h5 (by linarith : 0 ≤ 1 - 8 * u)
      nlinarith
    calc (1 - 8 * u) * s ^ 2 ≤ (1 - 8 * u) * (S * (1 + u) ^ 5) := mul_le_mul_of_nonneg_left s2 (by linarith)
      _ = ((1 - 8 * u) * (1 + u) ^ 5) * S := by ring
      _ ≤ _ := mul_le_mul_of_nonneg_right k h.le
  · rw [← mul_div_assoc, div_le_iff₀ sp]
    have k : (1 + u) ^ 2 ≤ (1 + 8 * u) * (1 - u) ^ 5 := by
      have := mul_le_mul_of_nonneg_left l5 (by linarith : 0 ≤ 1 + 8 * u)
      nlinarith
    calc (1 + u) ^ 2 * S ≤ ((1 + 8 * u) * (1 - u) ^ 5) * S := mul_le_mul_of_nonneg_right k h.le
      _ = (1 + 8 * u) * (S * (1 - u) ^ 5) := by ring
      _ ≤ _ := mul_le_mul_of_nonneg_left s1 (by linarith)

/-- the offset from the middle to the side: half the width times the computed normal -/
theorem off_err (hu : u ≤ 1 / 500) {w x y z : ℚ} (h1 : 1 - 8 * u ≤ x ^ 2 + y ^ 2 + z ^ 2)
    (h2 : x ^ 2 + y ^ 2 + z ^ 2 ≤ 1 + 8 * u) :
    let k := R.rnd (R.rnd (1 / 2) * w)
    (1 - 13 * u) * (w ^ 2 / 4) ≤ R.rnd (k * x) ^ 2 + R.rnd (k * y) ^ 2 + R.rnd (k * z) ^ 2 ∧
      R.rnd (k * x) ^ 2 + R.rnd (k * y) ^ 2 + R.rnd (k * z) ^ 2 ≤ (1 + 13 * u) * (w ^ 2 / 4) := by
  intro k
  have u0 := A.pos
  have g1 := A.grow (1 / 2 * w)
  have g2 := A.shrink (1 / 2 * w)
  rw [← A.halves] at g1 g2
  change k ^ 2 ≤ _ at g1
  change _ ≤ k ^ 2 at g2
  rw [A.halves] at g1 g2
  obtain ⟨v1, v2⟩ := A.vec (k * x) (k * y) (k * z)
  have e : (k * x) ^ 2 + (k * y) ^ 2 + (k * z) ^ 2 = k ^ 2 * (x ^ 2 + y ^ 2 + z ^ 2) := by ring
  rw [e] at v1 v2
  set S := x ^ 2 + y ^ 2 + z ^ 2 with hS
  have w0 : 0 ≤ w ^ 2 / 4 := by positivity
  have k0 : 0 ≤ k ^ 2 := sq_nonneg k
  have c2 : u ^ 2 ≤ u / 500 := by nlinarith
  constructor
  · refine le_trans ?_ v1
    have a : (1 - u) ^ 2 * (w ^ 2 / 4) ≤ k ^ 2 := by
      refine le_trans (le_of_eq ?_) g2; ring
    have b : (1 - u) ^ 2 * (w ^ 2 / 4) * (1 - 8 * u) ≤ k ^ 2 * S := by
      calc _ ≤ k ^ 2 * (1 - 8 * u) := mul_le_mul_of_nonneg_right a (by linarith)
        _ ≤ _ := mul_le_mul_of_nonneg_left h1 k0
    have c := mul_le_mul_of_nonneg_left b (sq_nonneg (1 - u))
    refine le_trans ?_ c
    have d : 1 - 13 * u ≤ (1 - u) ^ 2 * (1 - u) ^ 2 * (1 - 8 * u) := by
      have d1 : 1 - 4 * u ≤ (1 - u) ^ 2 * (1 - u) ^ 2 := by
        have := one_add_mul_le_pow (a := -u) (by linarith) 4
        norm_num at this
        calc 1 - 4 * u = 1 + -(4 * u) := by ring
          _ ≤ (1 + -u) ^ 4 := by linarith
          _ = _ := by ring
      have := mul_le_mul_of_nonneg_right d1 (by linarith : 0 ≤ 1 - 8 * u)
      nlinarith
    have := mul_le_mul_of_nonneg_right d w0
    linarith
  · refine v2.trans ?_
    have a : k ^ 2 ≤ (1 + u) ^ 2 * (w ^ 2 / 4) := by
      refine le_trans g1 (le_of_eq ?_); ring
    have b : k ^ 2 * S ≤ (1 + u) ^ 2 * (w ^ 2 / 4) * (1 + 8 * u) := by
      calc _ ≤ k ^ 2 * (1 + 8 * u) := mul_le_mul_of_nonneg_left h2 k0
        _ ≤ _ := mul_le_mul_of_nonneg_right a (by linarith)
    have c := mul_le_mul_of_nonneg_left b (sq_nonneg (1 + u))
    refine c.trans ?_
    have d : (1 + u) ^ 2 * (1 + u) ^ 2 * (1 + 8 * u) ≤ 1 + 13 * u := by
      have d1 := four_le u0 hu
      have := mul_le_mul_of_nonneg_right d1 (by linarith : 0 ≤ 1 + 8 * u)
      nlinarith
    have := mul_le_mul_of_nonneg_right d w0
    linarith

/-- a component of the computed cross product -/
theorem cross_err (hu : u ≤ 1 / 500) {r a b c d a' b' c' d' : ℚ} (hr : 0 ≤ r)
    (ha : |a| ≤ 2 * r) (hb : |b| ≤ 2 * r) (hc : |c| ≤ 2 * r) (hd : |d| ≤ 2 * r)
    (ha' : |a' - a| ≤ 61 * u * r) (hb' : |b' - b| ≤ 61 * u * r) (hc' : |c' - c| ≤ 61 * u * r)
    (hd' : |d' - d| ≤ 61 * u * r) :
    |R.rnd (R.rnd (a' * b') - R.rnd (c' * d')) - (a * b - c * d)| ≤ 550 * u * r ^ 2 := by
  have u0 := A.pos
  have ur : 0 ≤ u * r := mul_nonneg u0 hr
  have urr : 0 ≤ u * r ^ 2 := mul_nonneg u0 (sq_nonneg r)
  have small : u * r ≤ r / 500 := by nlinarith
  -- one product
  have one : ∀ {p q p' q' : ℚ}, |p| ≤ 2 * r → |q| ≤ 2 * r → |p' - p| ≤ 61 * u * r → |q' - q| ≤ 61 * u * r →
      |R.rnd (p' * q') - p * q| ≤ 258 * u * r ^ 2 ∧ |R.rnd (p' * q')| ≤ 5 * r ^ 2 := by
    intro p q p' q' hp hq hp' hq'
    have e1 : |p' * q' - p * q| ≤ 252 * u * r ^ 2 := by
      have : p' * q' - p * q = (p' - p) * q + p * (q' - q) + (p' - p) * (q' - q) := by ring
      rw [this]
      have t1 : |(p' - p) * q| ≤ 61 * u * r * (2 * r) := by
        rw [abs_mul]; exact mul_le_mul hp' hq (abs_nonneg _) (by positivity)
      have t2 : |p * (q' - q)| ≤ 2 * r * (61 * u * r) := by
        rw [abs_mul]; exact mul_le_mul hp hq' (abs_nonneg _) (by positivity)
      have t3 : |(p' - p) * (q' - q)| ≤ 61 * u * r * (61 * u * r) := by
        rw [abs_mul]; exact mul_le_mul hp' hq' (abs_nonneg _) (by positivity)
      have t4 : 61 * u * r * (61 * u * r) ≤ 8 * u * r ^ 2 := by nlinarith
      have := abs_add_le ((p' - p) * q + p * (q' - q)) ((p' - p) * (q' - q))
      have := abs_add_le ((p' - p) * q) (p * (q' - q))
      nlinarith
    have e2 : |p * q| ≤ 4 * r ^ 2 := by
      rw [abs_mul]
      have := mul_le_mul hp hq (abs_nonneg _) (by positivity)
      linarith
    have e3 : |p' * q'| ≤ 4 * r ^ 2 + 252 * u * r ^ 2 := by
      have := abs_add_le (p' * q' - p * q) (p * q)
      rw [sub_add_cancel] at this
      linarith
    have e4 : 252 * u * r ^ 2 ≤ 252 / 500 * r ^ 2 := by nlinarith [sq_nonneg r]
    have e5 := A.rel (p' * q')
    have e6 : u * |p' * q'| ≤ u * (5 * r ^ 2) := mul_le_mul_of_nonneg_left (by linarith) u0
    refine ⟨?_, ?_⟩
    · have := abs_add_le (R.rnd (p' * q') - p' * q') (p' * q' - p * q)
      rw [sub_add_sub_cancel] at this
      linarith
    · have := abs_add_le (R.rnd (p' * q') - p' * q') (p' * q')
      rw [sub_add_cancel] at this
      nlinarith [sq_nonneg r]
  obtain ⟨x1, x2⟩ := one ha hb ha' hb'
  obtain ⟨y1, y2⟩ := one hc hd hc' hd'
  have k := A.rel (R.rnd (a' * b') - R.rnd (c' * d'))
  have k1 : |R.rnd (a' * b') - R.rnd (c' * d')| ≤ 10 * r ^ 2 := by
    have := abs_sub (R.rnd (a' * b')) (R.rnd (c' * d'))
    linarith
  have k2 := mul_le_mul_of_nonneg_left k1 u0
  have e : R.rnd (R.rnd (a' * b') - R.rnd (c' * d')) - (a * b - c * d) =
      (R.rnd (R.rnd (a' * b') - R.rnd (c' * d')) - (R.rnd (a' * b') - R.rnd (c' * d'))) +
      ((R.rnd (a' * b') - a * b) - (R.rnd (c' * d') - c * d)) := by ring
  rw [e]
  have := abs_add_le (R.rnd (R.rnd (a' * b') - R.rnd (c' * d')) - (R.rnd (a' * b') - R.rnd (c' * d')))
    ((R.rnd (a' * b') - a * b) - (R.rnd (c' * d') - c * d))
  have := abs_sub (R.rnd (a' * b') - a * b) (R.rnd (c' * d') - c * d)
  linarith

/-- an edge of the triangle of the reference points -/
theorem edge_err (hu : u ≤ 1 / 500) {r a b a' b' : ℚ} (hr : 0 ≤ r) (ha : |a| ≤ r) (hb : |b| ≤ r)
    (ha' : |a' - a| ≤ 29 * u * r) (hb' : |b' - b| ≤ 29 * u * r) :
    |b - a| ≤ 2 * r ∧ |R.rnd (b' - a') - (b - a)| ≤ 61 * u * r := by
  have u0 := A.pos
  have ur : 0 ≤ u * r := mul_nonneg u0 hr
  have small : u * r ≤ r / 500 := by nlinarith
  have h1 : |b - a| ≤ 2 * r := by
    have := abs_sub b a
    linarith
  have h2 : |(b' - a') - (b - a)| ≤ 58 * u * r := by
    have e : (b' - a') - (b - a) = (b' - b) - (a' - a) := by ring
    rw [e]
    have := abs_sub (b' - b) (a' - a)
    linarith
  have h3 : |b' - a'| ≤ 5 / 2 * r := by
    have := abs_add_le ((b' - a') - (b - a)) (b - a)
    rw [sub_add_cancel] at this
    linarith
  have h4 := A.rel (b' - a')
  have h5 := mul_le_mul_of_nonneg_left h3 u0
  refine ⟨h1, ?_⟩
  have := abs_add_le (R.rnd (b' - a') - (b' - a')) ((b' - a') - (b - a))
  rw [sub_add_sub_cancel] at this
  linarith

/-- If the three reference points are far enough from a line, the computed normal has length one. -/
theorem normal_err (hu : u ≤ 1 / 500) (u0 : 0 < u) {r : ℚ} (hr : 0 < r) (q : Quat (Flt R)) (hq : 0 < qnormSq q.exact) (J B T : Vec3 (Flt R))
    (hJ : dot J.exact J.exact ≤ r ^ 2) (hB : dot B.exact B.exact ≤ r ^ 2) (hT : dot T.exact T.exact ≤ r ^ 2)
    (hN : (1000 * u * r ^ 2) ^ 2 ≤ dot (cross (vsub B.exact J.exact) (vsub T.exact J.exact)) (cross (vsub B.exact J.exact) (vsub T.exact J.exact))) :
    let n := (calcNormal (calcRotationQuaternion q J) (calcRotationQuaternion q B) (calcRotationQuaternion q T)).exact
    1 - 8 * u ≤ n.x ^ 2 + n.y ^ 2 + n.z ^ 2 ∧ n.x ^ 2 + n.y ^ 2 + n.z ^ 2 ≤ 1 + 8 * u := by
  have near : ∀ V : Vec3 (Flt R), dot V.exact V.exact ≤ r ^ 2 →
      (|(calcRotationQuaternion q.exact V.exact).x| ≤ r ∧ |(calcRotationQuaternion q.exact V.exact).y| ≤ r ∧
        |(calcRotationQuaternion q.exact V.exact).z| ≤ r) ∧
      |(calcRotationQuaternion q V).x.val - (calcRotationQuaternion q.exact V.exact).x| ≤ 29 * u * r ∧
      |(calcRotationQuaternion q V).y.val - (calcRotationQuaternion q.exact V.exact).y| ≤ 29 * u * r ∧
      |(calcRotationQuaternion q V).z.val - (calcRotationQuaternion q.exact V.exact).z| ≤ 29 * u * r := by
    intro V hV
    refine ⟨coords_le hr.le (by rw [C05_dot _ hq.ne']; exact hV), ?_⟩
    refine coords_within (a := (calcRotationQuaternion q V).exact) (by positivity) ?_
    refine (rot_err A hu q hq V).trans ?_
    rw [mul_pow (29 * u) r]
    exact mul_le_mul_of_nonneg_left hV (sq_nonneg _)
  obtain ⟨⟨jx, jy, jz⟩, jx', jy', jz'⟩ := near J hJ
  obtain ⟨⟨bx, bY, bz⟩, bx', by', bz'⟩ := near B hB
  obtain ⟨⟨tx, ty, tz⟩, tx', ty', tz'⟩ := near T hT
  have k : dot (cross (vsub B.exact J.exact) (vsub T.exact J.exact)) (cross (vsub B.exact J.exact) (vsub T.exact J.exact)) =
      dot (cross (vsub (calcRotationQuaternion q.exact B.exact) (calcRotationQuaternion q.exact J.exact))
        (vsub (calcRotationQuaternion q.exact T.exact) (calcRotationQuaternion q.exact J.exact)))
      (cross (vsub (calcRotationQuaternion q.exact B.exact) (calcRotationQuaternion q.exact J.exact))
        (vsub (calcRotationQuaternion q.exact T.exact) (calcRotationQuaternion q.exact J.exact))) := by
    rw [rot_sub hq.ne', rot_sub hq.ne', C05_cross _ hq.ne', C05_dot _ hq.ne']
  rw [k] at hN
  generalize calcRotationQuaternion q.exact J.exact = J0 at *
  generalize calcRotationQuaternion q.exact B.exact = B0 at *
  generalize calcRotationQuaternion q.exact T.exact = T0 at *
  generalize calcRotationQuaternion q J = J1 at *
  generalize calcRotationQuaternion q B = B1 at *
  generalize calcRotationQuaternion q T = T1 at *
  obtain ⟨p1, p1'⟩ := edge_err A hu hr.le jx bx jx' bx'
  obtain ⟨p2, p2'⟩ := edge_err A hu hr.le jy bY jy' by'
  obtain ⟨p3, p3'⟩ := edge_err A hu hr.le jz bz jz' bz'
  obtain ⟨s1, s1'⟩ := edge_err A hu hr.le jx tx jx' tx'
  obtain ⟨s2, s2'⟩ := edge_err A hu hr.le jy ty jy' ty'
  obtain ⟨s3, s3'⟩ := edge_err A hu hr.le jz tz jz' tz'
  have cx := cross_err A hu hr.le p2 s3 p3 s2 p2' s3' p3' s2'
  have cy := cross_err A hu hr.le p3 s1 p1 s3 p3' s1' p1' s3'
  have cz := cross_err A hu hr.le p1 s2 p2 s1 p1' s2' p2' s1'
  refine unit_err A hu (x := R.rnd (R.rnd (R.rnd (B1.y.val - J1.y.val) * R.rnd (T1.z.val - J1.z.val)) -
      R.rnd (R.rnd (B1.z.val - J1.z.val) * R.rnd (T1.y.val - J1.y.val))))
    (y := R.rnd (R.rnd (R.rnd (B1.z.val - J1.z.val) * R.rnd (T1.x.val - J1.x.val)) -
      R.rnd (R.rnd (B1.x.val - J1.x.val) * R.rnd (T1.z.val - J1.z.val))))
    (z := R.rnd (R.rnd (R.rnd (B1.x.val - J1.x.val) * R.rnd (T1.y.val - J1.y.val)) -
      R.rnd (R.rnd (B1.y.val - J1.y.val) * R.rnd (T1.x.val - J1.x.val)))) ?_
  generalize R.rnd (R.rnd (R.rnd (B1.y.val - J1.y.val) * R.rnd (T1.z.val - J1.z.val)) -
      R.rnd (R.rnd (B1.z.val - J1.z.val) * R.rnd (T1.y.val - J1.y.val))) = X at *
  generalize R.rnd (R.rnd (R.rnd (B1.z.val - J1.z.val) * R.rnd (T1.x.val - J1.x.val)) -
      R.rnd (R.rnd (B1.x.val - J1.x.val) * R.rnd (T1.z.val - J1.z.val))) = Y at *
  generalize R.rnd (R.rnd (R.rnd (B1.x.val - J1.x.val) * R.rnd (T1.y.val - J1.y.val)) -
      R.rnd (R.rnd (B1.y.val - J1.y.val) * R.rnd (T1.x.val - J1.x.val))) = Z at *
  by_contra hcon
  have hX : X = 0 := pow_eq_zero_iff two_ne_zero |>.mp (by linarith [sq_nonneg X, sq_nonneg Y, sq_nonneg Z])
  have hY : Y = 0 := pow_eq_zero_iff two_ne_zero |>.mp (by linarith [sq_nonneg X, sq_nonneg Y, sq_nonneg Z])
  have hZ : Z = 0 := pow_eq_zero_iff two_ne_zero |>.mp (by linarith [sq_nonneg X, sq_nonneg Y, sq_nonneg Z])
  rw [hX, zero_sub, abs_neg] at cx
  rw [hY, zero_sub, abs_neg] at cy
  rw [hZ, zero_sub, abs_neg] at cz
  have sx := pow_le_pow_left₀ (abs_nonneg _) cx 2
  have sy := pow_le_pow_left₀ (abs_nonneg _) cy 2
  have sz := pow_le_pow_left₀ (abs_nonneg _) cz 2
  rw [sq_abs] at sx sy sz
  simp only [dot, cross, vsub] at hN
  have pos : 0 < (u * r ^ 2) ^ 2 := by positivity
  linarith

/-- the middle of the two sides, and the difference of the two sides -/
theorem pair_err (J o : ℚ) :
    |(R.rnd (J + o) + R.rnd (J - o)) / 2 - J| ≤ u * (|J| + |o|) ∧ |R.rnd (J + o) - R.rnd (J - o) - 2 * o| ≤ 2 * u * (|J| + |o|) := by
  have h1 := A.rel (J + o)
  have h2 := A.rel (J - o)
  have u0 := A.pos
  have k1 := mul_le_mul_of_nonneg_left (abs_add_le J o) u0
  have k2 := mul_le_mul_of_nonneg_left (abs_sub J o) u0
  obtain ⟨a1, a2⟩ := abs_le.mp (h1.trans k1)
  obtain ⟨b1, b2⟩ := abs_le.mp (h2.trans k2)
  constructor <;> rw [abs_le] <;> constructor <;> linarith

/-- one coordinate of a corner -/
theorem coord_err (hu : u ≤ 1 / 500) {m m0 p o r w : ℚ} (hr : 0 ≤ r) (hw : 0 ≤ w) (hm : |m - m0| ≤ 29 * u * r) (ho : o ^ 2 ≤ (1 + 13 * u) * (w ^ 2 / 4)) :
    |(R.rnd (R.rnd (m + p) + o) + R.rnd (R.rnd (m + p) - o)) / 2 - (m0 + p)| ≤ u * (64 * r + 3 * |m0 + p| + w) ∧
      |R.rnd (R.rnd (m + p) + o) - R.rnd (R.rnd (m + p) - o) - 2 * o| ≤ u * (r / 2 + 5 / 2 * |m0 + p| + 3 / 2 * w) := by
  have u0 := A.pos
  have k := A.shift (p := p) hu hr (hm.trans (by nlinarith [mul_nonneg u0 hr]))
  have ow : |o| ≤ 51 / 100 * w := by
    refine abs_le_of_sq_le_sq ?_ (by positivity)
    have : u * w ^ 2 ≤ 1 / 500 * w ^ 2 := mul_le_mul_of_nonneg_right hu (sq_nonneg w)
    nlinarith [sq_nonneg w]
  obtain ⟨a, b⟩ := pair_err A (R.rnd (m + p)) o
  have e := abs_nonneg (m0 + p)
  have J : |R.rnd (m + p)| ≤ |m0 + p| + u * (63 * r + |m0 + p|) := by
    have := abs_add_le (R.rnd (m + p) - (m0 + p)) (m0 + p)
    rw [sub_add_cancel] at this
    linarith
  have s : u * (63 * r + |m0 + p|) ≤ 1 / 500 * (63 * r + |m0 + p|) := mul_le_mul_of_nonneg_right hu (by positivity)
  have t : |R.rnd (m + p)| + |o| ≤ 63 / 500 * r + 501 / 500 * |m0 + p| + 51 / 100 * w := by linarith
  have t' := mul_le_mul_of_nonneg_left t u0
  have v1 := mul_nonneg u0 hr
  have v2 := mul_nonneg u0 hw
  have v3 := mul_nonneg u0 e
  refine ⟨?_, b.trans (by nlinarith)⟩
  have := abs_add_le ((R.rnd (R.rnd (m + p) + o) + R.rnd (R.rnd (m + p) - o)) / 2 - R.rnd (m + p)) (R.rnd (m + p) - (m0 + p))
  rw [sub_add_sub_cancel] at this
  nlinarith

/-- The two corners made from one reference point `V` -/
theorem side_err (hu : u ≤ 1 / 500) (u0 : 0 < u) {r w L : ℚ} (hr : 0 ≤ r) (hw : 0 < w) (q : Vec3 (Flt R) × Quat (Flt R)) (hq : 0 < qnormSq q.2.exact)
    (V o : Vec3 (Flt R)) (hV : dot V.exact V.exact ≤ r ^ 2)
    (o1 : (1 - 13 * u) * (w ^ 2 / 4) ≤ o.x.val ^ 2 + o.y.val ^ 2 + o.z.val ^ 2)
    (o2 : o.x.val ^ 2 + o.y.val ^ 2 + o.z.val ^ 2 ≤ (1 + 13 * u) * (w ^ 2 / 4)) :
    let a := (((calcRotationQuaternion q.2 V).addF q.1).addF o).exact
    let b := (((calcRotationQuaternion q.2 V).addF q.1).subF o).exact
    let E := vadd (calcRotationQuaternion q.2.exact V.exact) q.1.exact
    (|(a.x + b.x) / 2 - E.x| ≤ u * (64 * r + 3 * |E.x| + w) ∧ |(a.y + b.y) / 2 - E.y| ≤ u * (64 * r + 3 * |E.y| + w) ∧
      |(a.z + b.z) / 2 - E.z| ≤ u * (64 * r + 3 * |E.z| + w)) ∧
    (|E.x| ≤ L → |E.y| ≤ L → |E.z| ≤ L →
      vdist2 a b ≤ (w + u * (r + 5 * L + 10 * w)) ^ 2 ∧
      (0 ≤ w - u * (r + 5 * L + 10 * w) → (w - u * (r + 5 * L + 10 * w)) ^ 2 ≤ vdist2 a b)) := by
  intro a b E
  have near : |(calcRotationQuaternion q.2 V).x.val - (calcRotationQuaternion q.2.exact V.exact).x| ≤ 29 * u * r ∧
      |(calcRotationQuaternion q.2 V).y.val - (calcRotationQuaternion q.2.exact V.exact).y| ≤ 29 * u * r ∧
      |(calcRotationQuaternion q.2 V).z.val - (calcRotationQuaternion q.2.exact V.exact).z| ≤ 29 * u * r := by
    refine coords_within (a := (calcRotationQuaternion q.2 V).exact) (by positivity) ?_
    refine (rot_err A hu q.2 hq V).trans ?_
    rw [mul_pow (29 * u) r]
    exact mul_le_mul_of_nonneg_left hV (sq_nonneg _)
  obtain ⟨nx, ny, nz⟩ := near
  have qx := sq_nonneg o.x.val
  have qy := sq_nonneg o.y.val
  have qz := sq_nonneg o.z.val
  obtain ⟨x1, x2⟩ := coord_err A (p := q.1.x.val) (o := o.x.val) hu hr hw.le nx (by linarith)
  obtain ⟨y1, y2⟩ := coord_err A (p := q.1.y.val) (o := o.y.val) hu hr hw.le ny (by linarith)
  obtain ⟨z1, z2⟩ := coord_err A (p := q.1.z.val) (o := o.z.val) hu hr hw.le nz (by linarith)
  refine ⟨⟨x1, y1, z1⟩, fun lx ly lz => ?_⟩
  have L0 : 0 ≤ L := (abs_nonneg _).trans lx
  set ε := u * (r / 2 + 5 / 2 * L + 3 / 2 * w) with hε
  have ε0 : 0 ≤ ε := by positivity
  have ex : |a.x - b.x - 2 * o.x.val| ≤ ε :=
    le_trans x2 (mul_le_mul_of_nonneg_left (by have : |(calcRotationQuaternion q.2.exact V.exact).x + q.1.x.val| ≤ L := lx
                                               linarith) u0.le)
  have ey : |a.y - b.y - 2 * o.y.val| ≤ ε :=
    le_trans y2 (mul_le_mul_of_nonneg_left (by have : |(calcRotationQuaternion q.2.exact V.exact).y + q.1.y.val| ≤ L := ly
                                               linarith) u0.le)
  have ez : |a.z - b.z - 2 * o.z.val| ≤ ε :=
    le_trans z2 (mul_le_mul_of_nonneg_left (by have : |(calcRotationQuaternion q.2.exact V.exact).z + q.1.z.val| ≤ L := lz
                                               linarith) u0.le)
  have fx := pow_le_pow_left₀ (abs_nonneg _) ex 2
  have fy := pow_le_pow_left₀ (abs_nonneg _) ey 2
  have fz := pow_le_pow_left₀ (abs_nonneg _) ez 2
  rw [sq_abs] at fx fy fz
  set d := vsub a b with hd
  set c : Vec3 ℚ := ⟨2 * o.x.val, 2 * o.y.val, 2 * o.z.val⟩ with hc
  have dist : vdist2 d c ≤ (2 * ε) ^ 2 * 1 := by
    simp only [vdist2, dot, vsub, hd, hc]
    linarith [sq_nonneg ε]
  have dist' : vdist2 c d ≤ (2 * ε) ^ 2 * 1 := by
    simp only [vdist2, dot, vsub, hd, hc]
    linarith [sq_nonneg ε]
  have cc : dot c c = 4 * (o.x.val ^ 2 + o.y.val ^ 2 + o.z.val ^ 2) := by simp only [dot, hc]; ring
  have uw : 0 < u * w := mul_pos u0 hw
  have w2 : 0 < w ^ 2 := by positivity
  have uw2 : 0 < u * w ^ 2 := mul_pos u0 w2
  have e2 : 2 * ε = u * (r + 5 * L + 3 * w) := by rw [hε]; ring
  refine ⟨?_, fun hpos => ?_⟩
  · have hi : dot c c ≤ (w + 7 * u * w) ^ 2 * 1 := by
      rw [cc]
      linarith [sq_nonneg (u * w)]
    have := dot_tri (by positivity) (by positivity) zero_le_one dist hi
    change dot d d ≤ _
    refine this.trans (le_of_eq ?_)
    rw [e2]; ring
  · by_contra hcon
    have hlt : dot d d ≤ (w - u * (r + 5 * L + 10 * w)) ^ 2 * 1 := by
      rw [mul_one]; exact (not_le.mp hcon).le
    have := dot_tri (by positivity) hpos zero_le_one dist' hlt
    have e3 : 2 * ε + (w - u * (r + 5 * L + 10 * w)) = w - 7 * u * w := by rw [e2]; ring
    rw [e3, cc] at this
    have h49 : u * (u * w ^ 2) ≤ 1 / 500 * (u * w ^ 2) := mul_le_mul_of_nonneg_right hu uw2.le
    linarith

end Rounded

end Soil
