import Verif.Proof.PoseFlt
import Verif.Spec.CarryFits

/-! # Rotations in rounded arithmetic hardly lengthen vectors -/

set_option linter.unusedSectionVars false
set_option linter.unusedVariables false

namespace Soil

open FOps

variable {R : Rounding} {prec : ℕ} {u : ℚ}

/-- Squared length of a quaternion -/
def qn (a : Quat (Flt R)) : ℚ := a.q0.val ^ 2 + a.q1.val ^ 2 + a.q2.val ^ 2 + a.q3.val ^ 2

/-- Squared length of a vector -/
def vn (a : Vec3 (Flt R)) : ℚ := a.x.val ^ 2 + a.y.val ^ 2 + a.z.val ^ 2

section

variable (A : Accurate R prec u)

include A

theorem Accurate.accum {k P S e x p : ℚ} (hk : u ≤ k) (hP : |P| ≤ S) (he : |e - P| ≤ k * S) (hx : |x - p| ≤ u * |p|) :
    |R.rnd (e + x) - (P + p)| ≤ (k + u + k * u) * (S + |p|) := by
  have hu := A.pos
  have h1 := A.rel (e + x)
  have hp := abs_nonneg p
  have t1 : |e + x - (P + p)| ≤ k * (S + |p|) := by
    have : e + x - (P + p) = (e - P) + (x - p) := by ring
    rw [this]
    have := abs_add_le (e - P) (x - p)
    have : u * |p| ≤ k * |p| := mul_le_mul_of_nonneg_right hk hp
    linarith
  have t2 : |e + x| ≤ (1 + k) * (S + |p|) := by
    have e1 : e + x = (e + x - (P + p)) + (P + p) := by ring
    rw [e1]
    have := abs_add_le (e + x - (P + p)) (P + p)
    have := abs_add_le P p
    linarith
  have t3 : u * |e + x| ≤ u * ((1 + k) * (S + |p|)) := mul_le_mul_of_nonneg_left t2 hu
  have e2 : R.rnd (e + x) - (P + p) = (R.rnd (e + x) - (e + x)) + (e + x - (P + p)) := by ring
  rw [e2]
  have := abs_add_le (R.rnd (e + x) - (e + x)) (e + x - (P + p))
  nlinarith

theorem Accurate.sum4 (hu : u ≤ 1 / 500) {x1 x2 x3 x4 p1 p2 p3 p4 : ℚ} (h1 : |x1 - p1| ≤ u * |p1|) (h2 : |x2 - p2| ≤ u * |p2|)
    (h3 : |x3 - p3| ≤ u * |p3|) (h4 : |x4 - p4| ≤ u * |p4|) :
    |R.rnd (R.rnd (R.rnd (x1 + x2) + x3) + x4) - (p1 + p2 + p3 + p4)| ≤ 5 * u * (|p1| + |p2| + |p3| + |p4|) := by
  have u0 := A.pos
  have a1 := A.accum le_rfl le_rfl h1 h2
  have a2 := A.accum (by nlinarith) (abs_add_le p1 p2) a1 h3
  have a3 := A.accum (by nlinarith) ((abs_add_le _ p3).trans (add_le_add_left (abs_add_le p1 p2) _)) a2 h4
  refine a3.trans (mul_le_mul_of_nonneg_right ?_ (by positivity))
  nlinarith [mul_nonneg u0 u0, mul_nonneg (mul_nonneg u0 u0) u0, mul_nonneg u0 (sub_nonneg.mpr hu),
    mul_nonneg (mul_nonneg u0 u0) (sub_nonneg.mpr hu), mul_nonneg (mul_nonneg (mul_nonneg u0 u0) u0) (sub_nonneg.mpr hu)]

omit A in
theorem cauchy4 (a b c d e f g h : ℚ) :
    (|a * e| + |b * f| + |c * g| + |d * h|) ^ 2 ≤ (a ^ 2 + b ^ 2 + c ^ 2 + d ^ 2) * (e ^ 2 + f ^ 2 + g ^ 2 + h ^ 2) := by
  simp only [abs_mul]
  rw [← sq_abs a, ← sq_abs b, ← sq_abs c, ← sq_abs d, ← sq_abs e, ← sq_abs f, ← sq_abs g, ← sq_abs h]
  generalize |a| = a, |b| = b, |c| = c, |d| = d, |e| = e, |f| = f, |g| = g, |h| = h
  nlinarith [sq_nonneg (a * f - b * e), sq_nonneg (a * g - c * e), sq_nonneg (a * h - d * e), sq_nonneg (b * g - c * f),
    sq_nonneg (b * h - d * f), sq_nonneg (c * h - d * g)]

omit A in
theorem sq_near {u x c S M : ℚ} (u0 : 0 ≤ u) (hS : 0 ≤ S) (h : |c - x| ≤ 5 * u * S) (hM : S ^ 2 ≤ M) :
    c ^ 2 ≤ (1 + 5 * u) * x ^ 2 + (5 * u + 25 * u ^ 2) * M := by
  have e : c = x + (c - x) := by ring
  have h2 : (c - x) ^ 2 ≤ (5 * u * S) ^ 2 := sq_le_sq' (by linarith [(abs_le.mp h).1]) (abs_le.mp h).2
  have h3 : 2 * x * (c - x) ≤ 5 * u * (x ^ 2 + S ^ 2) := by
    have t : 2 * x * (c - x) ≤ 2 * |x| * |c - x| := by
      have := le_abs_self (x * (c - x))
      rw [abs_mul] at this
      linarith
    have t2 : 2 * |x| * |c - x| ≤ 2 * |x| * (5 * u * S) := mul_le_mul_of_nonneg_left h (by positivity)
    have t3 : 2 * |x| * S ≤ x ^ 2 + S ^ 2 := by nlinarith [sq_nonneg (|x| - S), sq_abs x]
    have t4 : 5 * u * (2 * |x| * S) ≤ 5 * u * (x ^ 2 + S ^ 2) := mul_le_mul_of_nonneg_left t3 (by linarith)
    linarith
  have h4 : (5 * u + 25 * u ^ 2) * S ^ 2 ≤ (5 * u + 25 * u ^ 2) * M := mul_le_mul_of_nonneg_left hM (by positivity)
  nlinarith

omit A in
theorem sum_near {u M x0 x1 x2 x3 c0 c1 c2 c3 : ℚ} (u0 : 0 ≤ u) (hu : u ≤ 1 / 500) (hM : 0 ≤ M)
    (hm : x0 ^ 2 + x1 ^ 2 + x2 ^ 2 + x3 ^ 2 = M) (h0 : c0 ^ 2 ≤ (1 + 5 * u) * x0 ^ 2 + (5 * u + 25 * u ^ 2) * M)
    (h1 : c1 ^ 2 ≤ (1 + 5 * u) * x1 ^ 2 + (5 * u + 25 * u ^ 2) * M) (h2 : c2 ^ 2 ≤ (1 + 5 * u) * x2 ^ 2 + (5 * u + 25 * u ^ 2) * M)
    (h3 : c3 ^ 2 ≤ (1 + 5 * u) * x3 ^ 2 + (5 * u + 25 * u ^ 2) * M) :
    c0 ^ 2 + c1 ^ 2 + c2 ^ 2 + c3 ^ 2 ≤ (1 + 26 * u) * M := by
  have k : 1 + 5 * u + 4 * (5 * u + 25 * u ^ 2) ≤ 1 + 26 * u := by nlinarith only [u0, hu]
  have k' := mul_le_mul_of_nonneg_right k hM
  have e : (1 + 5 * u) * x0 ^ 2 + (1 + 5 * u) * x1 ^ 2 + (1 + 5 * u) * x2 ^ 2 + (1 + 5 * u) * x3 ^ 2 = (1 + 5 * u) * M := by rw [← hm]; ring
  linarith only [h0, h1, h2, h3, k', e]

theorem mulQ_norm (hu : u ≤ 1 / 500) (a b : Quat (Flt R)) : qn (multiplyQuaternion a b) ≤ (1 + 26 * u) * (qn a * qn b) := by
  have u0 := A.pos
  obtain ⟨a0, a1, a2, a3⟩ := a
  obtain ⟨b0, b1, b2, b3⟩ := b
  have neg : ∀ p : ℚ, |(-R.rnd p) - (-p)| ≤ u * |(-p)| := by
    intro p
    rw [abs_neg, show -R.rnd p - -p = -(R.rnd p - p) by ring, abs_neg]
    exact A.rel p
  have k0 := A.sum4 hu (A.rel (a0.val * b0.val)) (neg (a1.val * b1.val)) (neg (a2.val * b2.val)) (neg (a3.val * b3.val))
  have k1 := A.sum4 hu (A.rel (a0.val * b1.val)) (A.rel (a1.val * b0.val)) (A.rel (a2.val * b3.val)) (neg (a3.val * b2.val))
  have k2 := A.sum4 hu (A.rel (a0.val * b2.val)) (neg (a1.val * b3.val)) (A.rel (a2.val * b0.val)) (A.rel (a3.val * b1.val))
  have k3 := A.sum4 hu (A.rel (a0.val * b3.val)) (A.rel (a1.val * b2.val)) (neg (a2.val * b1.val)) (A.rel (a3.val * b0.val))
  simp only [abs_neg] at k0 k1 k2 k3
  have c0 := cauchy4 a0.val a1.val a2.val a3.val b0.val b1.val b2.val b3.val
  have c1 := cauchy4 a0.val a1.val a2.val a3.val b1.val b0.val b3.val b2.val
  have c2 := cauchy4 a0.val a1.val a2.val a3.val b2.val b3.val b0.val b1.val
  have c3 := cauchy4 a0.val a1.val a2.val a3.val b3.val b2.val b1.val b0.val
  have s0 := sq_near u0 (by positivity) k0 c0
  have s1 := sq_near u0 (by positivity) k1 c1
  have s2 := sq_near u0 (by positivity) k2 c2
  have s3 := sq_near u0 (by positivity) k3 c3
  have key : qn (multiplyQuaternion (⟨a0, a1, a2, a3⟩ : Quat (Flt R)) ⟨b0, b1, b2, b3⟩) = 
      R.rnd (R.rnd (R.rnd (R.rnd (a0.val * b0.val) + -R.rnd (a1.val * b1.val)) + -R.rnd (a2.val * b2.val)) + -R.rnd (a3.val * b3.val)) ^ 2 +
      R.rnd (R.rnd (R.rnd (R.rnd (a0.val * b1.val) + R.rnd (a1.val * b0.val)) + R.rnd (a2.val * b3.val)) + -R.rnd (a3.val * b2.val)) ^ 2 +
      R.rnd (R.rnd (R.rnd (R.rnd (a0.val * b2.val) + -R.rnd (a1.val * b3.val)) + R.rnd (a2.val * b0.val)) + R.rnd (a3.val * b1.val)) ^ 2 +
      R.rnd (R.rnd (R.rnd (R.rnd (a0.val * b3.val) + R.rnd (a1.val * b2.val)) + -R.rnd (a2.val * b1.val)) + R.rnd (a3.val * b0.val)) ^ 2 := by
    simp only [← sub_eq_add_neg]
    rfl
  rw [key]
  unfold qn
  dsimp only
  generalize a0.val = a0, a1.val = a1, a2.val = a2, a3.val = a3, b0.val = b0, b1.val = b1, b2.val = b2, b3.val = b3 at *
  have hM : 0 ≤ (a0 ^ 2 + a1 ^ 2 + a2 ^ 2 + a3 ^ 2) * (b0 ^ 2 + b1 ^ 2 + b2 ^ 2 + b3 ^ 2) := by positivity
  have hm : (a0 * b0 + -(a1 * b1) + -(a2 * b2) + -(a3 * b3)) ^ 2 + (a0 * b1 + a1 * b0 + a2 * b3 + -(a3 * b2)) ^ 2 +
      (a0 * b2 + -(a1 * b3) + a2 * b0 + a3 * b1) ^ 2 + (a0 * b3 + a1 * b2 + -(a2 * b1) + a3 * b0) ^ 2 =
      (a0 ^ 2 + a1 ^ 2 + a2 ^ 2 + a3 ^ 2) * (b0 ^ 2 + b1 ^ 2 + b2 ^ 2 + b3 ^ 2) := by ring
  rw [show (b1 ^ 2 + b0 ^ 2 + b3 ^ 2 + b2 ^ 2) = (b0 ^ 2 + b1 ^ 2 + b2 ^ 2 + b3 ^ 2) by ring] at s1
  rw [show (b2 ^ 2 + b3 ^ 2 + b0 ^ 2 + b1 ^ 2) = (b0 ^ 2 + b1 ^ 2 + b2 ^ 2 + b3 ^ 2) by ring] at s2
  rw [show (b3 ^ 2 + b2 ^ 2 + b1 ^ 2 + b0 ^ 2) = (b0 ^ 2 + b1 ^ 2 + b2 ^ 2 + b3 ^ 2) by ring] at s3
  exact sum_near u0 hu hM hm s0 s1 s2 s3

theorem rot_norm (hu : u ≤ 1 / 500) (q : Quat (Flt R)) (hq : 0 < qn q) (v : Vec3 (Flt R)) :
    vn (calcRotationQuaternion q v) ≤ (1 + 70 * u) * vn v := by
  have u0 := A.pos
  obtain ⟨q0, q1, q2, q3⟩ := q
  obtain ⟨x, y, z⟩ := v
  have kn := A.sum4 hu (A.rel (q0.val * q0.val)) (A.rel (q1.val * q1.val)) (A.rel (q2.val * q2.val)) (A.rel (q3.val * q3.val))
  set n : ℚ := R.rnd (R.rnd (R.rnd (R.rnd (q0.val * q0.val) + R.rnd (q1.val * q1.val)) + R.rnd (q2.val * q2.val)) + R.rnd (q3.val * q3.val)) with hn
  have hN : qn (⟨q0, q1, q2, q3⟩ : Quat (Flt R)) = q0.val ^ 2 + q1.val ^ 2 + q2.val ^ 2 + q3.val ^ 2 := rfl
  set Nq := qn (⟨q0, q1, q2, q3⟩ : Quat (Flt R)) with hNq
  simp only [abs_mul_self] at kn
  have kn' : |n - Nq| ≤ 5 * u * Nq := by
    rw [hN]
    refine le_trans (le_of_eq ?_) (kn.trans (le_of_eq ?_)) <;> [congr 1; skip] <;> ring
  have n1 : (1 - 5 * u) * Nq ≤ n := by linarith [(abs_le.mp kn').1]
  have h5 : 0 < 1 - 5 * u := by linarith
  have np : 0 < n := lt_of_lt_of_le (mul_pos h5 hq) n1
  set conj : Quat (Flt R) := ⟨R.rnd (q0.val / n), R.rnd (-q1.val / n), R.rnd (-q2.val / n), R.rnd (-q3.val / n)⟩ with hconj
  have hc : qn conj * ((1 - 5 * u) ^ 2 * Nq) ≤ (1 + u) ^ 2 := by
    have one : ∀ t : ℚ, R.rnd (t / n) ^ 2 ≤ (1 + u) ^ 2 * (t ^ 2 / n ^ 2) := by
      intro t
      have h := A.rel (t / n)
      have : |R.rnd (t / n)| ≤ (1 + u) * |t / n| := by
        have e : R.rnd (t / n) = (R.rnd (t / n) - t / n) + t / n := by ring
        rw [e]
        have := abs_add_le (R.rnd (t / n) - t / n) (t / n)
        linarith
      have h2 := pow_le_pow_left₀ (abs_nonneg _) this 2
      rw [sq_abs, mul_pow, sq_abs, div_pow] at h2
      exact h2
    have h0 := one q0.val
    have h1 := one (-q1.val)
    have h2 := one (-q2.val)
    have h3 := one (-q3.val)
    have : qn conj ≤ (1 + u) ^ 2 * (Nq / n ^ 2) := by
      have e : qn conj = R.rnd (q0.val / n) ^ 2 + R.rnd (-q1.val / n) ^ 2 + R.rnd (-q2.val / n) ^ 2 + R.rnd (-q3.val / n) ^ 2 := rfl
      rw [e, hN]
      refine (add_le_add (add_le_add (add_le_add h0 h1) h2) h3).trans (le_of_eq ?_)
      ring
    have hqc : 0 ≤ (1 - 5 * u) ^ 2 * Nq := by positivity
    refine (mul_le_mul_of_nonneg_right this hqc).trans ?_
    have e : (1 + u) ^ 2 * (Nq / n ^ 2) * ((1 - 5 * u) ^ 2 * Nq) = (1 + u) ^ 2 * (((1 - 5 * u) * Nq) ^ 2 / n ^ 2) := by ring
    rw [e]
    have : ((1 - 5 * u) * Nq) ^ 2 / n ^ 2 ≤ 1 := by
      rw [div_le_one (by positivity)]
      exact pow_le_pow_left₀ (by positivity) n1 2
    exact mul_le_of_le_one_right (by positivity) this
  have z0 : R.rnd 0 = 0 := A.binary.zero
  set v4 : Quat (Flt R) := ⟨R.rnd 0, x, y, z⟩ with hv4
  have hv : qn v4 = vn (⟨x, y, z⟩ : Vec3 (Flt R)) := by
    show R.rnd 0 ^ 2 + x.val ^ 2 + y.val ^ 2 + z.val ^ 2 = x.val ^ 2 + y.val ^ 2 + z.val ^ 2
    rw [z0]; ring
  have m1 := mulQ_norm A hu conj v4
  have m2 := mulQ_norm A hu (multiplyQuaternion conj v4) ⟨q0, q1, q2, q3⟩
  have hr : vn (calcRotationQuaternion (⟨q0, q1, q2, q3⟩ : Quat (Flt R)) ⟨x, y, z⟩) ≤ qn (multiplyQuaternion (multiplyQuaternion conj v4) ⟨q0, q1, q2, q3⟩) := by
    set w := multiplyQuaternion (multiplyQuaternion conj v4) ⟨q0, q1, q2, q3⟩ with hw
    have e : calcRotationQuaternion (⟨q0, q1, q2, q3⟩ : Quat (Flt R)) ⟨x, y, z⟩ = ⟨w.q1, w.q2, w.q3⟩ := rfl
    rw [e]
    unfold vn qn
    dsimp only
    nlinarith [sq_nonneg w.q0.val]
  refine hr.trans (m2.trans ?_)
  rw [← hNq]
  rw [hv] at m1
  have V0 : 0 ≤ vn (⟨x, y, z⟩ : Vec3 (Flt R)) := by unfold vn; positivity
  generalize vn (⟨x, y, z⟩ : Vec3 (Flt R)) = V at *
  have C0 : 0 ≤ qn conj := by unfold qn; positivity
  generalize qn conj = Cc at *
  generalize qn (multiplyQuaternion conj v4) = W at *
  clear hr m2
  have g26 : 0 ≤ 1 + 26 * u := by linarith
  have s1 : (1 + 26 * u) * (W * Nq) ≤ (1 + 26 * u) * (((1 + 26 * u) * (Cc * V)) * Nq) :=
    mul_le_mul_of_nonneg_left (mul_le_mul_of_nonneg_right m1 hq.le) g26
  refine s1.trans ?_
  have s2 : (1 + 26 * u) * (((1 + 26 * u) * (Cc * V)) * Nq) * (1 - 5 * u) ^ 2 ≤ (1 + 70 * u) * V * (1 - 5 * u) ^ 2 := by
    have e : (1 + 26 * u) * (((1 + 26 * u) * (Cc * V)) * Nq) * (1 - 5 * u) ^ 2 = ((1 + 26 * u) ^ 2 * V) * (Cc * ((1 - 5 * u) ^ 2 * Nq)) := by ring
    rw [e]
    refine (mul_le_mul_of_nonneg_left hc (by positivity)).trans ?_
    have p : (1 + 26 * u) ^ 2 * (1 + u) ^ 2 ≤ (1 + 70 * u) * (1 - 5 * u) ^ 2 := by
      nlinarith [mul_nonneg u0 u0, mul_nonneg u0 (sub_nonneg.mpr hu), mul_nonneg (mul_nonneg u0 u0) (sub_nonneg.mpr hu),
        mul_nonneg (mul_nonneg (mul_nonneg u0 u0) u0) (sub_nonneg.mpr hu), mul_nonneg (mul_nonneg u0 u0) u0]
    have := mul_le_mul_of_nonneg_right p V0
    linarith
  exact le_of_mul_le_mul_right s2 (by positivity)

end

end Soil
