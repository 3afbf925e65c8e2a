import Verif.Spec.Exact
import Verif.Props.Quaternion
import Verif.Proof.BallFlt

/-! # Accuracy of rotations in rounded arithmetic -/

set_option linter.unusedSectionVars false
set_option linter.unusedVariables false

namespace Soil

open FOps

variable {R : Rounding} {prec : ℕ} {u : ℚ}

/-- Squared distance of two quaternions -/
def qd (a b : Quat ℚ) : ℚ := (a.q0 - b.q0) ^ 2 + (a.q1 - b.q1) ^ 2 + (a.q2 - b.q2) ^ 2 + (a.q3 - b.q3) ^ 2

theorem qd_nonneg (a b : Quat ℚ) : 0 ≤ qd a b := by unfold qd; positivity

theorem qnormSq_nonneg' (a : Quat ℚ) : 0 ≤ qnormSq a := by unfold qnormSq; positivity

/-- Triangle inequality in squares -/
theorem tri4 {α β M x0 x1 x2 x3 y0 y1 y2 y3 : ℚ} (ha : 0 ≤ α) (hb : 0 ≤ β) (hM : 0 ≤ M)
    (h1 : x0 ^ 2 + x1 ^ 2 + x2 ^ 2 + x3 ^ 2 ≤ α ^ 2 * M) (h2 : y0 ^ 2 + y1 ^ 2 + y2 ^ 2 + y3 ^ 2 ≤ β ^ 2 * M) :
    (x0 + y0) ^ 2 + (x1 + y1) ^ 2 + (x2 + y2) ^ 2 + (x3 + y3) ^ 2 ≤ (α + β) ^ 2 * M := by
  have c : x0 * y0 + x1 * y1 + x2 * y2 + x3 * y3 ≤ α * β * M := by
    have k := cauchy4 x0 x1 x2 x3 y0 y1 y2 y3
    have X0 : 0 ≤ x0 ^ 2 + x1 ^ 2 + x2 ^ 2 + x3 ^ 2 := by positivity
    have k2 := k.trans (mul_le_mul h1 h2 (by positivity) (by positivity))
    have : |x0 * y0| + |x1 * y1| + |x2 * y2| + |x3 * y3| ≤ α * β * M := by
      refine le_of_sq_le_sq (k2.trans (le_of_eq (by ring))) (by positivity) |> fun h => h
    have := le_abs_self (x0 * y0)
    have := le_abs_self (x1 * y1)
    have := le_abs_self (x2 * y2)
    have := le_abs_self (x3 * y3)
    linarith
  nlinarith

theorem qd_tri {α β M : ℚ} (ha : 0 ≤ α) (hb : 0 ≤ β) (hM : 0 ≤ M) {a b c : Quat ℚ} (h1 : qd a b ≤ α ^ 2 * M) (h2 : qd b c ≤ β ^ 2 * M) :
    qd a c ≤ (α + β) ^ 2 * M := by
  have := tri4 ha hb hM h1 h2
  unfold qd
  simpa using this

theorem qnormSq_tri {α β M : ℚ} (ha : 0 ≤ α) (hb : 0 ≤ β) (hM : 0 ≤ M) {a b : Quat ℚ} (h1 : qd a b ≤ α ^ 2 * M)
    (h2 : qnormSq b ≤ β ^ 2 * M) : qnormSq a ≤ (α + β) ^ 2 * M := by
  have := tri4 ha hb hM h1 h2
  unfold qnormSq
  simpa using this

theorem mul_qd_left (a a' b : Quat ℚ) : qd (multiplyQuaternion a b) (multiplyQuaternion a' b) = qd a a' * qnormSq b := by
  unfold qd qnormSq multiplyQuaternion
  simp only [ex_add, ex_sub, ex_mul]
  ring

theorem vdist2_tri {α β M : ℚ} (ha : 0 ≤ α) (hb : 0 ≤ β) (hM : 0 ≤ M) {a b c : Vec3 ℚ} (h1 : vdist2 a b ≤ α ^ 2 * M)
    (h2 : vdist2 b c ≤ β ^ 2 * M) : vdist2 a c ≤ (α + β) ^ 2 * M := by
  unfold vdist2 dot vsub at *
  have := tri4 (x0 := 0) (y0 := 0) ha hb hM (x1 := a.x - b.x) (x2 := a.y - b.y) (x3 := a.z - b.z) (y1 := b.x - c.x)
    (y2 := b.y - c.y) (y3 := b.z - c.z) (by linarith) (by linarith)
  simp only [sub_add_sub_cancel] at this
  linarith

theorem dot_tri {α β M : ℚ} (ha : 0 ≤ α) (hb : 0 ≤ β) (hM : 0 ≤ M) {a b : Vec3 ℚ} (h1 : vdist2 a b ≤ α ^ 2 * M)
    (h2 : dot b b ≤ β ^ 2 * M) : dot a a ≤ (α + β) ^ 2 * M := by
  unfold vdist2 dot vsub at *
  have := tri4 (x0 := 0) (y0 := 0) ha hb hM (x1 := a.x - b.x) (x2 := a.y - b.y) (x3 := a.z - b.z) (y1 := b.x)
    (y2 := b.y) (y3 := b.z) (by linarith) (by linarith)
  simp only [sub_add_cancel] at this
  linarith

theorem rot_dist {q : Quat ℚ} (h : qnormSq q ≠ 0) (a b : Vec3 ℚ) :
    vdist2 (calcRotationQuaternion q a) (calcRotationQuaternion q b) = vdist2 a b := by
  have e : a = vadd (vsub a b) b := by cases a; cases b; simp [vadd, vsub]
  have k : vsub (calcRotationQuaternion q a) (calcRotationQuaternion q b) = calcRotationQuaternion q (vsub a b) := by
    conv_lhs => rw [e, (C05_linear q h _ _ 1).1]
    simp [vadd, vsub]
  unfold vdist2
  rw [k, C05_dot q h]

section

variable (A : Accurate R prec u)

include A

theorem mulQ_err (hu : u ≤ 1 / 500) (a b : Quat (Flt R)) :
    qd (multiplyQuaternion a b).exact (multiplyQuaternion a.exact b.exact) ≤ (10 * u) ^ 2 * (qnormSq a.exact * qnormSq b.exact) := by
  have u0 := A.pos
  obtain ⟨a0, a1, a2, a3⟩ := a
  obtain ⟨b0, b1, b2, b3⟩ := b
  have neg : ∀ p : ℚ, |(-R.rnd p) - (-p)| ≤ u * |(-p)| := by
    intro p
    rw [abs_neg, show -R.rnd p - -p = -(R.rnd p - p) by ring, abs_neg]
    exact A.rel p
  have k0 := A.sum4 hu (A.rel (a0.val * b0.val)) (neg (a1.val * b1.val)) (neg (a2.val * b2.val)) (neg (a3.val * b3.val))
  have k1 := A.sum4 hu (A.rel (a0.val * b1.val)) (A.rel (a1.val * b0.val)) (A.rel (a2.val * b3.val)) (neg (a3.val * b2.val))
  have k2 := A.sum4 hu (A.rel (a0.val * b2.val)) (neg (a1.val * b3.val)) (A.rel (a2.val * b0.val)) (A.rel (a3.val * b1.val))
  have k3 := A.sum4 hu (A.rel (a0.val * b3.val)) (A.rel (a1.val * b2.val)) (neg (a2.val * b1.val)) (A.rel (a3.val * b0.val))
  simp only [abs_neg] at k0 k1 k2 k3
  have c0 := cauchy4 a0.val a1.val a2.val a3.val b0.val b1.val b2.val b3.val
  have c1 := cauchy4 a0.val a1.val a2.val a3.val b1.val b0.val b3.val b2.val
  have c2 := cauchy4 a0.val a1.val a2.val a3.val b2.val b3.val b0.val b1.val
  have c3 := cauchy4 a0.val a1.val a2.val a3.val b3.val b2.val b1.val b0.val
  have sq : ∀ {c x S M : ℚ}, |c - x| ≤ 5 * u * S → S ^ 2 ≤ M → 0 ≤ S → (c - x) ^ 2 ≤ 25 * u ^ 2 * M := by
    intro c x S M h1 h2 h3
    have : (c - x) ^ 2 ≤ (5 * u * S) ^ 2 := sq_le_sq' (by linarith [(abs_le.mp h1).1]) (abs_le.mp h1).2
    have := mul_le_mul_of_nonneg_left h2 (by positivity : 0 ≤ 25 * u ^ 2)
    nlinarith
  have s0 := sq k0 c0 (by positivity)
  have s1 := sq k1 c1 (by positivity)
  have s2 := sq k2 c2 (by positivity)
  have s3 := sq k3 c3 (by positivity)
  have key : (multiplyQuaternion (⟨a0, a1, a2, a3⟩ : Quat (Flt R)) ⟨b0, b1, b2, b3⟩).exact =
      ⟨R.rnd (R.rnd (R.rnd (R.rnd (a0.val * b0.val) + -R.rnd (a1.val * b1.val)) + -R.rnd (a2.val * b2.val)) + -R.rnd (a3.val * b3.val)),
      R.rnd (R.rnd (R.rnd (R.rnd (a0.val * b1.val) + R.rnd (a1.val * b0.val)) + R.rnd (a2.val * b3.val)) + -R.rnd (a3.val * b2.val)),
      R.rnd (R.rnd (R.rnd (R.rnd (a0.val * b2.val) + -R.rnd (a1.val * b3.val)) + R.rnd (a2.val * b0.val)) + R.rnd (a3.val * b1.val)),
      R.rnd (R.rnd (R.rnd (R.rnd (a0.val * b3.val) + R.rnd (a1.val * b2.val)) + -R.rnd (a2.val * b1.val)) + R.rnd (a3.val * b0.val))⟩ := by
    simp only [← sub_eq_add_neg]
    rfl
  rw [key]
  unfold qd qnormSq Quat.exact multiplyQuaternion
  simp only [ex_add, ex_sub, ex_mul]
  simp only [← sub_eq_add_neg] at s0 s1 s2 s3 ⊢
  linarith

theorem conj_one (hu : u ≤ 1 / 500) {n N t : ℚ} (hq : 0 < N) (kn' : |n - N| ≤ 5 * u * N) (n1 : (1 - 5 * u) * N ≤ n) :
    (R.rnd (t / n) - t / N) ^ 2 ≤ (7 * u) ^ 2 * (t ^ 2 / N ^ 2) := by
  have u0 := A.pos
  have h5 : 0 < 1 - 5 * u := by linarith
  have np : 0 < n := lt_of_lt_of_le (mul_pos h5 hq) n1
  have h := A.rel (t / n)
  have e1 : |t / n - t / N| ≤ 5 * u * |t / n| := by
    have : t / n - t / N = t / n * ((N - n) / N) := by field_simp
    rw [this, abs_mul, mul_comm]
    refine mul_le_mul_of_nonneg_right ?_ (abs_nonneg _)
    rw [abs_div, abs_of_pos hq, div_le_iff₀ hq, abs_sub_comm]
    exact kn'
  have e2 : |t / n| * (1 - 5 * u) ≤ |t / N| := by
    rw [abs_div, abs_div, abs_of_pos hq, abs_of_pos np, div_mul_eq_mul_div, div_le_div_iff₀ np hq]
    have := mul_le_mul_of_nonneg_left n1 (abs_nonneg t)
    linarith
  have e3 : |R.rnd (t / n) - t / N| ≤ 7 * u * |t / N| := by
    have e : R.rnd (t / n) - t / N = (R.rnd (t / n) - t / n) + (t / n - t / N) := by ring
    rw [e]
    have k1 := abs_add_le (R.rnd (t / n) - t / n) (t / n - t / N)
    have k2 : 6 * u * |t / n| ≤ 7 * u * (|t / n| * (1 - 5 * u)) := by
      have : 0 ≤ |t / n| * u := mul_nonneg (abs_nonneg _) u0
      nlinarith
    have k3 := mul_le_mul_of_nonneg_left e2 (by linarith : 0 ≤ 7 * u)
    linarith
  have k := pow_le_pow_left₀ (abs_nonneg _) e3 2
  rwa [sq_abs, mul_pow, sq_abs, div_pow] at k

theorem sandwich (hu : u ≤ 1 / 500) {conj v4 Q : Quat (Flt R)} {c0 : Quat ℚ} {V : ℚ} (hq : 0 < qnormSq Q.exact)
    (hC : qd conj.exact c0 ≤ (7 * u) ^ 2 * (1 / qnormSq Q.exact)) (hc1 : qnormSq c0 = 1 / qnormSq Q.exact)
    (hv : qnormSq v4.exact = V) :
    qd (multiplyQuaternion (multiplyQuaternion conj v4) Q).exact (multiplyQuaternion (multiplyQuaternion c0 v4.exact) Q.exact) ≤
      (29 * u) ^ 2 * V := by
  have u0 := A.pos
  generalize hNq : qnormSq Q.exact = N at *
  have V0 : 0 ≤ V := by rw [← hv]; exact qnormSq_nonneg' _
  have iN : 0 ≤ 1 / N := by positivity
  have N0 : N ≠ 0 := hq.ne'
  have hC1 : qnormSq conj.exact ≤ (7 * u + 1) ^ 2 * (1 / N) :=
    qnormSq_tri (by linarith) zero_le_one iN hC (by rw [hc1]; linarith)
  have M0 : 0 ≤ 1 / N * V := mul_nonneg iN V0
  -- first product
  set P := multiplyQuaternion conj v4 with hP
  set P0 := multiplyQuaternion c0 v4.exact with hP0
  have p1 : qd P.exact (multiplyQuaternion conj.exact v4.exact) ≤ (10 * u * (7 * u + 1)) ^ 2 * (1 / N * V) := by
    have k := mulQ_err A hu conj v4
    rw [hv] at k
    refine k.trans ?_
    have := mul_le_mul_of_nonneg_left (mul_le_mul_of_nonneg_right hC1 V0) (by positivity : 0 ≤ (10 * u) ^ 2)
    refine this.trans (le_of_eq ?_)
    ring
  have p2 : qd (multiplyQuaternion conj.exact v4.exact) P0 ≤ (7 * u) ^ 2 * (1 / N * V) := by
    rw [hP0, mul_qd_left, hv]
    have := mul_le_mul_of_nonneg_right hC V0
    linarith
  have hP1 : qd P.exact P0 ≤ (18 * u) ^ 2 * (1 / N * V) := by
    refine (qd_tri (by positivity) (by linarith) M0 p1 p2).trans (mul_le_mul_of_nonneg_right ?_ M0)
    refine pow_le_pow_left₀ (by positivity) ?_ 2
    nlinarith
  have hP2 : qnormSq P0 = 1 / N * V := by
    rw [hP0, (C04_laws c0 v4.exact c0 0).2.2.2.2.2.2.2.2.1, hc1, hv]
  have hP3 : qnormSq P.exact ≤ (18 * u + 1) ^ 2 * (1 / N * V) :=
    qnormSq_tri (by linarith) zero_le_one M0 hP1 (by rw [hP2]; linarith)
  -- second product
  have eN : 1 / N * V * N = V := by field_simp
  have r1 : qd (multiplyQuaternion P Q).exact (multiplyQuaternion P.exact Q.exact) ≤ (10 * u * (18 * u + 1)) ^ 2 * V := by
    have k := mulQ_err A hu P Q
    rw [hNq] at k
    refine k.trans ?_
    have := mul_le_mul_of_nonneg_left (mul_le_mul_of_nonneg_right hP3 hq.le) (by positivity : 0 ≤ (10 * u) ^ 2)
    refine this.trans (le_of_eq ?_)
    rw [mul_assoc ((18 * u + 1) ^ 2), eN]
    ring
  have r2 : qd (multiplyQuaternion P.exact Q.exact) (multiplyQuaternion P0 Q.exact) ≤ (18 * u) ^ 2 * V := by
    rw [mul_qd_left, hNq]
    refine (mul_le_mul_of_nonneg_right hP1 hq.le).trans (le_of_eq ?_)
    rw [mul_assoc, eN]
  have r3 : qd (multiplyQuaternion P Q).exact (multiplyQuaternion P0 Q.exact) ≤ (29 * u) ^ 2 * V := by
    refine (qd_tri (by positivity) (by linarith) V0 r1 r2).trans (mul_le_mul_of_nonneg_right ?_ V0)
    refine pow_le_pow_left₀ (by positivity) ?_ 2
    nlinarith
  exact r3

theorem rot_err (hu : u ≤ 1 / 500) (q : Quat (Flt R)) (hq : 0 < qnormSq q.exact) (v : Vec3 (Flt R)) :
    vdist2 (calcRotationQuaternion q v).exact (calcRotationQuaternion q.exact v.exact) ≤ (29 * u) ^ 2 * dot v.exact v.exact := by
  have u0 := A.pos
  obtain ⟨q0, q1, q2, q3⟩ := q
  obtain ⟨x, y, z⟩ := v
  have kn := A.sum4 hu (A.rel (q0.val * q0.val)) (A.rel (q1.val * q1.val)) (A.rel (q2.val * q2.val)) (A.rel (q3.val * q3.val))
  set n : ℚ := R.rnd (R.rnd (R.rnd (R.rnd (q0.val * q0.val) + R.rnd (q1.val * q1.val)) + R.rnd (q2.val * q2.val)) + R.rnd (q3.val * q3.val)) with hn
  have hN : qnormSq (⟨q0, q1, q2, q3⟩ : Quat (Flt R)).exact = q0.val ^ 2 + q1.val ^ 2 + q2.val ^ 2 + q3.val ^ 2 := rfl
  set N := qnormSq (⟨q0, q1, q2, q3⟩ : Quat (Flt R)).exact with hNq
  simp only [abs_mul_self] at kn
  have kn' : |n - N| ≤ 5 * u * N := by
    rw [hN]
    refine le_trans (le_of_eq ?_) (kn.trans (le_of_eq ?_)) <;> [congr 1; skip] <;> ring
  have n1 : (1 - 5 * u) * N ≤ n := by linarith [(abs_le.mp kn').1]
  have h5 : 0 < 1 - 5 * u := by linarith
  have np : 0 < n := lt_of_lt_of_le (mul_pos h5 hq) n1
  set conj : Quat (Flt R) := ⟨R.rnd (q0.val / n), R.rnd (-q1.val / n), R.rnd (-q2.val / n), R.rnd (-q3.val / n)⟩ with hconj
  set c0 : Quat ℚ := ⟨q0.val / N, -q1.val / N, -q2.val / N, -q3.val / N⟩ with hc0
  have one := fun t => conj_one A hu hq kn' n1 (t := t)
  have N0 : N ≠ 0 := hq.ne'
  have hC : qd conj.exact c0 ≤ (7 * u) ^ 2 * (1 / N) := by
    have e : qd conj.exact c0 = (R.rnd (q0.val / n) - q0.val / N) ^ 2 + (R.rnd (-q1.val / n) - -q1.val / N) ^ 2 +
      (R.rnd (-q2.val / n) - -q2.val / N) ^ 2 + (R.rnd (-q3.val / n) - -q3.val / N) ^ 2 := rfl
    have h0 := one q0.val
    have h1 := one (-q1.val)
    have h2 := one (-q2.val)
    have h3 := one (-q3.val)
    rw [e]
    refine (add_le_add (add_le_add (add_le_add h0 h1) h2) h3).trans (le_of_eq ?_)
    have : (1 : ℚ) / N = (q0.val ^ 2 + q1.val ^ 2 + q2.val ^ 2 + q3.val ^ 2) / N ^ 2 := by rw [← hN]; field_simp
    rw [this]
    ring
  have hc1 : qnormSq c0 = 1 / N := by
    have : qnormSq c0 = (q0.val ^ 2 + q1.val ^ 2 + q2.val ^ 2 + q3.val ^ 2) / N ^ 2 := by
      rw [hc0]; unfold qnormSq; dsimp only; ring
    rw [this, ← hN]; field_simp
  have iN : 0 ≤ 1 / N := by positivity
  have hC1 : qnormSq conj.exact ≤ (7 * u + 1) ^ 2 * (1 / N) :=
    qnormSq_tri (by linarith) zero_le_one iN hC (by rw [hc1]; linarith)
  -- the vector
  have z0 : R.rnd 0 = 0 := A.binary.zero
  set v4 : Quat (Flt R) := ⟨R.rnd 0, x, y, z⟩ with hv4
  have hv4e : v4.exact = ⟨0, x.val, y.val, z.val⟩ := by
    show (⟨R.rnd 0, x.val, y.val, z.val⟩ : Quat ℚ) = _
    rw [z0]
  set V := dot (⟨x, y, z⟩ : Vec3 (Flt R)).exact (⟨x, y, z⟩ : Vec3 (Flt R)).exact with hV
  have hv : qnormSq v4.exact = V := by
    rw [hv4e, hV]
    unfold qnormSq dot Vec3.exact
    dsimp only
    ring
  have V0 : 0 ≤ V := by rw [← hv]; exact qnormSq_nonneg' _
  have r3 := sandwich A hu (Q := ⟨q0, q1, q2, q3⟩) hq hC hc1 hv
  set Q : Quat (Flt R) := ⟨q0, q1, q2, q3⟩ with hQ
  set P := multiplyQuaternion conj v4 with hP
  set P0 := multiplyQuaternion c0 v4.exact with hP0
  refine le_trans ?_ r3
  have hn' : Q.exact.q0 * Q.exact.q0 + Q.exact.q1 * Q.exact.q1 + Q.exact.q2 * Q.exact.q2 + Q.exact.q3 * Q.exact.q3 = N := by
    rw [hN]
    show q0.val * q0.val + q1.val * q1.val + q2.val * q2.val + q3.val * q3.val = _
    ring
  have w1 : (calcRotationQuaternion Q ⟨x, y, z⟩).exact = ⟨(multiplyQuaternion P Q).exact.q1, (multiplyQuaternion P Q).exact.q2,
    (multiplyQuaternion P Q).exact.q3⟩ := rfl
  have w2 : calcRotationQuaternion Q.exact (⟨x, y, z⟩ : Vec3 (Flt R)).exact =
      ⟨(multiplyQuaternion P0 Q.exact).q1, (multiplyQuaternion P0 Q.exact).q2, (multiplyQuaternion P0 Q.exact).q3⟩ := by
    rw [hP0, hc0, hv4e]
    unfold calcRotationQuaternion
    simp only [ex_add, ex_mul, ex_div, ex_neg, ex_zero]
    rw [hn']
    rfl
  rw [w1, w2]
  unfold vdist2 dot vsub qd
  dsimp only
  nlinarith [sq_nonneg ((multiplyQuaternion P Q).exact.q0 - (multiplyQuaternion P0 Q.exact).q0)]

end

end Soil
