import Verif.Proof.Reach
import Mathlib.Analysis.Complex.Exponential
import Mathlib.Analysis.SpecialFunctions.Trigonometric.ArctanDeriv
import Mathlib.Analysis.Calculus.MeanValue
import Mathlib.Analysis.SpecialFunctions.Trigonometric.Bounds

/-! # Sequences of points with small second differences, rotations to second order -/

set_option linter.unusedSectionVars false

namespace Soil

theorem vsub_trans (a b c : Vec3 ℝ) : vsub a c = vadd (vsub a b) (vsub b c) := by
  unfold vsub vadd; apply Vec3.ext' <;> dsimp only <;> ring

/-! ## Sequences of points with small second differences -/

/-- Difference of consecutive points -/
noncomputable def diff (c : ℕ → Vec3 ℝ) (k : ℕ) : Vec3 ℝ := vsub (c (k + 1)) (c k)

/-- The second differences are small. -/
def Bends (c : ℕ → Vec3 ℝ) (N : ℕ) (κ : ℝ) : Prop :=
  ∀ k, k + 2 ≤ N → len (vsub (diff c (k + 1)) (diff c k)) ≤ κ

theorem Bends.diff_le {c : ℕ → Vec3 ℝ} {N : ℕ} {κ : ℝ} (H : Bends c N κ) (i n : ℕ) (hn : i + n + 1 ≤ N) :
    len (vsub (diff c (i + n)) (diff c i)) ≤ n * κ := by
  induction n with
  | zero => simp [vsub, len, dot]
  | succ n ih =>
    rw [vsub_trans _ (diff c (i + n))]
    refine (len_add_le _ _).trans ?_
    have h1 := H (i + n) (by omega)
    have h2 := ih (by omega)
    rw [show i + (n + 1) = i + n + 1 by ring]
    push_cast
    linarith

theorem len_comm (a b : Vec3 ℝ) : len (vsub a b) = len (vsub b a) := by
  unfold len; congr 1; unfold dot vsub; ring

theorem Bends.nonneg {c : ℕ → Vec3 ℝ} {N : ℕ} {κ : ℝ} (H : Bends c N κ) (hN : 2 ≤ N) : 0 ≤ κ :=
  (len_nonneg _).trans (H 0 (by omega))

theorem Bends.diff_abs {c : ℕ → Vec3 ℝ} {N : ℕ} {κ : ℝ} (H : Bends c N κ) {i j : ℕ} (hi : i + 1 ≤ N)
    (hj : j + 1 ≤ N) : len (vsub (diff c j) (diff c i)) ≤ |(j : ℝ) - i| * κ := by
  rcases le_total i j with h | h
  · obtain ⟨n, rfl⟩ := Nat.exists_eq_add_of_le h
    refine (H.diff_le i n hj).trans (le_of_eq ?_)
    push_cast
    rw [add_sub_cancel_left, abs_of_nonneg (by positivity)]
  · obtain ⟨n, rfl⟩ := Nat.exists_eq_add_of_le h
    rw [len_comm]
    refine (H.diff_le j n hi).trans (le_of_eq ?_)
    push_cast
    rw [show (j : ℝ) - (j + n) = -n by ring, abs_neg, abs_of_nonneg (by positivity)]

/-- The sequence advances by nearly equal amounts. -/
theorem Bends.far {c : ℕ → Vec3 ℝ} {N : ℕ} {κ M : ℝ} (H : Bends c N κ) (hκ : 0 ≤ κ) (i k n : ℕ) (hk : k + 1 ≤ N)
    (hn : i + n ≤ N) (hM : ∀ j : ℕ, i ≤ j → j < i + n → |(j : ℝ) - k| ≤ M) :
    len (vsub (vsub (c (i + n)) (c i)) (vsmul n (diff c k))) ≤ n * (M * κ) := by
  induction n with
  | zero => simp [vsub, vsmul, len, dot]
  | succ n ih =>
    have e : vsub (vsub (c (i + (n + 1))) (c i)) (vsmul ((n + 1 : ℕ) : ℝ) (diff c k)) =
        vadd (vsub (vsub (c (i + n)) (c i)) (vsmul n (diff c k))) (vsub (diff c (i + n)) (diff c k)) := by
      rw [show i + (n + 1) = i + n + 1 by ring]
      unfold diff vsub vadd vsmul; push_cast; apply Vec3.ext' <;> dsimp only <;> ring
    rw [e]
    refine (len_add_le _ _).trans ?_
    have h1 := ih (by omega) fun j h1 h2 => hM j h1 (by omega)
    have h2 := H.diff_abs (i := k) (j := i + n) hk (by omega)
    have h3 := mul_le_mul_of_nonneg_right (hM (i + n) (by omega) (by omega)) hκ
    push_cast at h2 h3 ⊢
    linarith

/-- From the reference index on -/
theorem Bends.ahead {c : ℕ → Vec3 ℝ} {N : ℕ} {κ : ℝ} (H : Bends c N κ) (hκ : 0 ≤ κ) (k n : ℕ) (hn : k + n + 1 ≤ N) :
    len (vsub (vsub (c (k + n)) (c k)) (vsmul n (diff c k))) ≤ (n : ℝ) ^ 2 / 2 * κ := by
  induction n with
  | zero => simp [vsub, vsmul, len, dot]
  | succ n ih =>
    have e : vsub (vsub (c (k + (n + 1))) (c k)) (vsmul ((n + 1 : ℕ) : ℝ) (diff c k)) =
        vadd (vsub (vsub (c (k + n)) (c k)) (vsmul n (diff c k))) (vsub (diff c (k + n)) (diff c k)) := by
      rw [show k + (n + 1) = k + n + 1 by ring]
      unfold diff vsub vadd vsmul; push_cast; apply Vec3.ext' <;> dsimp only <;> ring
    rw [e]
    refine (len_add_le _ _).trans ?_
    have h1 := ih (by omega)
    have h2 := H.diff_le k n (by omega)
    push_cast at h1 h2 ⊢
    nlinarith

/-- Interpolation (extrapolation) between two points of the sequence -/
noncomputable def along (c : ℕ → Vec3 ℝ) (k : ℕ) (b : ℝ) : Vec3 ℝ := vadd (c k) (vsmul b (diff c k))

/-- The measured movement -/
theorem Bends.measured {c : ℕ → Vec3 ℝ} {N : ℕ} {κ M b : ℝ} (H : Bends c N κ) (hκ : 0 ≤ κ) (i k n : ℕ)
    (hk : k + 1 ≤ N) (hn : i + n + 1 ≤ N) (hM : ∀ j : ℕ, i ≤ j → j < i + n → |(j : ℝ) - k| ≤ M) (hb : |b| ≤ 1) :
    |len (vsub (along c (i + n) b) (along c i b)) - n * len (diff c k)| ≤ n * ((M + 1) * κ) := by
  have h1 := H.far hκ i k n hk (by omega) hM
  have h2 := H.diff_le i n hn
  have e : vsub (vsub (along c (i + n) b) (along c i b)) (vsmul n (diff c k)) =
      vadd (vsub (vsub (c (i + n)) (c i)) (vsmul n (diff c k))) (vsmul b (vsub (diff c (i + n)) (diff c i))) := by
    unfold along vsub vadd vsmul; apply Vec3.ext' <;> dsimp only <;> ring
  have h3 : len (vsub (vsub (along c (i + n) b) (along c i b)) (vsmul n (diff c k))) ≤ n * ((M + 1) * κ) := by
    rw [e]
    refine (len_add_le _ _).trans ?_
    rw [len_smul]
    have h4 := mul_le_mul hb h2 (len_nonneg _) (by norm_num)
    linarith
  have h5 : len (vsmul (n : ℝ) (diff c k)) = n * len (diff c k) := by
    rw [len_smul, abs_of_nonneg (by positivity)]
  rw [← h5]
  refine le_trans ?_ h3
  rw [abs_le]
  have t1 : ∀ u v : Vec3 ℝ, len u ≤ len (vsub u v) + len v := by
    intro u v
    have : u = vadd (vsub u v) v := by unfold vadd vsub; apply Vec3.ext' <;> dsimp only <;> ring
    calc len u = len (vadd (vsub u v) v) := by rw [← this]
      _ ≤ _ := len_add_le _ _
  constructor
  · have := t1 (vsmul (n : ℝ) (diff c k)) (vsub (along c (i + n) b) (along c i b))
    rw [len_comm] at this; linarith
  · have := t1 (vsub (along c (i + n) b) (along c i b)) (vsmul (n : ℝ) (diff c k))
    linarith

/-- The movement between two times -/
theorem Bends.moved {c : ℕ → Vec3 ℝ} {N : ℕ} {κ b b' : ℝ} (H : Bends c N κ) (hκ : 0 ≤ κ) (k n : ℕ)
    (hn : k + n + 1 ≤ N) (hb : |b'| ≤ 1) (hs : 0 ≤ n + b' - b) :
    |len (vsub (along c (k + n) b') (along c k b)) - (n + b' - b) * len (diff c k)| ≤ ((n : ℝ) ^ 2 / 2 + n) * κ := by
  have h1 := H.ahead hκ k n hn
  have h2 := H.diff_le k n hn
  have e : vsub (vsub (along c (k + n) b') (along c k b)) (vsmul (n + b' - b) (diff c k)) =
      vadd (vsub (vsub (c (k + n)) (c k)) (vsmul n (diff c k))) (vsmul b' (vsub (diff c (k + n)) (diff c k))) := by
    unfold along vsub vadd vsmul; apply Vec3.ext' <;> dsimp only <;> ring
  have h3 : len (vsub (vsub (along c (k + n) b') (along c k b)) (vsmul (n + b' - b) (diff c k))) ≤
      ((n : ℝ) ^ 2 / 2 + n) * κ := by
    rw [e]
    refine (len_add_le _ _).trans ?_
    rw [len_smul]
    have h4 := mul_le_mul hb h2 (len_nonneg _) (by norm_num)
    linarith
  have h5 : len (vsmul (n + b' - b) (diff c k)) = (n + b' - b) * len (diff c k) := by
    rw [len_smul, abs_of_nonneg hs]
  rw [← h5]
  refine le_trans ?_ h3
  rw [abs_le]
  have t1 : ∀ u v : Vec3 ℝ, len u ≤ len (vsub u v) + len v := by
    intro u v
    have : u = vadd (vsub u v) v := by unfold vadd vsub; apply Vec3.ext' <;> dsimp only <;> ring
    calc len u = len (vadd (vsub u v) v) := by rw [← this]
      _ ≤ _ := len_add_le _ _
  constructor
  · have := t1 (vsmul (n + b' - b) (diff c k)) (vsub (along c (k + n) b') (along c k b))
    rw [len_comm] at this; linarith
  · have := t1 (vsub (along c (k + n) b') (along c k b)) (vsmul (n + b' - b) (diff c k))
    linarith

/-! ## Rotations and the arctangent to second order -/

theorem circle_taylor {s : ℝ} (hs : |s| ≤ 1) :
    (Real.cos s - 1) ^ 2 + (Real.sin s - s) ^ 2 ≤ (s ^ 2) ^ 2 := by
  have hn : ‖(s : ℂ) * Complex.I‖ = |s| := by simp
  have h := Complex.norm_exp_sub_one_sub_id_le (x := (s : ℂ) * Complex.I) (by rw [hn]; exact hs)
  rw [hn, sq_abs] at h
  have h2 := mul_self_le_mul_self (norm_nonneg _) h
  have e : Complex.exp ((s : ℂ) * Complex.I) - 1 - (s : ℂ) * Complex.I = ⟨Real.cos s - 1, Real.sin s - s⟩ := by
    rw [Complex.exp_mul_I, ← Complex.ofReal_cos, ← Complex.ofReal_sin]
    apply Complex.ext
    · simp [Complex.cos_ofReal_re]
    · simp [Complex.sin_ofReal_re]
  rw [e, ← pow_two, ← Complex.normSq_eq_norm_sq, Complex.normSq_mk] at h2
  nlinarith

/-- Derivative of a rotation -/
noncomputable def rotY' (a : ℝ) (p : Vec3 ℝ) : Vec3 ℝ :=
  ⟨-Real.sin a * p.x + Real.cos a * p.z, 0, -Real.cos a * p.x - Real.sin a * p.z⟩

theorem len_rotY' (a : ℝ) (p : Vec3 ℝ) : len (rotY' a p) ≤ len p := by
  refine abs_le_of_sq_le_sq' ?_ (len_nonneg _) |>.2
  rw [len_sq, len_sq]
  unfold dot rotY'
  dsimp only
  nlinarith [Real.sin_sq_add_cos_sq a, sq_nonneg p.y, sq_nonneg p.x, sq_nonneg p.z]

theorem rotY_taylor {s : ℝ} (hs : |s| ≤ 1) (a : ℝ) (p : Vec3 ℝ) :
    len (vsub (vsub (rotY (a + s) p) (rotY a p)) (vsmul s (rotY' a p))) ≤ s ^ 2 * len p := by
  refine abs_le_of_sq_le_sq' ?_ (mul_nonneg (sq_nonneg _) (len_nonneg _)) |>.2
  rw [mul_pow, len_sq, len_sq]
  have e : dot (vsub (vsub (rotY (a + s) p) (rotY a p)) (vsmul s (rotY' a p)))
      (vsub (vsub (rotY (a + s) p) (rotY a p)) (vsmul s (rotY' a p))) =
      ((Real.cos s - 1) ^ 2 + (Real.sin s - s) ^ 2) * (p.x ^ 2 + p.z ^ 2) := by
    have ha := Real.sin_sq_add_cos_sq a
    unfold dot vsub vsmul rotY rotY'
    dsimp only
    rw [Real.cos_add, Real.sin_add]
    linear_combination ((Real.cos s - 1) ^ 2 + (Real.sin s - s) ^ 2) * (p.x ^ 2 + p.z ^ 2) * ha
  rw [e]
  have h2 : p.x ^ 2 + p.z ^ 2 ≤ dot p p := by unfold dot; nlinarith [sq_nonneg p.y]
  exact mul_le_mul (circle_taylor hs) h2 (by positivity) (by positivity)

/-- Second difference of a rotation -/
theorem rotY_second {a b c Δ E : ℝ} (h1 : |b - a| ≤ Δ) (h2 : |c - b| ≤ Δ) (hΔ : Δ ≤ 1) (h3 : |(c - b) - (b - a)| ≤ E)
    (p : Vec3 ℝ) :
    len (vsub (vsub (rotY c p) (rotY b p)) (vsub (rotY b p) (rotY a p))) ≤ (2 * Δ ^ 2 + E) * len p := by
  have t1 := rotY_taylor (h2.trans hΔ) b p
  have t2 := rotY_taylor (s := a - b) (by rw [abs_sub_comm]; exact h1.trans hΔ) b p
  rw [add_sub_cancel] at t1 t2
  have e : vsub (vsub (rotY c p) (rotY b p)) (vsub (rotY b p) (rotY a p)) =
      vadd (vadd (vsub (vsub (rotY c p) (rotY b p)) (vsmul (c - b) (rotY' b p)))
        (vsub (vsub (rotY a p) (rotY b p)) (vsmul (a - b) (rotY' b p)))) (vsmul ((c - b) - (b - a)) (rotY' b p)) := by
    unfold vsub vadd vsmul; apply Vec3.ext' <;> dsimp only <;> ring
  rw [e]
  refine (len_add_le _ _).trans ((add_le_add (len_add_le _ _) le_rfl).trans ?_)
  rw [len_smul]
  have k1 := mul_le_mul h3 (len_rotY' b p) (len_nonneg _) ((abs_nonneg _).trans h3)
  have s1 : (c - b) ^ 2 ≤ Δ ^ 2 := sq_le_sq' (by linarith [(abs_le.mp h2).1]) (abs_le.mp h2).2
  have s2 : (a - b) ^ 2 ≤ Δ ^ 2 := by
    rw [← neg_sub b a, neg_sq]
    exact sq_le_sq' (by linarith [(abs_le.mp h1).1]) (abs_le.mp h1).2
  have k2 := mul_le_mul_of_nonneg_right s1 (len_nonneg p)
  have k3 := mul_le_mul_of_nonneg_right s2 (len_nonneg p)
  linarith

/-- Interpolating the angle or the rotated point -/
theorem rotY_between {a c Δ b : ℝ} (h : |c - a| ≤ Δ) (hΔ : Δ ≤ 1) (hb0 : -1 ≤ b) (hb1 : b ≤ 0) (p : Vec3 ℝ) :
    len (vsub (rotY (a * (1 - b) + c * b) p) (vadd (rotY a p) (vsmul b (vsub (rotY c p) (rotY a p))))) ≤
      2 * Δ ^ 2 * len p := by
  have ab : |b| ≤ 1 := abs_le.mpr ⟨hb0, by linarith⟩
  have hs : |b * (c - a)| ≤ Δ := by
    rw [abs_mul]
    have := mul_le_mul ab h (abs_nonneg _) (by norm_num)
    linarith
  have t1 := rotY_taylor (s := b * (c - a)) (hs.trans hΔ) a p
  have t2 := rotY_taylor (s := c - a) (h.trans hΔ) a p
  rw [add_sub_cancel] at t2
  rw [show a * (1 - b) + c * b = a + b * (c - a) by ring]
  have e : vsub (rotY (a + b * (c - a)) p) (vadd (rotY a p) (vsmul b (vsub (rotY c p) (rotY a p)))) =
      vsub (vsub (vsub (rotY (a + b * (c - a)) p) (rotY a p)) (vsmul (b * (c - a)) (rotY' a p)))
        (vsmul b (vsub (vsub (rotY c p) (rotY a p)) (vsmul (c - a) (rotY' a p)))) := by
    unfold vsub vadd vsmul; apply Vec3.ext' <;> dsimp only <;> ring
  rw [e]
  refine (len_sub_le _ _).trans ?_
  rw [len_smul]
  have s1 : (b * (c - a)) ^ 2 ≤ Δ ^ 2 := sq_le_sq' (by linarith [(abs_le.mp hs).1]) (abs_le.mp hs).2
  have s2 : (c - a) ^ 2 ≤ Δ ^ 2 := sq_le_sq' (by linarith [(abs_le.mp h).1]) (abs_le.mp h).2
  have k1 := mul_le_mul_of_nonneg_right s1 (len_nonneg p)
  have k2 := mul_le_mul_of_nonneg_right s2 (len_nonneg p)
  have k3 := mul_le_mul ab (t2.trans k2) (len_nonneg _) (by norm_num)
  linarith

theorem arctan_second (u e : ℝ) (he : 0 ≤ e) :
    |(Real.arctan (u + e) - Real.arctan u) - (Real.arctan u - Real.arctan (u - e))| ≤ 2 * e ^ 2 := by
  rcases he.eq_or_lt with rfl | he
  · simp
  obtain ⟨x, hx, ex⟩ := exists_deriv_eq_slope Real.arctan (show u < u + e by linarith)
    Real.continuous_arctan.continuousOn Real.differentiable_arctan.differentiableOn
  obtain ⟨y, hy, ey⟩ := exists_deriv_eq_slope Real.arctan (show u - e < u by linarith)
    Real.continuous_arctan.continuousOn Real.differentiable_arctan.differentiableOn
  rw [Real.deriv_arctan, eq_div_iff (by linarith)] at ex ey
  dsimp only at ex ey
  rw [← ex, ← ey]
  have e1 : 1 / (1 + x ^ 2) * (u + e - u) - 1 / (1 + y ^ 2) * (u - (u - e)) =
      e * ((y - x) * ((y + x) / ((1 + x ^ 2) * (1 + y ^ 2)))) := by
    have : (1 + x ^ 2) ≠ 0 := by positivity
    have : (1 + y ^ 2) ≠ 0 := by positivity
    field_simp; ring
  rw [e1, abs_mul, abs_mul, abs_of_pos he]
  have h1 : |y - x| ≤ 2 * e := abs_le.mpr ⟨by linarith [hx.2, hy.1], by linarith [hx.1, hy.2]⟩
  have h2 : |(y + x) / ((1 + x ^ 2) * (1 + y ^ 2))| ≤ 1 := by
    rw [abs_div, abs_of_pos (by positivity : (0 : ℝ) < (1 + x ^ 2) * (1 + y ^ 2)), div_le_one (by positivity)]
    rw [abs_le]
    constructor <;> nlinarith [sq_nonneg (x - 1), sq_nonneg (y - 1), sq_nonneg (x + 1), sq_nonneg (y + 1), mul_nonneg (sq_nonneg x) (sq_nonneg y)]
  have h3 := mul_le_mul h1 h2 (abs_nonneg _) (by linarith)
  nlinarith

theorem arctan_lip (x y : ℝ) : |Real.arctan x - Real.arctan y| ≤ |x - y| := by
  have h : LipschitzWith 1 Real.arctan := by
    refine lipschitzWith_of_nnnorm_deriv_le Real.differentiable_arctan fun z => ?_
    rw [← NNReal.coe_le_coe, coe_nnnorm, Real.deriv_arctan, Real.norm_eq_abs, NNReal.coe_one]
    rw [abs_of_pos (by positivity), div_le_one (by positivity)]
    nlinarith [sq_nonneg z]
  have := h.dist_le_mul x y
  simpa [Real.dist_eq] using this

theorem rotY_lip (a b : ℝ) (p : Vec3 ℝ) : len (vsub (rotY a p) (rotY b p)) ≤ |a - b| * len p := by
  refine abs_le_of_sq_le_sq' ?_ (mul_nonneg (abs_nonneg _) (len_nonneg _)) |>.2
  rw [mul_pow, sq_abs, len_sq, len_sq]
  have hc := Real.one_sub_sq_div_two_le_cos (x := a - b)
  rw [Real.cos_sub] at hc
  have e : dot (vsub (rotY a p) (rotY b p)) (vsub (rotY a p) (rotY b p)) =
      (2 - 2 * (Real.cos a * Real.cos b + Real.sin a * Real.sin b)) * (p.x ^ 2 + p.z ^ 2) := by
    have ha := Real.sin_sq_add_cos_sq a
    have hb := Real.sin_sq_add_cos_sq b
    unfold dot vsub rotY
    dsimp only
    linear_combination (p.x ^ 2 + p.z ^ 2) * ha + (p.x ^ 2 + p.z ^ 2) * hb
  rw [e]
  have h1 : 2 - 2 * (Real.cos a * Real.cos b + Real.sin a * Real.sin b) ≤ (a - b) ^ 2 := by linarith
  have h2 : p.x ^ 2 + p.z ^ 2 ≤ dot p p := by unfold dot; nlinarith [sq_nonneg p.y]
  have h3 : 0 ≤ p.x ^ 2 + p.z ^ 2 := by positivity
  nlinarith [mul_le_mul_of_nonneg_right h1 h3, mul_le_mul_of_nonneg_left h2 (sq_nonneg (a - b))]

/-- The part of a point that is moved by a rotation about the Y axis -/
noncomputable def flat (v : Vec3 ℝ) : Vec3 ℝ := ⟨v.x, 0, v.z⟩

theorem rotY_flat (a : ℝ) (v : Vec3 ℝ) : rotY a v = vadd (rotY a (flat v)) ⟨0, v.y, 0⟩ := by
  unfold rotY flat vadd; apply Vec3.ext' <;> dsimp only <;> ring

end Soil
