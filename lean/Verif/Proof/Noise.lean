import Verif.Props.Init
import Mathlib.Analysis.Calculus.MeanValue
import Mathlib.Analysis.Calculus.Deriv.Pow
import Mathlib.Analysis.Calculus.Deriv.Mul
import Mathlib.Algebra.Order.BigOperators.Group.Finset

/-! # Size and slope of the simplex noise -/

set_option linter.unusedSectionVars false

namespace Soil

/-- entry of the table, 0 outside -/
def permVal (perm : List ℤ) (i : ℤ) : ℤ := (perm[i.toNat]?).getD 0

/-- gradient direction of a vertex -/
def dirOf (perm : List ℤ) (m n : ℤ) : ℤ × ℤ :=
  (gradDir[(permVal perm ((m + permVal perm n) % 256) % 8).toNat]?).getD (0, 0)

/-- contribution of one vertex -/
noncomputable def kern (d : ℤ × ℤ) (px py : ℝ) : ℝ :=
  if 1 / 2 - px * px - py * py < 0 then 0
  else (1 / 2 - px * px - py * py) ^ 4 * (px * d.1 + py * d.2)

theorem dirOf_le (perm : List ℤ) (m n : ℤ) : |(dirOf perm m n).1| ≤ 1 ∧ |(dirOf perm m n).2| ≤ 1 := by
  unfold dirOf
  have h : ∀ k : ℕ, |((gradDir[k]?).getD (0, 0)).1| ≤ 1 ∧ |((gradDir[k]?).getD (0, 0)).2| ≤ 1 := by
    intro k
    rcases lt_or_ge k 8 with hk | hk
    · interval_cases k <;> simp [gradDir]
    · rw [List.getElem?_eq_none (by simpa [gradDir] using hk)]
      simp
  exact h _

theorem permAt_val {perm : List ℤ} (h : IsPermTable perm) {i : ℤ} (h0 : 0 ≤ i) (h1 : i < 256) :
    permAt perm i = .ok (permVal perm i) := by
  have hl : perm.length = 256 := by rw [h.length_eq]; simp
  unfold permAt permVal
  rw [if_pos h0, List.getElem?_eq_getElem (by omega : i.toNat < perm.length)]
  rfl

theorem cornerGrad_kern {perm : List ℤ} (h : IsPermTable perm) (px py : ℝ) (xi yi : ℤ) (h0 : 0 ≤ yi)
    (h1 : yi < 256) : cornerGrad perm px py xi yi = .ok (kern (dirOf perm xi yi) px py) := by
  unfold cornerGrad kern
  simp only [ex_sub, ex_mul, ex_add, ex_ofRat, ex_lt, ex_zero, ex_ofInt, decide_eq_true_eq]
  push_cast
  split_ifs with hc
  · rfl
  · rw [permAt_val h h0 h1, ok_bind,
      permAt_val h (Int.emod_nonneg _ (by norm_num)) (Int.emod_lt_of_pos _ (by norm_num)), ok_bind]
    unfold dirOf
    have hd : (permVal perm ((xi + permVal perm yi) % 256) % 8).toNat < gradDir.length := by
      have := Int.emod_lt_of_pos (permVal perm ((xi + permVal perm yi) % 256)) (by norm_num : (0 : ℤ) < 8)
      have := Int.emod_nonneg (permVal perm ((xi + permVal perm yi) % 256)) (by norm_num : (8 : ℤ) ≠ 0)
      simp only [gradDir, List.length_cons, List.length_nil]; omega
    rw [List.getElem?_eq_getElem hd]
    simp only [Option.getD_some]
    show Except.ok _ = _
    congr 1
    ring

/-- The contribution of a vertex at least `1/√2` away is zero. -/
theorem kern_far (d : ℤ × ℤ) {px py : ℝ} (h : 1 / 2 ≤ px * px + py * py) : kern d px py = 0 := by
  unfold kern
  split_ifs with hc
  · rfl
  · have : 1 / 2 - px * px - py * py = 0 := by linarith
    rw [this]; ring

theorem kern_le {d : ℤ × ℤ} (h1 : |d.1| ≤ 1) (h2 : |d.2| ≤ 1) (px py : ℝ) :
    |kern d px py| ≤ 256 / 19683 := by
  unfold kern
  split_ifs with hc
  · norm_num
  · set t := 1 / 2 - px * px - py * py with ht
    push Not at hc
    have a1 : |(d.1 : ℝ)| ≤ 1 := by exact_mod_cast h1
    have a2 : |(d.2 : ℝ)| ≤ 1 := by exact_mod_cast h2
    have b1 : (d.1 : ℝ) ^ 2 ≤ 1 := by rw [← sq_abs]; nlinarith [abs_nonneg (d.1 : ℝ)]
    have b2 : (d.2 : ℝ) ^ 2 ≤ 1 := by rw [← sq_abs]; nlinarith [abs_nonneg (d.2 : ℝ)]
    have hl : (px * d.1 + py * d.2) ^ 2 ≤ 2 * (px * px + py * py) := by
      have e : (px * d.1 + py * d.2) ^ 2 + (px * d.2 - py * d.1) ^ 2 =
        (px * px + py * py) * ((d.1 : ℝ) ^ 2 + (d.2 : ℝ) ^ 2) := by ring
      have u0 : 0 ≤ px * px + py * py := add_nonneg (mul_self_nonneg _) (mul_self_nonneg _)
      nlinarith [sq_nonneg (px * d.2 - py * d.1)]
    have hu : 2 * (px * px + py * py) = 1 - 2 * t := by rw [ht]; ring
    rw [hu] at hl
    have key : t ^ 8 * (1 - 2 * t) ≤ (256 / 19683) ^ 2 := by
      have : (256 / 19683 : ℝ) ^ 2 - t ^ 8 * (1 - 2 * t) = 65536 / 387420489 * (9 / 4 * t - 1) ^ 2 *
          (8 * (9 / 4 * t) ^ 7 + 7 * (9 / 4 * t) ^ 6 + 6 * (9 / 4 * t) ^ 5 + 5 * (9 / 4 * t) ^ 4 +
            4 * (9 / 4 * t) ^ 3 + 3 * (9 / 4 * t) ^ 2 + 2 * (9 / 4 * t) + 1) := by ring
      have : 0 ≤ (256 / 19683 : ℝ) ^ 2 - t ^ 8 * (1 - 2 * t) := by rw [this]; positivity
      linarith
    refine abs_le_of_sq_le_sq ?_ (by norm_num)
    calc (t ^ 4 * (px * d.1 + py * d.2)) ^ 2 = t ^ 8 * (px * d.1 + py * d.2) ^ 2 := by ring
      _ ≤ t ^ 8 * (1 - 2 * t) := mul_le_mul_of_nonneg_left hl (by positivity)
      _ ≤ _ := key

theorem kern_swap (d : ℤ × ℤ) (px py : ℝ) : kern d px py = kern (d.2, d.1) py px := by
  unfold kern
  have : 1 / 2 - px * px - py * py = 1 / 2 - py * py - px * px := by ring
  rw [this]
  split_ifs
  · rfl
  · ring

/-- Moving along one axis changes the contribution by at most a tenth of the movement. -/
theorem kern_lip {d : ℤ × ℤ} (h1 : |d.1| ≤ 1) (h2 : |d.2| ≤ 1) (px qx y : ℝ) :
    |kern d qx y - kern d px y| ≤ 1 / 10 * |qx - px| := by
  rcases le_or_gt (1 / 2) (y * y) with hy | hy
  · rw [kern_far d (by nlinarith [mul_self_nonneg qx]), kern_far d (by nlinarith [mul_self_nonneg px])]
    simp
  set ρ := Real.sqrt (1 / 2 - y * y) with hρ
  have ρ0 : 0 ≤ ρ := Real.sqrt_nonneg _
  have ρ2 : ρ * ρ = 1 / 2 - y * y := Real.mul_self_sqrt (by linarith)
  -- the polynomial
  let f : ℝ → ℝ := fun x => (1 / 2 - x * x - y * y) ^ 4 * (x * d.1 + y * d.2)
  let cl : ℝ → ℝ := fun x => max (-ρ) (min ρ x)
  have hcl : ∀ x, cl x ∈ Set.Icc (-ρ) ρ := fun x =>
    ⟨le_max_left _ _, max_le (by linarith) (min_le_left _ _)⟩
  have hk : ∀ x, kern d x y = f (cl x) := by
    intro x
    show _ = f (max (-ρ) (min ρ x))
    rcases le_or_gt x ρ with h | h
    · rw [min_eq_right h]
      rcases le_or_gt (-ρ) x with h' | h'
      · rw [max_eq_right h']
        unfold kern
        rw [if_neg (by nlinarith)]
      · rw [max_eq_left h'.le, kern_far d (by nlinarith)]
        show 0 = (1 / 2 - -ρ * -ρ - y * y) ^ 4 * _
        rw [show 1 / 2 - -ρ * -ρ - y * y = 0 by linarith [neg_mul_neg ρ ρ]]; ring
    · rw [min_eq_left h.le, max_eq_right (by linarith), kern_far d (by nlinarith)]
      show 0 = (1 / 2 - ρ * ρ - y * y) ^ 4 * _
      rw [show 1 / 2 - ρ * ρ - y * y = 0 by linarith]; ring
  have hlip : |cl qx - cl px| ≤ |qx - px| := by
    refine (abs_max_sub_max_le_max _ _ _ _).trans ?_
    rw [sub_self, abs_zero, max_eq_right (abs_nonneg _)]
    refine (abs_min_sub_min_le_max _ _ _ _).trans ?_
    rw [sub_self, abs_zero, max_eq_right (abs_nonneg _)]
  have a1 : |(d.1 : ℝ)| ≤ 1 := by exact_mod_cast h1
  have a2 : |(d.2 : ℝ)| ≤ 1 := by exact_mod_cast h2
  have hder : ∀ x, HasDerivAt f (4 * (1 / 2 - x * x - y * y) ^ 3 * (-(2 * x)) * (x * d.1 + y * d.2) +
      (1 / 2 - x * x - y * y) ^ 4 * d.1) x := by
    intro x
    have e1 : HasDerivAt (fun x : ℝ => 1 / 2 - x * x - y * y) (-(2 * x)) x := by
      have := (((hasDerivAt_id x).mul (hasDerivAt_id x)).const_sub (1 / 2)).sub_const (y * y)
      refine this.congr_deriv ?_
      simp; ring
    have e2 : HasDerivAt (fun x : ℝ => x * d.1 + y * d.2) d.1 x := by
      simpa using ((hasDerivAt_id x).mul_const (d.1 : ℝ)).add_const (y * d.2 : ℝ)
    have := (e1.pow 4).mul e2
    refine this.congr_deriv ?_
    simp
  have hb : ∀ x ∈ Set.Icc (-ρ) ρ, ‖4 * (1 / 2 - x * x - y * y) ^ 3 * (-(2 * x)) * (x * d.1 + y * d.2) +
      (1 / 2 - x * x - y * y) ^ 4 * d.1‖ ≤ 1 / 10 := by
    intro x hx
    have t0 : 0 ≤ 1 / 2 - x * x - y * y := by nlinarith [hx.1, hx.2]
    set t := 1 / 2 - x * x - y * y with ht
    rw [Real.norm_eq_abs]
    have l : |x * d.1 + y * d.2| ≤ |x| + |y| := by
      refine (abs_add_le _ _).trans ?_
      rw [abs_mul, abs_mul]
      nlinarith [abs_nonneg x, abs_nonneg y]
    have q : 8 * (|x| * (|x| + |y|)) ≤ 29 / 3 * (1 / 2 - t) := by
      have : 1 / 2 - t = |x| * |x| + |y| * |y| := by rw [abs_mul_abs_self, abs_mul_abs_self, ht]; ring
      rw [this]
      nlinarith [sq_nonneg (12 * |x| - 29 * |y|), sq_nonneg (5 * |x| - 12 * |y|), abs_nonneg x, abs_nonneg y]
    calc |4 * t ^ 3 * (-(2 * x)) * (x * d.1 + y * d.2) + t ^ 4 * d.1|
        ≤ |4 * t ^ 3 * (-(2 * x)) * (x * d.1 + y * d.2)| + |t ^ 4 * d.1| := abs_add_le _ _
      _ = t ^ 3 * (8 * (|x| * |x * d.1 + y * d.2|)) + t ^ 4 * |(d.1 : ℝ)| := by
          rw [abs_mul, abs_mul, abs_mul, abs_neg, abs_mul, abs_mul, abs_of_nonneg (by positivity : 0 ≤ t ^ 3),
            abs_of_nonneg (by positivity : 0 ≤ t ^ 4)]
          norm_num; ring
      _ ≤ t ^ 3 * (29 / 3 * (1 / 2 - t)) + t ^ 4 * 1 := by
          refine add_le_add (mul_le_mul_of_nonneg_left ?_ (by positivity))
            (mul_le_mul_of_nonneg_left a1 (by positivity))
          exact le_trans (by nlinarith [abs_nonneg x]) q
      _ ≤ 1 / 10 := by
          nlinarith [sq_nonneg (t ^ 2 * 17 - t * 7), sq_nonneg (t - 0.41), sq_nonneg (t * (t - 0.41)),
            sq_nonneg (t ^ 2 - 0.17)]
  rw [hk, hk]
  have := Convex.norm_image_sub_le_of_norm_hasDerivWithin_le (f := f) (fun x _ => (hder x).hasDerivWithinAt) hb
    (convex_Icc (-ρ) ρ) (hcl px) (hcl qx)
  rw [Real.norm_eq_abs, Real.norm_eq_abs] at this
  linarith

/-! ## The vertices that contribute -/

/-- contribution of the vertex `v` at the point `(x, y)` -/
noncomputable def contrib (perm : List ℤ) (x y : ℝ) (v : ℤ × ℤ) : ℝ :=
  kern (dirOf perm v.1 v.2) (x - (v.1 - (v.1 + v.2) * ((3 - Real.sqrt 3) / 6)))
    (y - (v.2 - (v.1 + v.2) * ((3 - Real.sqrt 3) / 6)))

/-- Squared distance in skewed coordinates -/
theorem skew_dist (x y : ℝ) (m n : ℝ) (a b : ℝ)
    (ha : a = x + (x + y) * (Real.sqrt 3 - 1) / 2 - m) (hb : b = y + (x + y) * (Real.sqrt 3 - 1) / 2 - n) :
    (x - (m - (m + n) * ((3 - Real.sqrt 3) / 6))) * (x - (m - (m + n) * ((3 - Real.sqrt 3) / 6))) +
      (y - (n - (m + n) * ((3 - Real.sqrt 3) / 6))) * (y - (n - (m + n) * ((3 - Real.sqrt 3) / 6))) =
    2 / 3 * (a * a - a * b + b * b) := by
  have hr : Real.sqrt 3 * Real.sqrt 3 = 3 := Real.mul_self_sqrt (by norm_num)
  subst ha hb
  set r := Real.sqrt 3
  have h2 : r ^ 2 = 3 := by rw [pow_two]; exact hr
  ring_nf
  simp only [h2]
  ring

theorem contrib_far (perm : List ℤ) {x y : ℝ} {m n : ℤ}
    (h : 1 ≤ |x + (x + y) * (Real.sqrt 3 - 1) / 2 - m| ∨ 1 ≤ |y + (x + y) * (Real.sqrt 3 - 1) / 2 - n| ∨
      1 ≤ |x - y - (m - n)|) : contrib perm x y (m, n) = 0 := by
  unfold contrib
  refine kern_far _ ?_
  rw [skew_dist x y m n _ _ rfl rfl]
  set a := x + (x + y) * (Real.sqrt 3 - 1) / 2 - m
  set b := y + (x + y) * (Real.sqrt 3 - 1) / 2 - n
  have hab : x - y - (m - n) = a - b := by simp only [a, b]; ring
  rw [hab] at h
  have one : ∀ z : ℝ, 1 ≤ |z| → 1 ≤ z * z := by
    intro z hz; rw [← abs_mul_abs_self]; nlinarith
  rcases h with h | h | h
  · nlinarith [one _ h, sq_nonneg (a - 2 * b)]
  · nlinarith [one _ h, sq_nonneg (2 * a - b)]
  · nlinarith [one _ h, sq_nonneg (a + b)]

/-- The noise is the sum of the contributions of at most three vertices, and no other contributes. -/
theorem noise_sum {perm : List ℤ} (h : IsPermTable perm) {x y : ℝ} (hx : 0 ≤ x) (hy : 0 ≤ y)
    (hlt : y + (x + y) * (Real.sqrt 3 - 1) / 2 < 255) :
    ∃ T : Finset (ℤ × ℤ), T.card ≤ 3 ∧ (∀ v, v ∉ T → contrib perm x y v = 0) ∧
      simplexNoise x y perm = .ok (∑ v ∈ T, contrib perm x y v) := by
  have hr0 : (1 : ℝ) ≤ Real.sqrt 3 := real_sqrt3.1
  have h0 : 0 ≤ y + (x + y) * (Real.sqrt 3 - 1) / 2 := by
    have : 0 ≤ (x + y) * (Real.sqrt 3 - 1) := mul_nonneg (by linarith) (by linarith)
    linarith
  unfold simplexNoise
  simp only [ex_add, ex_sub, ex_mul, ex_div, ex_sqrt, ex_ofRat, ex_floor, castInt_exact,
    truncZ_intCast, ok_bind, ex_lt, ex_ofInt, decide_eq_true_eq, Rat.cast_ofNat, Rat.cast_one]
  have es : (Transc.sqrt 3 : ℝ) = Real.sqrt 3 := rfl
  rw [es]
  set s := (x + y) * (Real.sqrt 3 - 1) / 2 with hs
  set xi := ⌊x + s⌋ with hxi
  set yi := ⌊y + s⌋ with hyi
  have y0 : 0 ≤ yi := Int.floor_nonneg.mpr h0
  have y1 : yi < 255 := by rw [hyi, Int.floor_lt]; exact_mod_cast hlt
  have fx0 : (xi : ℝ) ≤ x + s := Int.floor_le _
  have fx1 : x + s < xi + 1 := Int.lt_floor_add_one _
  have fy0 : (yi : ℝ) ≤ y + s := Int.floor_le _
  have fy1 : y + s < yi + 1 := Int.lt_floor_add_one _
  have hcmp : (y - (yi - ((xi + yi : ℤ) : ℝ) * (3 - Real.sqrt 3) / 6) <
      x - (xi - ((xi + yi : ℤ) : ℝ) * (3 - Real.sqrt 3) / 6)) ↔ y - yi < x - xi := by
    constructor <;> intro h <;> linarith
  -- lookups
  have g0 := cornerGrad_kern h (x - (xi - ((xi + yi : ℤ) : ℝ) * (3 - Real.sqrt 3) / 6))
    (y - (yi - ((xi + yi : ℤ) : ℝ) * (3 - Real.sqrt 3) / 6)) xi yi y0 (by omega)
  have c0 : kern (dirOf perm xi yi) (x - (xi - ((xi + yi : ℤ) : ℝ) * (3 - Real.sqrt 3) / 6))
    (y - (yi - ((xi + yi : ℤ) : ℝ) * (3 - Real.sqrt 3) / 6)) = contrib perm x y (xi, yi) := by
    unfold contrib; push_cast; congr 1 <;> ring
  rw [g0, ok_bind, c0]
  have far : ∀ m n : ℤ, (m ≠ xi ∧ m ≠ xi + 1) ∨ (n ≠ yi ∧ n ≠ yi + 1) → contrib perm x y (m, n) = 0 := by
    have key : ∀ (z : ℝ) (k m : ℤ), (k : ℝ) ≤ z → z < k + 1 → (m ≠ k ∧ m ≠ k + 1) → 1 ≤ |z - m| := by
      intro z k m h1 h2 hm
      rw [le_abs]
      rcases lt_or_ge m k with h | h
      · left
        have : (m : ℝ) + 1 ≤ k := by exact_mod_cast h
        linarith
      · right
        have h' : k + 2 ≤ m := by omega
        have : (k : ℝ) + 2 ≤ m := by exact_mod_cast h'
        linarith
    rintro m n (hm | hn)
    · exact contrib_far perm (.inl (key _ _ _ fx0 fx1 hm))
    · exact contrib_far perm (.inr (.inl (key _ _ _ fy0 fy1 hn)))
  by_cases hc : y - yi < x - xi
  · rw [if_pos (hcmp.mpr hc), if_pos (hcmp.mpr hc), cornerGrad_kern h _ _ _ _ (by omega) (by omega), ok_bind,
      cornerGrad_kern h _ _ _ _ (by omega) (by omega), ok_bind]
    have c1 : kern (dirOf perm (xi + 1) (yi + 0))
        (x - (xi - ((xi + yi : ℤ) : ℝ) * (3 - Real.sqrt 3) / 6) - ((1 : ℤ) : ℝ) + (3 - Real.sqrt 3) / 6)
        (y - (yi - ((xi + yi : ℤ) : ℝ) * (3 - Real.sqrt 3) / 6) - ((0 : ℤ) : ℝ) + (3 - Real.sqrt 3) / 6) =
        contrib perm x y (xi + 1, yi) := by
      unfold contrib; rw [add_zero]; push_cast; congr 1 <;> ring
    have c2 : kern (dirOf perm (xi + 1) (yi + 1))
        (x - (xi - ((xi + yi : ℤ) : ℝ) * (3 - Real.sqrt 3) / 6) - 1 + 2 * (3 - Real.sqrt 3) / 6)
        (y - (yi - ((xi + yi : ℤ) : ℝ) * (3 - Real.sqrt 3) / 6) - 1 + 2 * (3 - Real.sqrt 3) / 6) =
        contrib perm x y (xi + 1, yi + 1) := by
      unfold contrib; push_cast; congr 1 <;> ring
    rw [c1, c2]
    refine ⟨{(xi, yi), (xi + 1, yi), (xi + 1, yi + 1)}, Finset.card_le_three, ?_, ?_⟩
    · rintro ⟨m, n⟩ hv
      simp only [Finset.mem_insert, Finset.mem_singleton, Prod.mk.injEq, not_or] at hv
      by_cases hm : (m ≠ xi ∧ m ≠ xi + 1) ∨ (n ≠ yi ∧ n ≠ yi + 1)
      · exact far m n hm
      · have : m = xi ∧ n = yi + 1 := by omega
        obtain ⟨rfl, rfl⟩ := this
        refine contrib_far perm (.inr (.inr ?_))
        rw [le_abs]; left
        push_cast; linarith
    · rw [Finset.sum_insert (by simp), Finset.sum_insert (by simp), Finset.sum_singleton]
      show Except.ok _ = _
      congr 1; ring
  · rw [if_neg (fun h => hc (hcmp.mp h)), if_neg (fun h => hc (hcmp.mp h)),
      cornerGrad_kern h _ _ _ _ (by omega) (by omega), ok_bind,
      cornerGrad_kern h _ _ _ _ (by omega) (by omega), ok_bind]
    have c1 : kern (dirOf perm (xi + 0) (yi + 1))
        (x - (xi - ((xi + yi : ℤ) : ℝ) * (3 - Real.sqrt 3) / 6) - ((0 : ℤ) : ℝ) + (3 - Real.sqrt 3) / 6)
        (y - (yi - ((xi + yi : ℤ) : ℝ) * (3 - Real.sqrt 3) / 6) - ((1 : ℤ) : ℝ) + (3 - Real.sqrt 3) / 6) =
        contrib perm x y (xi, yi + 1) := by
      unfold contrib; rw [add_zero]; push_cast; congr 1 <;> ring
    have c2 : kern (dirOf perm (xi + 1) (yi + 1))
        (x - (xi - ((xi + yi : ℤ) : ℝ) * (3 - Real.sqrt 3) / 6) - 1 + 2 * (3 - Real.sqrt 3) / 6)
        (y - (yi - ((xi + yi : ℤ) : ℝ) * (3 - Real.sqrt 3) / 6) - 1 + 2 * (3 - Real.sqrt 3) / 6) =
        contrib perm x y (xi + 1, yi + 1) := by
      unfold contrib; push_cast; congr 1 <;> ring
    rw [c1, c2]
    refine ⟨{(xi, yi), (xi, yi + 1), (xi + 1, yi + 1)}, Finset.card_le_three, ?_, ?_⟩
    · rintro ⟨m, n⟩ hv
      simp only [Finset.mem_insert, Finset.mem_singleton, Prod.mk.injEq, not_or] at hv
      by_cases hm : (m ≠ xi ∧ m ≠ xi + 1) ∨ (n ≠ yi ∧ n ≠ yi + 1)
      · exact far m n hm
      · have : m = xi + 1 ∧ n = yi := by omega
        obtain ⟨rfl, rfl⟩ := this
        refine contrib_far perm (.inr (.inr ?_))
        rw [le_abs]; right
        push_cast; linarith
    · rw [Finset.sum_insert (by simp), Finset.sum_insert (by simp), Finset.sum_singleton]
      show Except.ok _ = _
      congr 1; ring

theorem contrib_le (perm : List ℤ) (x y : ℝ) (v : ℤ × ℤ) : |contrib perm x y v| ≤ 256 / 19683 :=
  kern_le (dirOf_le _ _ _).1 (dirOf_le _ _ _).2 _ _

/-- The noise is at most 256/6561. -/
theorem noise_bound {perm : List ℤ} (h : IsPermTable perm) {x y : ℝ} (hx : 0 ≤ x) (hy : 0 ≤ y)
    (hlt : y + (x + y) * (Real.sqrt 3 - 1) / 2 < 255) {v : ℝ} (hv : simplexNoise x y perm = .ok v) :
    |v| ≤ 256 / 6561 := by
  obtain ⟨T, hT, -, e⟩ := noise_sum h hx hy hlt
  rw [hv] at e; cases e
  refine (Finset.abs_sum_le_sum_abs _ _).trans ?_
  refine (Finset.sum_le_card_nsmul T _ (256 / 19683) fun v _ => contrib_le perm x y v).trans ?_
  rw [nsmul_eq_mul]
  have : (T.card : ℝ) ≤ 3 := by exact_mod_cast hT
  linarith

/-- Two values of the noise, with any bound on the change of single contributions. -/
theorem noise_diff {perm : List ℤ} (h : IsPermTable perm) {x y x' y' : ℝ} (hx : 0 ≤ x) (hy : 0 ≤ y)
    (hlt : y + (x + y) * (Real.sqrt 3 - 1) / 2 < 255) (hx' : 0 ≤ x') (hy' : 0 ≤ y')
    (hlt' : y' + (x' + y') * (Real.sqrt 3 - 1) / 2 < 255) {v v' : ℝ} (hv : simplexNoise x y perm = .ok v)
    (hv' : simplexNoise x' y' perm = .ok v') {B : ℝ}
    (hB : ∀ u, |contrib perm x' y' u - contrib perm x y u| ≤ B) : |v' - v| ≤ 6 * B := by
  obtain ⟨T, hT, z, e⟩ := noise_sum h hx hy hlt
  obtain ⟨T', hT', z', e'⟩ := noise_sum h hx' hy' hlt'
  rw [hv] at e; cases e
  rw [hv'] at e'; cases e'
  rw [Finset.sum_subset (Finset.subset_union_left (s₂ := T')) (fun u _ hu => z u hu),
    Finset.sum_subset (Finset.subset_union_right (s₁ := T)) (fun u _ hu => z' u hu), ← Finset.sum_sub_distrib]
  refine (Finset.abs_sum_le_sum_abs _ _).trans ?_
  refine (Finset.sum_le_card_nsmul _ _ B fun u _ => hB u).trans ?_
  rw [nsmul_eq_mul]
  have : ((T ∪ T').card : ℝ) ≤ 6 := by
    have := Finset.card_union_le T T'
    exact_mod_cast (by omega : (T ∪ T').card ≤ 6)
  have hB0 : 0 ≤ B := (abs_nonneg _).trans (hB (0, 0))
  nlinarith

theorem contrib_x (perm : List ℤ) (x x' y : ℝ) (u : ℤ × ℤ) :
    |contrib perm x' y u - contrib perm x y u| ≤ 1 / 10 * |x' - x| := by
  unfold contrib
  refine (kern_lip (dirOf_le _ _ _).1 (dirOf_le _ _ _).2 _ _ _).trans_eq ?_
  congr 2; ring

theorem contrib_y (perm : List ℤ) (x y y' : ℝ) (u : ℤ × ℤ) :
    |contrib perm x y' u - contrib perm x y u| ≤ 1 / 10 * |y' - y| := by
  unfold contrib
  rw [kern_swap, kern_swap (dirOf perm u.1 u.2) _ (y - _)]
  refine (kern_lip (dirOf_le _ _ _).2 (dirOf_le _ _ _).1 _ _ _).trans_eq ?_
  congr 2; ring

end Soil
