import Verif.Spec.Rounded
import Verif.Proof.Binary
import Verif.Props.Init

/-! # `Init` in rounded arithmetic -/

set_option linter.unusedSectionVars false

namespace Soil

open FOps

section Any

variable {F : Type} [FOps F]

/-- An exception was not thrown. -/
theorem throw_unless {β : Type} {c : Prop} [Decidable c] {e : Err} {f : PUnit → M β} {b : β}
    (h : (if c then (throw e : M PUnit) >>= f else f ()) = .ok b) : ¬ c ∧ f () = .ok b := by
  split_ifs at h with hc
  · exact absurd (show (Except.error e : M β) = .ok b from h) (by simp)
  · exact ⟨hc, h⟩

/-- What the constructor of the grid has computed when it returns -/
theorem mkGrid_any {gx gy gz cxy cz : F} {g : Grid F} (h : mkGrid gx gy gz cxy cz = .ok g) :
    (castInt (FOps.round (gz /ᶠ cz)) = .ok g.halfZ ∧ g.cellZ = cz ∧
      g.vectZ = fun i => accVect (FOps.neg gz +ᶠ cz) cz i.toNat) ∧
    (castInt (FOps.round (gx /ᶠ cxy)) = .ok g.halfX ∧ g.vectX = fun i => accVect (FOps.neg gx) cxy i.toNat) ∧
    (castInt (FOps.round (gy /ᶠ cxy)) = .ok g.halfY ∧ g.vectY = fun i => accVect (FOps.neg gy) cxy i.toNat) ∧
    ¬ (cxy ≤ᶠ zero) ∧ ¬ (gx <ᶠ cxy) ∧ ¬ (gy <ᶠ cxy) := by
  unfold mkGrid at h
  have h := (throw_unless h).2
  obtain ⟨n1, h⟩ := throw_unless h
  have h := (throw_unless h).2
  have h := (throw_unless h).2
  have h := (throw_unless h).2
  have h := (throw_unless h).2
  obtain ⟨n2, h⟩ := throw_unless h
  obtain ⟨n3, h⟩ := throw_unless h
  have h := (throw_unless h).2
  obtain ⟨hx, ex, h⟩ := bind_eq_ok.mp h
  obtain ⟨hy, ey, h⟩ := bind_eq_ok.mp h
  obtain ⟨hz, e, h⟩ := bind_eq_ok.mp h
  cases h
  exact ⟨⟨e, rfl, rfl⟩, ⟨ex, rfl⟩, ⟨ey, rfl⟩, n1, n2, n3⟩

theorem mkSimParam_any {angle : F} {it buf : ℤ} {p : SimParam F} (h : mkSimParam angle it buf = .ok p) :
    2 ≤ p.cellBuffer := by
  unfold mkSimParam at h
  have h := (throw_unless h).2
  have h := (throw_unless h).2
  obtain ⟨h1, h⟩ := throw_unless h
  cases h
  exact not_lt.mp h1

end Any

section

variable {R : Rounding} {prec : ℕ}

/-! ## Bounds kept by rounding -/

theorem Binary.le {rnd : ℚ → ℚ} (hB : Binary rnd prec) {x : ℚ} (k e : ℤ) (hk : |k| ≤ 2 ^ prec)
    (h : x ≤ k * 2 ^ e) : rnd x ≤ k * 2 ^ e := (hB.mono h).trans_eq (hB.fix k e hk)

theorem Binary.ge {rnd : ℚ → ℚ} (hB : Binary rnd prec) {x : ℚ} (k e : ℤ) (hk : |k| ≤ 2 ^ prec)
    (h : k * 2 ^ e ≤ x) : k * 2 ^ e ≤ rnd x := (hB.fix k e hk).symm.trans_le (hB.mono h)

theorem Binary.abs_le {rnd : ℚ → ℚ} (hB : Binary rnd prec) {x : ℚ} (k e : ℤ) (hk : |k| ≤ 2 ^ prec)
    (h : |x| ≤ k * 2 ^ e) : |rnd x| ≤ k * 2 ^ e := by
  rw [_root_.abs_le] at h ⊢
  have h1 := hB.le k e hk h.2
  have h2 := hB.ge (-k) e (by rwa [abs_neg]) (x := x) (by push_cast; linarith [h.1])
  push_cast at h2
  exact ⟨by linarith, h1⟩

theorem Binary.nonneg {rnd : ℚ → ℚ} (hB : Binary rnd prec) {x : ℚ} (h : 0 ≤ x) : 0 ≤ rnd x := by
  have := hB.ge (x := x) 0 0 (by simp) (by simpa using h)
  simpa using this

theorem Binary.zero {rnd : ℚ → ℚ} (hB : Binary rnd prec) : rnd 0 = 0 := by
  have := hB.fix 0 0 (by simp)
  simpa using this

/-- Rounding keeps small whole numbers. -/
theorem Binary.nat {rnd : ℚ → ℚ} (hB : Binary rnd prec) (n : ℤ) (hn : |n| ≤ 2 ^ prec) : rnd n = n := by
  have := hB.fix n 0 hn
  simpa using this

/-- Rounding does not make a negative number zero. -/
theorem Binary.neg {rnd : ℚ → ℚ} (hB : Binary rnd prec) {x : ℚ} (h : x < 0) : rnd x < 0 := by
  have h1 := Int.zpow_log_le_self (b := 2) (by norm_num) (r := -x) (by linarith)
  push_cast at h1
  have h2 := hB.le (x := x) (-1) (Int.log 2 (-x)) (by
    rw [abs_neg, abs_one]; exact_mod_cast Nat.one_le_two_pow) (by push_cast; linarith)
  have h3 := two_zpow_pos (Int.log 2 (-x))
  push_cast at h2
  linarith

/-- Rounding less than doubles. -/
theorem Binary.le_double {rnd : ℚ → ℚ} (hB : Binary rnd prec) {x : ℚ} (h : 0 < x) : rnd x ≤ 2 * x := by
  have h1 := Int.zpow_log_le_self (b := 2) (by norm_num) (r := x) h
  have h2 := Int.lt_zpow_succ_log_self (b := 2) (by norm_num) x
  push_cast at h1 h2
  have h3 := hB.le (x := x) 1 (Int.log 2 x + 1) (by
    rw [abs_one]; exact_mod_cast Nat.one_le_two_pow) (by push_cast; linarith)
  rw [zpow_add₀ (by norm_num)] at h3
  push_cast at h3
  linarith

/-! ## Rounding goes to the nearest number -/

/-- A number with `prec` binary digits -/
def Digits (prec : ℕ) (x : ℚ) : Prop := ∃ k e : ℤ, |k| ≤ 2 ^ prec ∧ x = k * 2 ^ e

theorem Digits.rnd {rnd : ℚ → ℚ} (hB : Binary rnd prec) {x : ℚ} (h : Digits prec x) : rnd x = x := by
  obtain ⟨k, e, hk, rfl⟩ := h
  exact hB.fix k e hk

theorem Digits.neg {x : ℚ} (h : Digits prec x) : Digits prec (-x) := by
  obtain ⟨k, e, hk, rfl⟩ := h
  exact ⟨-k, e, by rwa [abs_neg], by push_cast; ring⟩

theorem Digits.shift {x : ℚ} (h : Digits prec x) (m : ℤ) : Digits prec (x * 2 ^ m) := by
  obtain ⟨k, e, hk, rfl⟩ := h
  exact ⟨k, e + m, hk, by rw [zpow_add₀ (by norm_num)]; ring⟩

theorem roundPos_digits (hp : 1 ≤ prec) {x : ℚ} (hx : 0 < x) : Digits prec (roundPos prec x) := by
  obtain ⟨h1, h2⟩ := digits_pos (prec := prec) hx
  refine ⟨halfEven (x / 2 ^ lastDigit prec x), lastDigit prec x, ?_, rfl⟩
  have a2 : halfEven (x / 2 ^ lastDigit prec x) ≤ (2 : ℤ) ^ prec := by
    rw [← halfEven_intCast (2 ^ prec)]
    apply halfEven_mono
    push_cast
    rw [← zpow_natCast]
    exact h2.le
  have a1 : 0 ≤ halfEven (x / 2 ^ lastDigit prec x) := by
    rw [← halfEven_intCast 0]
    apply halfEven_mono
    push_cast
    exact le_trans (two_zpow_pos _).le h1
  rw [abs_of_nonneg a1]
  exact a2

theorem roundBinary_digits (hp : 1 ≤ prec) (x : ℚ) : Digits prec (roundBinary prec x) := by
  unfold roundBinary
  split_ifs with h h'
  · exact ⟨0, 0, by simp, by simp⟩
  · exact roundPos_digits hp h'
  · exact (roundPos_digits hp (by
      rcases lt_trichotomy x 0 with h1 | h1 | h1
      · linarith
      · exact absurd h1 h
      · exact absurd h1 h')).neg

theorem halfEven_near (q : ℚ) (m : ℤ) : |(halfEven q : ℚ) - q| ≤ |(m : ℚ) - q| := by
  have f1 := Int.floor_le q
  have f2 := Int.lt_floor_add_one q
  rcases le_or_gt m ⌊q⌋ with hm | hm
  · have hm' : (m : ℚ) ≤ ⌊q⌋ := by exact_mod_cast hm
    rw [abs_sub_comm (m : ℚ) q, abs_of_nonneg (by linarith : 0 ≤ q - m)]
    unfold halfEven
    rw [abs_le]
    split_ifs <;> push_cast <;> constructor <;> linarith
  · have hm' : ((⌊q⌋ : ℤ) : ℚ) + 1 ≤ m := by exact_mod_cast hm
    rw [abs_of_nonneg (by linarith : 0 ≤ (m : ℚ) - q)]
    unfold halfEven
    rw [abs_le]
    split_ifs <;> push_cast <;> constructor <;> linarith

theorem roundPos_near (hp : 1 ≤ prec) {x : ℚ} (hx : 0 < x) {y : ℚ} (hy : Digits prec y) :
    |roundPos prec x - x| ≤ |y - x| := by
  have hd := two_zpow_pos (lastDigit prec x)
  set u : ℚ := 2 ^ lastDigit prec x with hu
  have e : roundPos prec x - x = (halfEven (x / u) - x / u) * u := by
    unfold roundPos
    rw [← hu, sub_mul, div_mul_cancel₀ _ hd.ne']
  have key : ∀ m : ℤ, |roundPos prec x - x| ≤ |(m : ℚ) * u - x| := by
    intro m
    have h2 : (m : ℚ) * u - x = (m - x / u) * u := by rw [sub_mul, div_mul_cancel₀ _ hd.ne']
    rw [e, h2, abs_mul, abs_mul]
    exact mul_le_mul_of_nonneg_right (halfEven_near _ _) (abs_nonneg _)
  have x1 := Int.zpow_log_le_self (b := 2) (by norm_num) hx
  have x2 := Int.lt_zpow_succ_log_self (b := 2) (by norm_num) x
  push_cast at x1 x2
  rcases lt_or_ge y (2 ^ Int.log 2 x) with h | h
  · have k := key (2 ^ (prec - 1))
    have e1 : (((2 ^ (prec - 1) : ℤ)) : ℚ) * u = 2 ^ Int.log 2 x := by
      have e2 : ((prec - 1 : ℕ) : ℤ) = (prec : ℤ) - 1 := by omega
      push_cast
      rw [hu, ← zpow_natCast, e2, ← zpow_add₀ (by norm_num)]
      unfold lastDigit
      congr 1
      ring
    rw [e1, abs_of_nonpos (by linarith : (2 : ℚ) ^ Int.log 2 x - x ≤ 0)] at k
    rw [abs_of_nonpos (by linarith : y - x ≤ 0)]
    linarith
  rcases lt_or_ge y (2 ^ (Int.log 2 x + 1)) with h' | h'
  · have hy0 : 0 < y := lt_of_lt_of_le (two_zpow_pos _) h
    have hyx : Int.log 2 y = Int.log 2 x := by
      apply le_antisymm
      · have := (Int.lt_zpow_iff_log_lt (b := 2) (by norm_num) hy0 (x := Int.log 2 x + 1)).mp (by push_cast; exact h')
        omega
      · exact (Int.zpow_le_iff_le_log (b := 2) (by norm_num) hy0).mp (by push_cast; exact h)
    have h1 : y = halfEven (y / u) * u := by
      have h := hy.rnd (roundBinary_binary hp)
      unfold roundBinary at h
      rw [if_neg hy0.ne', if_pos hy0] at h
      unfold roundPos at h
      have : lastDigit prec y = lastDigit prec x := by unfold lastDigit; rw [hyx]
      rw [this, ← hu] at h
      exact h.symm
    rw [h1]
    exact key _
  · have k := key (2 ^ prec)
    have e1 : (((2 ^ prec : ℤ)) : ℚ) * u = 2 ^ (Int.log 2 x + 1) := by
      push_cast
      rw [hu, ← zpow_natCast, ← zpow_add₀ (by norm_num)]
      unfold lastDigit
      congr 1
      ring
    rw [e1, abs_of_nonneg (by linarith : 0 ≤ (2 : ℚ) ^ (Int.log 2 x + 1) - x)] at k
    rw [abs_of_nonneg (by linarith : 0 ≤ y - x)]
    linarith

/-- Rounding goes to the nearest number. -/
theorem roundBinary_near (hp : 1 ≤ prec) (x : ℚ) {y : ℚ} (hy : Digits prec y) :
    |roundBinary prec x - x| ≤ |y - x| := by
  unfold roundBinary
  split_ifs with h h'
  · rw [h]; simp
  · exact roundPos_near hp h' hy
  · have hx : 0 < -x := by
      rcases lt_trichotomy x 0 with h1 | h1 | h1
      · linarith
      · exact absurd h1 h
      · exact absurd h1 h'
    have := roundPos_near hp hx hy.neg
    rw [show -roundPos prec (-x) - x = -(roundPos prec (-x) - -x) by ring, abs_neg]
    rw [show y - x = -(-y - -x) by ring, abs_neg]
    exact this

/-! ## Positions -/

/-- Positions increase, and by at most twice the cell size. -/
theorem accVect_bounds (hR : R.rnd = roundBinary prec) (hp : 1 ≤ prec) {a c : ℚ} (ha : Digits prec a)
    (hc : 0 < c) (n : ℕ) : ∃ v : ℚ, accVect (F := Flt R) a c n = v ∧ Digits prec v ∧ a ≤ v ∧ v ≤ a + 2 * n * c := by
  have hB : Binary R.rnd prec := hR ▸ roundBinary_binary hp
  induction n with
  | zero => exact ⟨a, rfl, ha, le_rfl, by simp⟩
  | succ n ih =>
    obtain ⟨v, e, hv, h1, h2⟩ := ih
    refine ⟨R.rnd (v + c), ?_, ?_, ?_, ?_⟩
    · show FOps.add (F := Flt R) (accVect (F := Flt R) a c n) c = _
      rw [e]
      rfl
    · rw [hR]; exact roundBinary_digits hp _
    · calc a ≤ v := h1
        _ = R.rnd v := (hv.rnd hB).symm
        _ ≤ _ := hB.mono (by linarith)
    · have h3 := roundBinary_near hp (v + c) hv
      rw [show v - (v + c) = -c by ring, abs_neg, abs_of_pos hc, ← hR] at h3
      have h4 := (abs_le.mp h3).2
      push_cast
      linarith

/-! ## Noise -/

section noise

variable (hB : Binary R.rnd prec) (hp : 3 ≤ prec)
include hB hp

theorem small_le {n : ℤ} (hn : |n| ≤ 8) : |n| ≤ 2 ^ prec := by
  have : (2 : ℤ) ^ 3 ≤ 2 ^ prec := pow_le_pow_right₀ (by norm_num) hp
  omega

omit hB hp in
theorem gradDir_small : ∀ d ∈ gradDir, |d.1| ≤ 1 ∧ |d.2| ≤ 1 := by decide

/-- The contribution of a corner is at most 1/8. -/
theorem cornerGrad_bound {perm : List ℤ} {px py : ℚ} {xi yi : ℤ} {v : Flt R}
    (h : cornerGrad (F := Flt R) perm px py xi yi = .ok v) : ∃ q : ℚ, v = q ∧ |q| ≤ 1 / 8 := by
  have h1 : |(1 : ℤ)| ≤ 2 ^ prec := small_le hB hp (by norm_num)
  unfold cornerGrad at h
  dsimp only at h
  have half : R.rnd (1 / 2) = 1 / 2 := by
    have := hB.fix 1 (-1) h1
    norm_num at this ⊢
    exact this
  set t : ℚ := R.rnd (R.rnd (1 / 2 - R.rnd (px * px)) - R.rnd (py * py)) with ht
  have e : (FOps.sub (F := Flt R) (FOps.sub (F := Flt R) (FOps.ofRat (1 / 2)) (FOps.mul (F := Flt R) px px))
      (FOps.mul (F := Flt R) py py)) = t := by
    show R.rnd (R.rnd (R.rnd (1 / 2) - R.rnd (px * px)) - R.rnd (py * py)) = t
    rw [half]
  rw [e] at h
  have sx : 0 ≤ R.rnd (px * px) := hB.nonneg (mul_self_nonneg _)
  have sy : 0 ≤ R.rnd (py * py) := hB.nonneg (mul_self_nonneg _)
  by_cases ht0 : t < 0
  · have : (FOps.lt (F := Flt R) t FOps.zero) = true := by
      show decide (t < R.rnd 0) = true
      rw [hB.zero]
      exact decide_eq_true ht0
    rw [if_pos this] at h
    cases h
    exact ⟨0, hB.zero, by norm_num⟩
  · have hn : ¬ (FOps.lt (F := Flt R) t FOps.zero) = true := by
      show ¬ decide (t < R.rnd 0) = true
      rw [hB.zero]
      simpa using ht0
    rw [if_neg hn] at h
    obtain ⟨p, -, h⟩ := bind_eq_ok.mp h
    obtain ⟨q, -, h⟩ := bind_eq_ok.mp h
    split at h
    case h_2 => exact absurd h (by simp)
    rename_i d hd
    have ev : v = R.rnd (R.rnd (R.rnd (t * t) * R.rnd (t * t)) *
        R.rnd (R.rnd (px * R.rnd (d.1 : ℤ)) + R.rnd (py * R.rnd (d.2 : ℤ)))) := by
      cases h
      rfl
    refine ⟨_, ev, ?_⟩
    have t0 := not_lt.mp ht0
    -- the weight
    have i1 : 0 ≤ R.rnd (1 / 2 - R.rnd (px * px)) - R.rnd (py * py) := by
      by_contra hc
      exact absurd (hB.neg (not_le.mp hc)) ht0
    have i2 : 0 ≤ 1 / 2 - R.rnd (px * px) := by
      by_contra hc
      have := hB.neg (not_le.mp hc)
      linarith
    have i3 : R.rnd (1 / 2 - R.rnd (px * px)) ≤ 1 / 2 := by
      have := hB.le (x := 1 / 2 - R.rnd (px * px)) 1 (-1) h1 (by norm_num; linarith)
      norm_num at this ⊢
      exact this
    have i4 : t ≤ 1 / 2 := by
      have := hB.le (x := R.rnd (1 / 2 - R.rnd (px * px)) - R.rnd (py * py)) 1 (-1) h1 (by norm_num; linarith)
      norm_num at this ⊢
      exact this
    have w1 : |R.rnd (t * t)| ≤ 1 / 4 := by
      have := hB.abs_le (x := t * t) 1 (-2) h1 (by rw [abs_of_nonneg (by positivity)]; norm_num; nlinarith)
      norm_num at this ⊢
      exact this
    have w2 : |R.rnd (R.rnd (t * t) * R.rnd (t * t))| ≤ 1 / 16 := by
      have := hB.abs_le (x := R.rnd (t * t) * R.rnd (t * t)) 1 (-4) h1 (by
        rw [abs_mul]
        calc _ ≤ (1 / 4 : ℚ) * (1 / 4) := mul_le_mul w1 w1 (abs_nonneg _) (by norm_num)
          _ = _ := by norm_num)
      norm_num at this ⊢
      exact this
    -- the distance
    have dist : ∀ z : ℚ, R.rnd (z * z) ≤ 1 / 2 → |z| ≤ 1 := by
      intro z hz
      by_contra hc
      have hc := not_le.mp hc
      have h2 : 1 ≤ z * z := by rw [← abs_mul_abs_self]; nlinarith
      have := hB.ge (x := z * z) 1 0 h1 (by simpa using h2)
      norm_num at this
      linarith
    have px1 := dist px (by linarith)
    have py1 := dist py (by linarith)
    have hdir : |(d.1 : ℤ)| ≤ 1 ∧ |(d.2 : ℤ)| ≤ 1 := by
      exact gradDir_small d (List.mem_of_getElem? hd)
    have term : ∀ (z : ℚ) (n : ℤ), |z| ≤ 1 → |n| ≤ 1 → |R.rnd (z * R.rnd (n : ℤ))| ≤ 1 := by
      intro z n hz hn
      rw [hB.nat n (by linarith [h1, abs_one (α := ℤ)])]
      have hn' : |(n : ℚ)| ≤ 1 := by exact_mod_cast hn
      have := hB.abs_le (x := z * n) 1 0 h1 (by
        rw [abs_mul]; norm_num; nlinarith [abs_nonneg z, abs_nonneg (n : ℚ)])
      simpa using this
    have g1 := term px d.1 px1 hdir.1
    have g2 := term py d.2 py1 hdir.2
    have g3 := hB.abs_le (x := R.rnd (px * R.rnd (d.1 : ℤ)) + R.rnd (py * R.rnd (d.2 : ℤ))) 1 1 h1 (by
      refine (abs_add_le _ _).trans ?_
      norm_num
      linarith)
    norm_num at g3
    have := hB.abs_le (x := R.rnd (R.rnd (t * t) * R.rnd (t * t)) *
        R.rnd (R.rnd (px * R.rnd (d.1 : ℤ)) + R.rnd (py * R.rnd (d.2 : ℤ)))) 1 (-3) h1 (by
      rw [abs_mul]
      norm_num
      calc _ ≤ (1 / 16 : ℚ) * 2 := mul_le_mul w2 g3 (abs_nonneg _) (by norm_num)
        _ = _ := by norm_num)
    norm_num at this ⊢
    exact this

/-- The noise is computed for coordinates between 0 and 64, and it is at most 1/2. -/
theorem noise_flt {r3 : ℚ} (hr3 : R.sqrt (R.rnd 3) = r3) (hr0 : 1 ≤ r3) (hr1 : r3 ≤ 2) {perm : List ℤ}
    (hperm : IsPermTable perm) {x y : ℚ} (x0 : 0 ≤ x) (x1 : x ≤ 64) (y0 : 0 ≤ y) (y1 : y ≤ 64) :
    ∃ v : Flt R, simplexNoise (F := Flt R) x y perm = .ok v ∧ |v.val| ≤ 1 / 2 := by
  have h1 : |(1 : ℤ)| ≤ 2 ^ prec := small_le hB hp (by norm_num)
  have one : R.rnd 1 = 1 := by simpa using hB.nat 1 h1
  have two : R.rnd 2 = 2 := by simpa using hB.nat 2 (small_le hB hp (by norm_num))
  have pw : ∀ {z : ℚ} (e : ℕ), z ≤ 2 ^ e → R.rnd z ≤ 2 ^ e := by
    intro z e hz
    have := hB.le (x := z) 1 e h1 (by rw [zpow_natCast]; simpa using hz)
    rw [zpow_natCast] at this
    simpa using this
  set s : ℚ := R.rnd (R.rnd (R.rnd (x + y) * R.rnd (r3 - 1)) / 2) with hs
  have a0 : 0 ≤ R.rnd (x + y) := hB.nonneg (by linarith)
  have a1 : R.rnd (x + y) ≤ 2 ^ 7 := pw 7 (by norm_num; linarith)
  have b0 : 0 ≤ R.rnd (r3 - 1) := hB.nonneg (by linarith)
  have b1 : R.rnd (r3 - 1) ≤ 2 ^ 0 := pw 0 (by norm_num; linarith)
  have c0 : 0 ≤ R.rnd (R.rnd (x + y) * R.rnd (r3 - 1)) := hB.nonneg (mul_nonneg a0 b0)
  have c1 : R.rnd (R.rnd (x + y) * R.rnd (r3 - 1)) ≤ 2 ^ 7 := pw 7 (by
    calc _ ≤ (2 : ℚ) ^ 7 * 2 ^ 0 := mul_le_mul a1 b1 b0 (by norm_num)
      _ = _ := by norm_num)
  have s0 : 0 ≤ s := hB.nonneg (by linarith)
  have s1 : s ≤ 2 ^ 6 := pw 6 (by norm_num at c1 ⊢; linarith)
  have box : ∀ {z : ℚ}, 0 ≤ z → z ≤ 64 → ∃ n : ℤ, castInt (FOps.floor (FOps.add (F := Flt R) z s)) = .ok n ∧
      0 ≤ n ∧ n ≤ 128 := by
    intro z z0 z1
    have d0 : 0 ≤ R.rnd (z + s) := hB.nonneg (by linarith)
    have d1 : R.rnd (z + s) ≤ 2 ^ 7 := pw 7 (by norm_num at s1 ⊢; linarith)
    have f0 : 0 ≤ ⌊R.rnd (z + s)⌋ := Int.floor_nonneg.mpr d0
    have f1 : ⌊R.rnd (z + s)⌋ ≤ 128 := by
      have : ((⌊R.rnd (z + s)⌋ : ℤ) : ℚ) ≤ 128 := (Int.floor_le _).trans (by norm_num at d1; exact d1)
      exact_mod_cast this
    refine ⟨⌊R.rnd (z + s)⌋, ?_, f0, f1⟩
    unfold castInt
    have e : FOps.toInt (F := Flt R) (FOps.floor (FOps.add (F := Flt R) z s)) =
        if |((⌊R.rnd (z + s)⌋ : ℤ) : ℚ)| < 2 ^ 31 then some (truncZ ((⌊R.rnd (z + s)⌋ : ℤ) : ℚ)) else none := rfl
    have g0 : (0 : ℚ) ≤ ((⌊R.rnd (z + s)⌋ : ℤ) : ℚ) := by exact_mod_cast f0
    have g1 : ((⌊R.rnd (z + s)⌋ : ℤ) : ℚ) ≤ 128 := by exact_mod_cast f1
    rw [e, if_pos (by rw [abs_of_nonneg g0]; norm_num; linarith), truncZ_intCast]
  have es : FOps.div (F := Flt R) (FOps.mul (F := Flt R) (FOps.add (F := Flt R) x y)
      (FOps.sub (F := Flt R) (FOps.sqrt (F := Flt R) (FOps.ofRat 3)) (FOps.ofRat 1))) (FOps.ofRat 2) = s := by
    show R.rnd (R.rnd (R.rnd (x + y) * R.rnd (R.sqrt (R.rnd 3) - R.rnd 1)) / R.rnd 2) = s
    rw [hr3, one, two]
  obtain ⟨xi, ex, xi0, xi1⟩ := box x0 x1
  obtain ⟨yi, ey, yi0, yi1⟩ := box y0 y1
  have sum : ∀ (g0 g1 g2 : ℚ), |g0| ≤ 1 / 8 → |g1| ≤ 1 / 8 → |g2| ≤ 1 / 8 →
      |R.rnd (R.rnd (g0 + g1) + g2)| ≤ 1 / 2 := by
    intro g0 g1 g2 k0 k1 k2
    have m1 := hB.abs_le (x := g0 + g1) 1 (-2) h1 (by
      refine (abs_add_le _ _).trans ?_; norm_num; linarith)
    norm_num at m1
    have m2 := hB.abs_le (x := R.rnd (g0 + g1) + g2) 1 (-1) h1 (by
      refine (abs_add_le _ _).trans ?_; norm_num; linarith)
    norm_num at m2 ⊢
    exact m2
  unfold simplexNoise
  dsimp only
  rw [es, ex, ok_bind, ey, ok_bind]
  have corner : ∀ (px py : Flt R) (a b : ℤ), 0 ≤ b → b < 256 →
      ∃ v : Flt R, cornerGrad perm px py a b = .ok v ∧ |v.val| ≤ 1 / 8 := by
    intro px py a b b0 b1
    obtain ⟨v, hv⟩ := cornerGrad_ok (F := Flt R) hperm px py a b b0 b1
    obtain ⟨q, e, hq⟩ := cornerGrad_bound hB hp (px := px) (py := py) hv
    have e' : v.val = q := e
    exact ⟨v, hv, by rw [e']; exact hq⟩
  obtain ⟨v0, e0, k0⟩ := corner
    (FOps.sub (F := Flt R) x (FOps.sub (F := Flt R) (FOps.ofInt xi) (FOps.div (F := Flt R) (FOps.mul (F := Flt R)
      (FOps.ofInt (xi + yi)) (FOps.sub (F := Flt R) (FOps.ofRat 3) (FOps.sqrt (F := Flt R) (FOps.ofRat 3)))) (FOps.ofRat 6))))
    (FOps.sub (F := Flt R) y (FOps.sub (F := Flt R) (FOps.ofInt yi) (FOps.div (F := Flt R) (FOps.mul (F := Flt R)
      (FOps.ofInt (xi + yi)) (FOps.sub (F := Flt R) (FOps.ofRat 3) (FOps.sqrt (F := Flt R) (FOps.ofRat 3)))) (FOps.ofRat 6))))
    xi yi (by omega) (by omega)
  rw [e0, ok_bind]
  split_ifs
  · obtain ⟨v1, e1, k1⟩ := corner _ _ (xi + 1) (yi + 0) (by omega) (by omega)
    rw [e1, ok_bind]
    obtain ⟨v2, e2, k2⟩ := corner _ _ (xi + 1) (yi + 1) (by omega) (by omega)
    rw [e2]
    exact ⟨_, rfl, sum v0.val v1.val v2.val k0 k1 k2⟩
  · obtain ⟨v1, e1, k1⟩ := corner _ _ (xi + 0) (yi + 1) (by omega) (by omega)
    rw [e1, ok_bind]
    obtain ⟨v2, e2, k2⟩ := corner _ _ (xi + 1) (yi + 1) (by omega) (by omega)
    rw [e2]
    exact ⟨_, rfl, sum v0.val v1.val v2.val k0 k1 k2⟩

/-- The height of a column made by `Init` from coordinates between 0 and 8: a whole number of cells, not more than
the amplitude -/
theorem initHeight_flt {r3 : ℚ} (hr3 : R.sqrt (R.rnd 3) = r3) (hr0 : 1 ≤ r3) (hr1 : r3 ≤ 2) {perm : List ℤ}
    (hperm : IsPermTable perm) {g : Grid (Flt R)} {a A : ℤ} (hz : g.cellZ = (2 : ℚ) ^ a) {amp : ℚ}
    (hA : |A| ≤ 2 ^ prec) (hamp : |amp| ≤ A * 2 ^ a) {i j : ℤ}
    (hx : 0 ≤ Flt.val (FOps.div (FOps.sub (g.vectX 0) (g.vectX i)) (FOps.mul (FOps.ofRat 2) (g.vectX 0))))
    (hx' : Flt.val (FOps.div (FOps.sub (g.vectX 0) (g.vectX i)) (FOps.mul (FOps.ofRat 2) (g.vectX 0))) ≤ 8)
    (hy : 0 ≤ Flt.val (FOps.div (FOps.sub (g.vectY 0) (g.vectY j)) (FOps.mul (FOps.ofRat 2) (g.vectY 0))))
    (hy' : Flt.val (FOps.div (FOps.sub (g.vectY 0) (g.vectY j)) (FOps.mul (FOps.ofRat 2) (g.vectY 0))) ≤ 8) :
    ∃ v : Flt R, initHeight g (amp : Flt R) perm i j = .ok v ∧ ∃ n : ℤ, v.val = n * 2 ^ a ∧ |n| ≤ A := by
  have h1 : |(1 : ℤ)| ≤ 2 ^ prec := small_le hB hp (by norm_num)
  have pw : ∀ {z : ℚ} (e : ℕ), z ≤ 2 ^ e → R.rnd z ≤ 2 ^ e := by
    intro z e hz
    have := hB.le (x := z) 1 e h1 (by rw [zpow_natCast]; simpa using hz)
    rw [zpow_natCast] at this
    simpa using this
  unfold initHeight
  dsimp only
  generalize FOps.div (FOps.sub (g.vectX 0) (g.vectX i)) (FOps.mul (FOps.ofRat 2) (g.vectX 0)) = x at hx hx'
  generalize FOps.div (FOps.sub (g.vectY 0) (g.vectY j)) (FOps.mul (FOps.ofRat 2) (g.vectY 0)) = y at hy hy'
  have noise : ∀ m : ℤ, 0 < m → m ≤ 8 → ∃ v : Flt R,
      simplexNoise (FOps.mul (FOps.ofRat m) x) (FOps.mul (FOps.ofRat m) y) perm = .ok v ∧ |v.val| ≤ 1 / 2 := by
    intro m m0 m1
    have em : R.rnd (m : ℚ) = m := hB.nat m (small_le hB hp (by rw [abs_of_pos m0]; exact m1))
    have m0' : (0 : ℚ) < m := by exact_mod_cast m0
    have m1' : (m : ℚ) ≤ 8 := by exact_mod_cast m1
    have co : ∀ z : Flt R, 0 ≤ z.val → z.val ≤ 8 → 0 ≤ Flt.val (FOps.mul (FOps.ofRat (m : ℚ)) z) ∧
        Flt.val (FOps.mul (FOps.ofRat (m : ℚ)) z) ≤ 64 := by
      intro z z0 z1
      have e : Flt.val (FOps.mul (FOps.ofRat (m : ℚ)) z) = R.rnd (m * z.val) := by
        show R.rnd (R.rnd (m : ℚ) * z.val) = _
        rw [em]
      rw [e]
      refine ⟨hB.nonneg (mul_nonneg m0'.le z0), ?_⟩
      have := pw (z := (m : ℚ) * z.val) 6 (by norm_num; nlinarith)
      norm_num at this
      exact this
    obtain ⟨a1, a2⟩ := co x hx hx'
    obtain ⟨b1, b2⟩ := co y hy hy'
    exact noise_flt hB hp hr3 hr0 hr1 hperm a1 a2 b1 b2
  obtain ⟨v1, e1, k1⟩ := noise 1 (by norm_num) (by norm_num)
  obtain ⟨v2, e2, k2⟩ := noise 2 (by norm_num) (by norm_num)
  obtain ⟨v4, e4, k4⟩ := noise 4 (by norm_num) (by norm_num)
  obtain ⟨v8, e8, k8⟩ := noise 8 (by norm_num) (by norm_num)
  push_cast at e1 e2 e4 e8
  rw [e1, ok_bind, e2, ok_bind, e4, ok_bind, e8, ok_bind]
  refine ⟨_, rfl, ?_⟩
  have dy : ∀ e : ℤ, R.rnd (2 ^ e) = 2 ^ e := by
    intro e
    have := hB.fix 1 e h1
    simpa using this
  have d1 := dy (-1)
  have d2 := dy (-2)
  have d3 := dy (-3)
  have d4 := dy (-4)
  norm_num at d1 d2 d3 d4
  have hterm : ∀ (e : ℤ) (z : ℚ), |z| ≤ 1 / 2 → |R.rnd (2 ^ e * z)| ≤ 2 ^ (e - 1) := by
    intro e z hz
    have := hB.abs_le (x := 2 ^ e * z) 1 (e - 1) h1 (by
      rw [abs_mul, abs_of_pos (two_zpow_pos e), zpow_sub₀ (by norm_num)]
      have := mul_le_mul_of_nonneg_left hz (two_zpow_pos e).le
      norm_num at this ⊢
      linarith)
    simpa using this
  have t1 := hterm (-1) v1.val k1
  have t2 := hterm (-2) v2.val k2
  have t3 := hterm (-3) v4.val k4
  have t4 := hterm (-4) v8.val k8
  norm_num at t1 t2 t3 t4
  set y1 : ℚ := R.rnd (R.rnd (1 / 2) * v1.val) with hy1
  set y2 : ℚ := R.rnd (R.rnd (1 / 4) * v2.val) with hy2
  set y3 : ℚ := R.rnd (R.rnd (1 / 8) * v4.val) with hy3
  set y4 : ℚ := R.rnd (R.rnd (1 / 16) * v8.val) with hy4
  have q1 : |y1| ≤ 1 / 4 := by rw [hy1]; norm_num; rw [d1]; exact t1
  have q2 : |y2| ≤ 1 / 8 := by rw [hy2]; norm_num; rw [d2]; exact t2
  have q3 : |y3| ≤ 1 / 16 := by rw [hy3]; norm_num; rw [d3]; exact t3
  have q4 : |y4| ≤ 1 / 32 := by rw [hy4]; norm_num; rw [d4]; exact t4
  have s2 := hB.abs_le (x := y1 + y2) 3 (-3) (small_le hB hp (by norm_num)) (by
    refine (abs_add_le _ _).trans ?_; norm_num; linarith)
  norm_num at s2
  have s3 := hB.abs_le (x := R.rnd (y1 + y2) + y3) 7 (-4) (small_le hB hp (by norm_num)) (by
    refine (abs_add_le _ _).trans ?_; norm_num; linarith)
  norm_num at s3
  have s4 := hB.abs_le (x := R.rnd (R.rnd (y1 + y2) + y3) + y4) 1 (-1) h1 (by
    refine (abs_add_le _ _).trans ?_; norm_num; linarith)
  norm_num at s4
  set yy : ℚ := R.rnd (R.rnd (R.rnd (y1 + y2) + y3) + y4) with hyy
  have ha := two_zpow_pos a
  have hA0 : (0 : ℚ) ≤ A * 2 ^ a := (abs_nonneg _).trans hamp
  have v1b : |R.rnd (amp * yy)| ≤ A * 2 ^ a := hB.abs_le A a hA (by
    rw [abs_mul]
    calc _ ≤ (A * 2 ^ a : ℚ) * 1 := mul_le_mul hamp (by linarith) (abs_nonneg _) hA0
      _ = _ := mul_one _)
  have v2b : |R.rnd (R.rnd (amp * yy) / 2 ^ a)| ≤ A := by
    have := hB.abs_le (x := R.rnd (amp * yy) / 2 ^ a) A 0 hA (by
      rw [abs_div, abs_of_pos ha, div_le_iff₀ ha]
      simpa using v1b)
    simpa using this
  have v3b : |roundAway (R.rnd (R.rnd (amp * yy) / 2 ^ a))| ≤ A := by
    generalize R.rnd (R.rnd (amp * yy) / 2 ^ a) = z at v2b
    have hz := abs_le.mp v2b
    unfold roundAway
    split_ifs with h0
    · have f0 : 0 ≤ ⌊z + 1 / 2⌋ := Int.floor_nonneg.mpr (by linarith)
      rw [abs_of_nonneg f0]
      have : ⌊z + 1 / 2⌋ < A + 1 := by
        rw [Int.floor_lt]; push_cast; linarith [hz.2]
      omega
    · have f0 : ⌈z - 1 / 2⌉ ≤ 0 := Int.ceil_le.mpr (by push_cast; linarith)
      rw [abs_of_nonpos f0]
      have : -A - 1 < ⌈z - 1 / 2⌉ := by
        rw [Int.lt_ceil]; push_cast; linarith [hz.1]
      omega
  refine ⟨roundAway (R.rnd (R.rnd (amp * yy) / 2 ^ a)), ?_, v3b⟩
  rw [hz]
  show R.rnd (2 ^ a * ((roundAway (R.rnd (R.rnd (amp * yy) / 2 ^ a)) : ℤ) : ℚ)) = _
  rw [mul_comm]
  refine hB.fix _ _ (v3b.trans ?_)
  exact (le_abs_self A).trans hA

end noise

/-- The scaled coordinate of a column is between 0 and 8. -/
theorem coord_flt (hR : R.rnd = roundBinary prec) (hp : 3 ≤ prec) {gx cxy : ℚ} {hf : ℤ}
    (hd : Digits prec gx) (hc : 0 < cxy) (hcx : cxy ≤ gx)
    (hh : castInt (FOps.round (FOps.div (F := Flt R) gx cxy)) = .ok hf) {i : ℤ} (i0 : 0 ≤ i) (i1 : i ≤ 2 * hf)
    {v0 vi : Flt R} (e0 : v0 = accVect (F := Flt R) (FOps.neg (F := Flt R) gx) cxy 0)
    (ei : vi = accVect (F := Flt R) (FOps.neg (F := Flt R) gx) cxy i.toNat) :
    0 ≤ Flt.val (FOps.div (FOps.sub v0 vi) (FOps.mul (FOps.ofRat 2) v0)) ∧
      Flt.val (FOps.div (FOps.sub v0 vi) (FOps.mul (FOps.ofRat 2) v0)) ≤ 8 := by
  have hB : Binary R.rnd prec := hR ▸ roundBinary_binary (by omega)
  have hg : 0 < gx := lt_of_lt_of_le hc hcx
  -- the number of columns
  have hf1 : (hf : ℚ) ≤ 2 * (gx / cxy) + 1 / 2 := by
    have q0 : 0 < gx / cxy := div_pos hg hc
    have q1 := hB.le_double q0
    have q2 := hB.nonneg q0.le
    unfold castInt at hh
    have e : FOps.toInt (F := Flt R) (FOps.round (FOps.div (F := Flt R) gx cxy)) =
        if |((roundAway (R.rnd (gx / cxy)) : ℤ) : ℚ)| < 2 ^ 31 then
          some (truncZ ((roundAway (R.rnd (gx / cxy)) : ℤ) : ℚ)) else none := rfl
    rw [e] at hh
    by_cases h31 : |((roundAway (R.rnd (gx / cxy)) : ℤ) : ℚ)| < 2 ^ 31
    · rw [if_pos h31, truncZ_intCast] at hh
      have hh' : roundAway (R.rnd (gx / cxy)) = hf := by simpa using hh
      rw [← hh', roundAway_of_nonneg q2]
      have := Int.floor_le (R.rnd (gx / cxy) + 1 / 2)
      linarith
    · rw [if_neg h31] at hh
      exact absurd hh (by simp)
  obtain ⟨v, ev, -, h1, h2⟩ := accVect_bounds (R := R) hR (by omega) (a := -gx) (c := cxy) hd.neg hc i.toNat
  have hi : ((i.toNat : ℕ) : ℚ) = i := by
    have : ((i.toNat : ℕ) : ℤ) = i := Int.toNat_of_nonneg i0
    exact_mod_cast this
  rw [hi] at h2
  have hi1 : (i : ℚ) ≤ 2 * hf := by exact_mod_cast i1
  have h3 : (i : ℚ) * cxy ≤ 4 * gx + cxy := by
    have : (i : ℚ) * cxy ≤ (4 * (gx / cxy) + 1) * cxy := mul_le_mul_of_nonneg_right (by linarith) hc.le
    have e : gx / cxy * cxy = gx := div_mul_cancel₀ _ hc.ne'
    nlinarith
  have evi : vi.val = v := ei.trans ev
  have ev0 : v0.val = -gx := e0
  have r2 : R.rnd (2 * -gx) = 2 * -gx := by
    have := (hd.neg.shift 1).rnd hB
    norm_num at this
    rw [mul_comm]
    norm_num
    exact this
  have two : R.rnd 2 = 2 := by simpa using hB.nat 2 (small_le hB hp (by norm_num))
  have e : Flt.val (FOps.div (FOps.sub v0 vi) (FOps.mul (FOps.ofRat 2) v0)) =
      R.rnd (R.rnd (v0.val - vi.val) / R.rnd (R.rnd 2 * v0.val)) := rfl
  rw [e, evi, ev0, two, r2]
  have d1 : R.rnd (-gx - v) ≤ 0 := by
    have := hB.le (x := -gx - v) 0 0 (by simp) (by simp; linarith)
    simpa using this
  have d2 : -(gx * 2 ^ (4 : ℤ)) ≤ R.rnd (-gx - v) := by
    have h4 := (hd.shift 4).neg.rnd hB
    rw [← h4]
    apply hB.mono
    norm_num
    nlinarith
  have q0 : 0 ≤ R.rnd (-gx - v) / (2 * -gx) := div_nonneg_of_nonpos d1 (by linarith)
  have q1 : R.rnd (-gx - v) / (2 * -gx) ≤ 8 := by
    rw [div_le_iff_of_neg (by linarith)]
    norm_num at d2
    linarith
  refine ⟨hB.nonneg q0, ?_⟩
  have := hB.le (x := R.rnd (-gx - v) / (2 * -gx)) 8 0 (small_le hB hp (by norm_num)) (by simpa using q1)
  simpa using this

end

end Soil
