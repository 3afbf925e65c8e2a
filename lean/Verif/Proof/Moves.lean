import Verif.Proof.Pace

/-! # How far the body of the example program moves in one step -/

set_option linter.unusedSectionVars false

namespace Soil

/-! ## One time step -/

theorem maxBodyVel_attained (p m : Corners ℝ) (t : ℝ) :
    ∃ f ∈ cornerFns, maxBodyVel p m t ≤ 5 / 4 * (len (vsub (f p) (f m)) / t) := by
  by_contra hcon
  push Not at hcon
  have h : ∀ f ∈ cornerFns, len (vsub (f p) (f m)) / t < 4 / 5 * maxBodyVel p m t := fun f hf => by
    have := hcon f hf
    linarith
  have : 4 / 5 * maxBodyVel p m t < 4 / 5 * maxBodyVel p m t := by
    conv_lhs => unfold maxBodyVel
    simp only [FOps.maxL, List.foldl_cons, List.foldl_nil, ex_max, ex_mul, ex_ofRat, cornerVel_eq]
    simp only [cornerFns, List.mem_cons, List.not_mem_nil, or_false, forall_eq_or_imp, forall_eq] at h
    obtain ⟨h1, h2, h3, h4, h5, h6⟩ := h
    push_cast
    rw [← mul_assoc, show (4 / 5 * (5 / 4) : ℝ) = 1 by norm_num, one_mul]
    simp only [max_lt_iff]
    exact ⟨⟨⟨⟨⟨h2, h1⟩, h4⟩, h3⟩, h6⟩, h5⟩
  exact lt_irrefl _ this

theorem lerp_along (c : ℕ → Vec3 ℝ) (k : ℕ) (b : ℝ) : lerp (c k) (c (k + 1)) (1 - b) b = along c k b := by
  unfold lerp along diff vsub vadd vsmul
  simp only [ex_add, ex_mul]
  apply Vec3.ext' <;> dsimp only <;> ring

theorem len_triangle (u v : Vec3 ℝ) : len u ≤ len (vsub u v) + len v := by
  have : u = vadd (vsub u v) v := by unfold vadd vsub; apply Vec3.ext' <;> dsimp only <;> ring
  calc len u = len (vadd (vsub u v) v) := by rw [← this]
    _ ≤ _ := len_add_le _ _

set_option maxHeartbeats 1000000 in
/-- A time step chosen by the example program moves the corners by the smaller cell size, up to the sampling
error. `q` is the number of samples of the previous time step. -/
theorem measured_move {C : ℕ → Corners ℝ} {X : (Corners ℝ → Vec3 ℝ) → ℝ → Vec3 ℝ} {N : ℕ}
    {κ L h m B d r time dti δ E : ℝ} (hm : 0 < m) (hh : 0 < h) (hκ : 0 ≤ κ)
    (hC : ∀ f ∈ cornerFns, Bends (fun k => f (C k)) N κ)
    (hL : ∀ f ∈ cornerFns, ∀ k < N, len (diff (fun k => f (C k)) k) ≤ L)
    (hX : ∀ f ∈ cornerFns, ∀ (t : ℝ) (k : ℕ), (k : ℝ) = ⌈t / h⌉ → k + 1 ≤ N →
      len (vsub (X f t) (along (fun k => f (C k)) k (t / h - k))) ≤ κ / 2)
    (hM : Measured C N d r h m time dti δ) (hδ : 0 ≤ δ) (hδB : δ ≤ B * h) (hq : 15 / 2 * h ≤ dti)
    (ht : 0 ≤ time) (hlt : time + δ + h < N * h)
    (hE : (B * (dti / h / 2 + 2) + (B + 1) ^ 2 / 2 + (B + 1) + 1) * κ ≤ E)
    (hL0 : 85 * (L + κ) ≤ 8 * m) :
    15 / 2 * h ≤ δ ∧
    (∀ f ∈ cornerFns, len (vsub (X f (time + δ)) (X f time)) ≤ 4 / 5 * m * (dti / (dti - h)) + E) ∧
    ∃ f ∈ cornerFns, 4 / 5 * m * (dti / (dti + h)) - E ≤ len (vsub (X f (time + δ)) (X f time)) := by
  obtain ⟨i, n, k, hn, hk, ek, ei, ein, hvel, -⟩ := hM
  set q := dti / h with hqd
  have hq' : 15 / 2 ≤ q := by rw [hqd, le_div_iff₀ hh]; exact hq
  have hdti : 0 < dti := by linarith
  set τ := time / h with hτ
  have tp : (time + 1 / 2 * dti) / h = τ + q / 2 := by rw [hτ, hqd]; ring
  have tm : (time - 1 / 2 * dti) / h = τ - q / 2 := by rw [hτ, hqd]; ring
  rw [tm] at ei
  rw [tp] at ein
  have b1 := Int.ceil_lt_add_one (τ + q / 2)
  have b2 := Int.le_ceil (τ + q / 2)
  have b3 := Int.ceil_lt_add_one (τ - q / 2)
  have b4 := Int.le_ceil (τ - q / 2)
  have b5 := Int.ceil_lt_add_one τ
  have b6 := Int.le_ceil τ
  rw [← ein] at b1 b2
  rw [← ei] at b3 b4
  rw [← ek] at b5 b6
  set b := τ - k with hb
  have hb0 : -1 ≤ b := by linarith
  have hb1 : b ≤ 0 := by linarith
  have ab : |b| ≤ 1 := abs_le.mpr ⟨hb0, by linarith⟩
  have hnq1 : q - 1 < n := by linarith
  have hnq2 : (n : ℝ) < q + 1 := by linarith
  have hn0 : (0 : ℝ) < n := by linarith
  have hspan : ∀ j : ℕ, i ≤ j → j < i + n → |(j : ℝ) - k| ≤ q / 2 + 1 := by
    intro j h1 h2
    have h1' : (i : ℝ) ≤ j := by exact_mod_cast h1
    have h2' : (j : ℝ) + 1 ≤ i + n := by exact_mod_cast h2
    exact abs_le.mpr ⟨by linarith, by linarith⟩
  set vel := maxBodyVel (lerpC (C (i + n)) (C (i + n + 1)) (1 - b) b) (lerpC (C i) (C (i + 1)) (1 - b) b) dti with hv
  -- the measured movement of a corner
  set w := fun f : Corners ℝ → Vec3 ℝ =>
    len (vsub (along (fun k => f (C k)) (i + n) b) (along (fun k => f (C k)) i b)) with hw
  have hwf : ∀ f ∈ cornerFns, len (vsub (f (lerpC (C (i + n)) (C (i + n + 1)) (1 - b) b))
      (f (lerpC (C i) (C (i + 1)) (1 - b) b))) = w f := by
    intro f hf
    rw [lerpC_fn hf, lerpC_fn hf]
    rw [lerp_along (fun k => f (C k)) (i + n) b, lerp_along (fun k => f (C k)) i b]
  have hmeas : ∀ f ∈ cornerFns, |w f - n * len (diff (fun k => f (C k)) k)| ≤ n * ((q / 2 + 1 + 1) * κ) :=
    fun f hf => (hC f hf).measured hκ i k n hk hn hspan ab
  have hw1 : ∀ f ∈ cornerFns, δ * w f ≤ 4 / 5 * m * dti := by
    intro f hf
    have h1 := le_maxBodyVel (t := dti) hf le_rfl (p := lerpC (C (i + n)) (C (i + n + 1)) (1 - b) b)
      (m := lerpC (C i) (C (i + 1)) (1 - b) b)
    rw [hwf f hf, ← hv] at h1
    have h2 := mul_le_mul_of_nonneg_left h1 hδ
    rw [hvel] at h2
    have h3 : δ * (5 / 4 * (w f / dti)) = 5 / 4 * (δ * w f) / dti := by ring
    rw [h3, div_le_iff₀ hdti] at h2
    linarith
  obtain ⟨f0, hf0, hmax⟩ := maxBodyVel_attained (lerpC (C (i + n)) (C (i + n + 1)) (1 - b) b)
    (lerpC (C i) (C (i + 1)) (1 - b) b) dti
  rw [hwf f0 hf0, ← hv] at hmax
  have hw0 : 4 / 5 * m * dti ≤ δ * w f0 := by
    have h2 := mul_le_mul_of_nonneg_left hmax hδ
    rw [hvel] at h2
    have h3 : δ * (5 / 4 * (w f0 / dti)) = 5 / 4 * (δ * w f0) / dti := by ring
    rw [h3, le_div_iff₀ hdti] at h2
    linarith
  -- the actual movement of a corner
  have hc0 : 0 ≤ ⌈(time + δ) / h⌉ := Int.ceil_nonneg (by positivity)
  obtain ⟨k', hk'⟩ := Int.eq_ofNat_of_zero_le hc0
  have ek' : (k' : ℝ) = ⌈(time + δ) / h⌉ := by rw [hk']; rfl
  have τ' : (time + δ) / h = τ + δ / h := by rw [hτ, add_div]
  have c1 := Int.ceil_lt_add_one ((time + δ) / h)
  have c2 := Int.le_ceil ((time + δ) / h)
  rw [← ek', τ'] at c1 c2
  have hδh : 0 ≤ δ / h := by positivity
  have hkk : k ≤ k' := by
    have : (k : ℝ) < k' + 1 := by linarith
    have : k < k' + 1 := by exact_mod_cast this
    omega
  obtain ⟨n', rfl⟩ := Nat.exists_eq_add_of_le hkk
  have hn'N : k + n' + 1 ≤ N := by
    have h1 : (time + δ) / h + 1 < N := by
      rw [← lt_sub_iff_add_lt, div_lt_iff₀ hh]; linarith
    rw [τ'] at h1
    have : ((k + n' : ℕ) : ℝ) < N := by linarith
    have : k + n' < N := by exact_mod_cast this
    omega
  set b' := (time + δ) / h - ((k + n' : ℕ) : ℝ) with hb'
  have ab' : |b'| ≤ 1 := by
    rw [hb', τ']
    exact abs_le.mpr ⟨by linarith, by linarith⟩
  have hsum : (n' : ℝ) + b' - b = δ / h := by rw [hb', hb, τ']; push_cast; ring
  have hn'B : (n' : ℝ) ≤ B + 1 := by
    have h1 : δ / h ≤ B := by rw [div_le_iff₀ hh]; exact hδB
    have h2 : b - b' ≤ 1 := by
      have : -1 ≤ b' := by linarith [(abs_le.mp ab').1]
      linarith
    linarith
  have hBpos : 0 ≤ B := by
    have h1 : 0 * h ≤ B * h := by linarith
    exact le_of_mul_le_mul_right h1 hh
  have hact : ∀ f ∈ cornerFns, |len (vsub (X f (time + δ)) (X f time)) -
      δ / h * len (diff (fun k => f (C k)) k)| ≤ ((B + 1) ^ 2 / 2 + (B + 1) + 1) * κ := by
    intro f hf
    have h1 := (hC f hf).moved hκ k n' (b := b) (b' := b') hn'N ab' (by rw [hsum]; exact hδh)
    rw [hsum] at h1
    have h2 := hX f hf (time + δ) (k + n') ek' hn'N
    have h3 := hX f hf time k ek hk
    rw [← hb'] at h2
    rw [← hτ, ← hb] at h3
    set Y' := along (fun k => f (C k)) (k + n') b'
    set Y := along (fun k => f (C k)) k b
    have e : vsub (vsub (X f (time + δ)) (X f time)) (vsub Y' Y) = vsub (vsub (X f (time + δ)) Y') (vsub (X f time) Y) := by
      unfold vsub; apply Vec3.ext' <;> dsimp only <;> ring
    have h4 : len (vsub (vsub (X f (time + δ)) (X f time)) (vsub Y' Y)) ≤ κ := by
      rw [e]; exact (len_sub_le _ _).trans (by linarith)
    have h5 := len_triangle (vsub (X f (time + δ)) (X f time)) (vsub Y' Y)
    have h6 := len_triangle (vsub Y' Y) (vsub (X f (time + δ)) (X f time))
    rw [len_comm (vsub Y' Y)] at h6
    have h7 : ((n' : ℝ) ^ 2 / 2 + n') * κ ≤ ((B + 1) ^ 2 / 2 + (B + 1)) * κ := by
      have : (0 : ℝ) ≤ n' := by positivity
      refine mul_le_mul_of_nonneg_right ?_ hκ
      have := pow_le_pow_left₀ this hn'B 2
      linarith
    have h8 := abs_le.mp h1
    rw [abs_le]
    constructor <;> linarith [h8.1, h8.2]
  have hδhB : δ / h ≤ B := by rw [div_le_iff₀ hh]; exact hδB
  have hslack : B * ((q / 2 + 1 + 1) * κ) + ((B + 1) ^ 2 / 2 + (B + 1) + 1) * κ ≤ E := by
    have : B * ((q / 2 + 1 + 1) * κ) + ((B + 1) ^ 2 / 2 + (B + 1) + 1) * κ =
      (B * (q / 2 + 2) + (B + 1) ^ 2 / 2 + (B + 1) + 1) * κ := by ring
    rw [this]; exact hE
  have hcurve : δ / h * ((q / 2 + 1 + 1) * κ) ≤ B * ((q / 2 + 1 + 1) * κ) :=
    mul_le_mul_of_nonneg_right hδhB (mul_nonneg (by linarith) hκ)
  have hden1 : 0 < dti - h := by linarith
  have hden2 : 0 < dti + h := by linarith
  refine ⟨?_, ?_, f0, hf0, ?_⟩
  · -- the new time step is not short
    have h1 := (hC f0 hf0).diff_le i n hn
    have h2 : w f0 ≤ n * (L + κ) := by
      have e : vsub (along (fun k => f0 (C k)) (i + n) b) (along (fun k => f0 (C k)) i b) =
          vadd (vsub (f0 (C (i + n))) (f0 (C i)))
            (vsmul b (vsub (diff (fun k => f0 (C k)) (i + n)) (diff (fun k => f0 (C k)) i))) := by
        unfold along vsub vadd vsmul; apply Vec3.ext' <;> dsimp only <;> ring
      have hfar : ∀ j, i + j ≤ N → len (vsub (f0 (C (i + j))) (f0 (C i))) ≤ j * L := by
        intro j
        induction j with
        | zero => intro _; simp [vsub, len, dot]
        | succ j ih =>
          intro hj
          rw [vsub_trans _ (f0 (C (i + j)))]
          refine (len_add_le _ _).trans ?_
          have a1 := hL f0 hf0 (i + j) (by omega)
          have a2 := ih (by omega)
          unfold diff at a1
          rw [show i + (j + 1) = i + j + 1 by ring]
          push_cast
          linarith
      rw [hw]
      dsimp only
      rw [e]
      refine (len_add_le _ _).trans ?_
      rw [len_smul]
      have a3 := mul_le_mul ab h1 (len_nonneg _) (by norm_num)
      linarith [hfar n (by omega)]
    have hLκ : 0 ≤ L + κ := by
      have := hL f0 hf0 k (by omega)
      linarith [len_nonneg (diff (fun k => f0 (C k)) k)]
    have h3 : 4 / 5 * m * dti ≤ δ * ((q + 1) * (L + κ)) := by
      refine hw0.trans (mul_le_mul_of_nonneg_left (h2.trans ?_) hδ)
      exact mul_le_mul_of_nonneg_right hnq2.le hLκ
    have h4 : δ * ((q + 1) * (L + κ)) ≤ δ * ((q + 1) * (8 / 85 * m)) := by
      refine mul_le_mul_of_nonneg_left (mul_le_mul_of_nonneg_left (by linarith) (by linarith)) hδ
    have h5 : 4 / 5 * m * dti ≤ 8 / 85 * m * (δ * (q + 1)) := by linarith
    have h6 : 17 / 2 * dti ≤ δ * (q + 1) := by
      have : m * (17 / 2 * dti) ≤ m * (δ * (q + 1)) := by linarith
      exact le_of_mul_le_mul_left this hm
    have e1 : dti = q * h := by rw [hqd]; field_simp
    rw [e1] at h6
    have h7 : 15 / 2 * (q + 1) ≤ 17 / 2 * q := by linarith
    have h8 := mul_le_mul_of_nonneg_right h7 hh.le
    have h9 : (q + 1) * (15 / 2 * h) ≤ (q + 1) * δ := by linarith
    exact le_of_mul_le_mul_left h9 (by linarith)
  · intro f hf
    have h1 := (abs_le.mp (hact f hf)).2
    have h2 := (abs_le.mp (hmeas f hf)).1
    have h3 := hw1 f hf
    set e := len (diff (fun k => f (C k)) k) with he
    have he0 : 0 ≤ e := len_nonneg _
    -- bound of the speed
    have h4 : δ / h * e ≤ 4 / 5 * m * (dti / (dti - h)) + δ / h * ((q / 2 + 1 + 1) * κ) := by
      have h5 : δ * (n * (e - (q / 2 + 1 + 1) * κ)) ≤ 4 / 5 * m * dti := by
        refine le_trans ?_ h3
        exact mul_le_mul_of_nonneg_left (by linarith) hδ
      by_cases hs : e - (q / 2 + 1 + 1) * κ ≤ 0
      · have : δ / h * (e - (q / 2 + 1 + 1) * κ) ≤ 0 := mul_nonpos_of_nonneg_of_nonpos hδh hs
        have : 0 ≤ 4 / 5 * m * (dti / (dti - h)) := by positivity
        linarith
      · push Not at hs
        have h6 : δ * ((q - 1) * (e - (q / 2 + 1 + 1) * κ)) ≤ 4 / 5 * m * dti := by
          refine le_trans (mul_le_mul_of_nonneg_left (mul_le_mul_of_nonneg_right hnq1.le hs.le) hδ) h5
        have e1 : q - 1 = (dti - h) / h := by rw [hqd]; field_simp
        rw [e1] at h6
        have e2 : δ * ((dti - h) / h * (e - (q / 2 + 1 + 1) * κ)) =
          (δ / h * (e - (q / 2 + 1 + 1) * κ)) * (dti - h) := by ring
        rw [e2, ← le_div_iff₀ hden1] at h6
        have e3 : 4 / 5 * m * dti / (dti - h) = 4 / 5 * m * (dti / (dti - h)) := by ring
        linarith
    linarith
  · have h1 := (abs_le.mp (hact f0 hf0)).1
    have h2 := (abs_le.mp (hmeas f0 hf0)).2
    set e := len (diff (fun k => f0 (C k)) k) with he
    have he0 : 0 ≤ e := len_nonneg _
    have h4 : 4 / 5 * m * (dti / (dti + h)) ≤ δ / h * e + δ / h * ((q / 2 + 1 + 1) * κ) := by
      have hpos : 0 ≤ e + (q / 2 + 1 + 1) * κ := add_nonneg he0 (mul_nonneg (by linarith) hκ)
      have h5 : 4 / 5 * m * dti ≤ δ * (n * (e + (q / 2 + 1 + 1) * κ)) :=
        hw0.trans (mul_le_mul_of_nonneg_left (by linarith) hδ)
      have h6 : 4 / 5 * m * dti ≤ δ * ((q + 1) * (e + (q / 2 + 1 + 1) * κ)) :=
        h5.trans (mul_le_mul_of_nonneg_left (mul_le_mul_of_nonneg_right hnq2.le hpos) hδ)
      have e1 : q + 1 = (dti + h) / h := by rw [hqd]; field_simp
      rw [e1] at h6
      have e2 : δ * ((dti + h) / h * (e + (q / 2 + 1 + 1) * κ)) =
        (δ / h * (e + (q / 2 + 1 + 1) * κ)) * (dti + h) := by ring
      rw [e2, ← div_le_iff₀ hden2] at h6
      have e3 : 4 / 5 * m * dti / (dti + h) = 4 / 5 * m * (dti / (dti + h)) := by ring
      linarith
    linarith

end Soil
