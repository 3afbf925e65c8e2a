import Verif.Model.Example
import Verif.Proof.Bends

/-! # The time steps of the example program -/

set_option linter.unusedSectionVars false

namespace Soil

theorem nodeAt_map {α : Type} (P : ℕ → α) {N : ℕ} {k : ℤ} (h0 : 0 ≤ k) (h1 : k ≤ N) :
    nodeAt ((List.range (N + 1)).map P) k = .ok (P k.toNat) := by
  unfold nodeAt
  rw [if_pos h0]
  have : k.toNat < N + 1 := by omega
  simp [this]

theorem timeIndex_eq (t h : ℝ) : timeIndex t h = .ok ⌈t / h⌉ := by
  unfold timeIndex
  simp only [ex_div, ex_ceil, castInt_exact, truncZ_intCast]

/-- Pose on the trajectory at a time -/
noncomputable def interp (P : ℕ → Vec3 ℝ × Vec3 ℝ) (h t : ℝ) : Vec3 ℝ × Quat ℝ :=
  let k := ⌈t / h⌉.toNat
  (lerp (P k).1 (P (k + 1)).1 (1 - (t / h - k)) (t / h - k),
    angleToQuat (lerp (P k).2 (P (k + 1)).2 (1 - (t / h - k)) (t / h - k)))

/-- x coordinate of the middle of the joint edge -/
noncomputable def midX (c : Corners ℝ) : ℝ := (c.jr.x + c.jl.x) / 2

/-- Consecutive corner samples are at most `L` apart with second differences of at most `κ`, and the middle of the joint
edge advances by `d` along X up to `r`. -/
structure Samples (C : ℕ → Corners ℝ) (N : ℕ) (L κ d r : ℝ) : Prop where
  lip : ∀ k < N, ∀ f ∈ cornerFns, len (vsub (f (C (k + 1))) (f (C k))) ≤ L
  bend : ∀ f ∈ cornerFns, Bends (fun k => f (C k)) N κ
  adv : ∀ k < N, |midX (C (k + 1)) - midX (C k) - d| ≤ r

theorem Samples.far {C : ℕ → Corners ℝ} {N : ℕ} {L κ d r : ℝ} (H : Samples C N L κ d r) (i n : ℕ) (hn : i + n ≤ N)
    {f : Corners ℝ → Vec3 ℝ} (hf : f ∈ cornerFns) : len (vsub (f (C (i + n))) (f (C i))) ≤ n * L := by
  induction n with
  | zero => simp [vsub, len, dot]
  | succ n ih =>
    rw [vsub_trans _ (f (C (i + n)))]
    refine (len_add_le _ _).trans ?_
    have := H.lip (i + n) (by omega) f hf
    have := ih (by omega)
    rw [show i + (n + 1) = i + n + 1 by ring]
    push_cast
    linarith

theorem Samples.mid {C : ℕ → Corners ℝ} {N : ℕ} {L κ d r : ℝ} (H : Samples C N L κ d r) (i n : ℕ) (hn : i + n ≤ N) :
    n * (d - r) ≤ midX (C (i + n)) - midX (C i) := by
  induction n with
  | zero => simp
  | succ n ih =>
    have h1 := (abs_le.mp (H.adv (i + n) (by omega))).1
    have h2 := ih (by omega)
    rw [show i + (n + 1) = i + n + 1 by ring]
    push_cast
    linarith

/-- Interpolated corners -/
noncomputable def lerpC (c d : Corners ℝ) (a b : ℝ) : Corners ℝ :=
  ⟨lerp c.jr d.jr a b, lerp c.jl d.jl a b, lerp c.br d.br a b, lerp c.bl d.bl a b,
    lerp c.tr d.tr a b, lerp c.tl d.tl a b⟩

theorem lerpC_fn {f : Corners ℝ → Vec3 ℝ} (hf : f ∈ cornerFns) (c d : Corners ℝ) (a b : ℝ) :
    f (lerpC c d a b) = lerp (f c) (f d) a b := by
  simp only [cornerFns, List.mem_cons, List.not_mem_nil, or_false] at hf
  rcases hf with rfl | rfl | rfl | rfl | rfl | rfl <;> rfl

theorem lerpCorners_eq (C : ℕ → Corners ℝ) {N : ℕ} {k : ℤ} (h0 : 0 ≤ k) (h1 : k + 1 ≤ N) (a b : ℝ) :
    lerpCorners ((List.range (N + 1)).map C) k a b = .ok (lerpC (C k.toNat) (C (k.toNat + 1)) a b) := by
  unfold lerpCorners
  rw [nodeAt_map C h0 (by omega), ok_bind, nodeAt_map C (by omega) h1, ok_bind]
  rw [show (k + 1).toNat = k.toNat + 1 by omega]
  rfl

theorem cornerVel_eq (p m : Vec3 ℝ) (t : ℝ) : cornerVel p m t = len (vsub p m) / t := by
  unfold cornerVel len dot vsub
  simp only [ex_add, ex_mul, ex_sub, ex_div, ex_sqrt]
  rfl

theorem maxBodyVel_le {p m : Corners ℝ} {t B : ℝ} (h : ∀ f ∈ cornerFns, len (vsub (f p) (f m)) / t ≤ B) :
    maxBodyVel p m t ≤ 5 / 4 * B := by
  unfold maxBodyVel
  simp only [FOps.maxL, List.foldl_cons, List.foldl_nil, ex_max, ex_mul, ex_ofRat, cornerVel_eq]
  simp only [cornerFns, List.mem_cons, List.not_mem_nil, or_false, forall_eq_or_imp, forall_eq] at h
  obtain ⟨h1, h2, h3, h4, h5, h6⟩ := h
  push_cast
  refine mul_le_mul_of_nonneg_left ?_ (by norm_num)
  simp only [max_le_iff]
  exact ⟨⟨⟨⟨⟨h2, h1⟩, h4⟩, h3⟩, h6⟩, h5⟩

theorem le_maxBodyVel {p m : Corners ℝ} {t B : ℝ} {f : Corners ℝ → Vec3 ℝ} (hf : f ∈ cornerFns)
    (h : B ≤ len (vsub (f p) (f m)) / t) : 5 / 4 * B ≤ maxBodyVel p m t := by
  unfold maxBodyVel
  simp only [FOps.maxL, List.foldl_cons, List.foldl_nil, ex_max, ex_mul, ex_ofRat, cornerVel_eq]
  push_cast
  refine mul_le_mul_of_nonneg_left ?_ (by norm_num)
  simp only [le_max_iff]
  simp only [cornerFns, List.mem_cons, List.not_mem_nil, or_false] at hf
  rcases hf with rfl | rfl | rfl | rfl | rfl | rfl <;> tauto

theorem lerp_diff (u u' v v' : Vec3 ℝ) (b : ℝ) : vsub (lerp u u' (1 - b) b) (lerp v v' (1 - b) b) =
    vadd (vsub u v) (vsmul b (vsub (vsub u' u) (vsub v' v))) := by
  unfold lerp vsub vadd vsmul
  simp only [ex_add, ex_mul]
  apply Vec3.ext' <;> dsimp only <;> ring

/-- Bounds on the measured velocity -/
theorem vel_bounds {C : ℕ → Corners ℝ} {N : ℕ} {L κ d r h dti b : ℝ} (H : Samples C N L κ d r) (hh : 0 < h)
    (hd : 2 * h ≤ dti) (hb0 : -1 ≤ b) (hb1 : b ≤ 0) {i n : ℕ} (hn : i + n + 1 ≤ N)
    (h1 : (n : ℝ) ≤ dti / h + 1) (h2 : dti / h - 1 < n) (hr : 0 ≤ r) (hdr : 2 * r ≤ d) :
    maxBodyVel (lerpC (C (i + n)) (C (i + n + 1)) (1 - b) b) (lerpC (C i) (C (i + 1)) (1 - b) b) dti ≤
      15 / 8 * ((L + κ) / h) ∧
    5 / 8 * ((d - 2 * r) / h) ≤
      maxBodyVel (lerpC (C (i + n)) (C (i + n + 1)) (1 - b) b) (lerpC (C i) (C (i + 1)) (1 - b) b) dti := by
  have hdti : 0 < dti := by linarith
  have hq : 2 ≤ dti / h := by rw [le_div_iff₀ hh]; exact hd
  have hL : 0 ≤ L := (len_nonneg _).trans (H.lip i (by omega) Corners.jr (by simp [cornerFns]))
  have hn2 : 2 ≤ n := by
    have : (1 : ℝ) < n := by linarith
    have : 1 < n := by exact_mod_cast this
    omega
  have hn2' : (2 : ℝ) ≤ n := by exact_mod_cast hn2
  have hκ : 0 ≤ κ := (H.bend Corners.jr (by simp [cornerFns])).nonneg (by omega)
  have ab : |b| ≤ 1 := abs_le.mpr ⟨hb0, by linarith⟩
  constructor
  · have := maxBodyVel_le (p := lerpC (C (i + n)) (C (i + n + 1)) (1 - b) b)
      (m := lerpC (C i) (C (i + 1)) (1 - b) b) (t := dti) (B := 3 / 2 * ((L + κ) / h)) ?_
    · linarith
    intro f hf
    rw [lerpC_fn hf, lerpC_fn hf, lerp_diff, div_le_iff₀ hdti]
    refine (len_add_le _ _).trans ?_
    rw [len_smul]
    have k1 := H.far i n (by omega) hf
    have k2 : len (vsub (vsub (f (C (i + n + 1))) (f (C (i + n)))) (vsub (f (C (i + 1))) (f (C i)))) ≤ n * κ :=
      (H.bend f hf).diff_le i n hn
    have k3 := mul_le_mul ab k2 (len_nonneg _) (by norm_num)
    have k4 : (n : ℝ) * (L + κ) ≤ 3 / 2 * (dti / h) * (L + κ) := by
      refine mul_le_mul_of_nonneg_right ?_ (by linarith)
      rcases Nat.lt_or_ge n 4 with h4 | h4
      · have : (n : ℝ) ≤ 3 := by exact_mod_cast Nat.le_of_lt_succ h4
        linarith
      · have : (4 : ℝ) ≤ n := by exact_mod_cast h4
        linarith
    have k5 : 3 / 2 * ((L + κ) / h) * dti = 3 / 2 * (dti / h) * (L + κ) := by ring
    rw [k5]
    linarith
  · have key : n * (d - 2 * r) ≤ (midX (C (i + n)) - midX (C i)) +
        b * ((midX (C (i + n + 1)) - midX (C (i + n))) - (midX (C (i + 1)) - midX (C i))) := by
      have m1 := H.mid i n (by omega)
      have m2 := abs_le.mp (H.adv (i + n) (by omega))
      have m3 := abs_le.mp (H.adv i (by omega))
      have m4 : |(midX (C (i + n + 1)) - midX (C (i + n))) - (midX (C (i + 1)) - midX (C i))| ≤ 2 * r :=
        abs_le.mpr ⟨by linarith [m2.1, m3.2], by linarith [m2.2, m3.1]⟩
      have m5 := mul_le_mul ab m4 (abs_nonneg _) (by norm_num)
      rw [← abs_mul] at m5
      have m6 := (abs_le.mp m5).1
      nlinarith [mul_le_mul_of_nonneg_right hn2' hr]
    have hnd : dti / (2 * h) * (d - 2 * r) ≤ n * (d - 2 * r) := by
      refine mul_le_mul_of_nonneg_right ?_ (by linarith)
      have : dti / (2 * h) = dti / h / 2 := by rw [mul_comm, div_mul_eq_div_div]
      rw [this]; linarith
    -- one of the two joint corners moves as far as their middle
    obtain ⟨f, hf, hfl⟩ : ∃ f ∈ cornerFns, n * (d - 2 * r) ≤
        len (vsub (f (lerpC (C (i + n)) (C (i + n + 1)) (1 - b) b)) (f (lerpC (C i) (C (i + 1)) (1 - b) b))) := by
      by_contra hcon
      push Not at hcon
      have c1 := hcon Corners.jr (by simp [cornerFns])
      have c2 := hcon Corners.jl (by simp [cornerFns])
      have a1 := (le_abs_self _).trans (abs_le_len (vsub (lerpC (C (i + n)) (C (i + n + 1)) (1 - b) b).jr
        (lerpC (C i) (C (i + 1)) (1 - b) b).jr)).1
      have a2 := (le_abs_self _).trans (abs_le_len (vsub (lerpC (C (i + n)) (C (i + n + 1)) (1 - b) b).jl
        (lerpC (C i) (C (i + 1)) (1 - b) b).jl)).1
      simp only [vsub, lerpC, lerp, ex_add, ex_mul] at a1 a2 c1 c2
      unfold midX at key
      nlinarith
    have := le_maxBodyVel (t := dti) (B := 1 / 2 * ((d - 2 * r) / h)) hf (by
      rw [le_div_iff₀ hdti]
      have e : 1 / 2 * ((d - 2 * r) / h) * dti = dti / (2 * h) * (d - 2 * r) := by field_simp
      rw [e]; linarith)
    linarith

/-- The time step `δ` computed at a time from the velocity measured over the time step `dti` -/
def Measured (C : ℕ → Corners ℝ) (N : ℕ) (d r h m time dti δ : ℝ) : Prop :=
  ∃ i n k : ℕ, i + n + 1 ≤ N ∧ k + 1 ≤ N ∧ (k : ℝ) = ⌈time / h⌉ ∧ (i : ℝ) = ⌈(time - 1 / 2 * dti) / h⌉ ∧
    (i : ℝ) + n = ⌈(time + 1 / 2 * dti) / h⌉ ∧
    δ * maxBodyVel (lerpC (C (i + n)) (C (i + n + 1)) (1 - (time / h - k)) (time / h - k))
      (lerpC (C i) (C (i + 1)) (1 - (time / h - k)) (time / h - k)) dti = m ∧
    5 * (d - 2 * r) * δ ≤ 8 * m * h

/-- One iteration of the time loop -/
theorem evoIter_ok {g : Grid ℝ} {P : ℕ → Vec3 ℝ × Vec3 ℝ} {C : ℕ → Corners ℝ} {N : ℕ} {L κ d r h time dti : ℝ}
    (H : Samples C N L κ d r) (hm : 0 < Min.min g.cellXY g.cellZ) (hh : 0 < h) (hN : N * h = 8)
    (hL : 15 / 4 * (L + κ) ≤ Min.min g.cellXY g.cellZ) (hr : 0 ≤ r)
    (hdr : 8 * Min.min g.cellXY g.cellZ * h ≤ d - 2 * r)
    (ht : 1 / 10 ≤ time) (hlt : time + dti < 8) (h1 : 2 * h ≤ dti) (h2 : dti ≤ 1 / 5) :
    ∃ dti', evoIter g ((List.range (N + 1)).map P) ((List.range (N + 1)).map C) h (1 / 5) time dti =
      .ok (interp P h time, time + dti', dti') ∧ 2 * h ≤ dti' ∧ dti' ≤ 1 / 5 ∧
      Measured C N d r h (Min.min g.cellXY g.cellZ) time dti dti' := by
  set m := Min.min g.cellXY g.cellZ with hmdef
  have hdti : 0 < dti := by linarith
  have hNh : (8 : ℝ) / h = N := by rw [← hN]; field_simp
  have hq : 2 ≤ dti / h := by rw [le_div_iff₀ hh]; exact h1
  have hpos : 0 < d - 2 * r := lt_of_lt_of_le (by positivity) hdr
  set kk := ⌈time / h⌉ with hkk
  set kp := ⌈(time + 1 / 2 * dti) / h⌉ with hkp
  set km := ⌈(time - 1 / 2 * dti) / h⌉ with hkm
  have t0 : 0 < time / h := by positivity
  have tp : (time + 1 / 2 * dti) / h = time / h + dti / h / 2 := by ring
  have tm : (time - 1 / 2 * dti) / h = time / h - dti / h / 2 := by ring
  have tl : time / h + dti / h < N := by rw [← hNh, ← add_div]; gcongr
  have tm0 : 0 ≤ (time - 1 / 2 * dti) / h := div_nonneg (by linarith) hh.le
  have k0 : 0 ≤ kk := Int.ceil_nonneg t0.le
  have k1 : kk + 1 ≤ N := by
    have : (kk : ℝ) < time / h + 1 := Int.ceil_lt_add_one _
    have : (kk : ℝ) + 1 < (N : ℤ) := by push_cast; linarith
    have : kk + 1 < N := by exact_mod_cast this
    omega
  have p1 : kp + 1 ≤ N := by
    have : (kp : ℝ) < (time + 1 / 2 * dti) / h + 1 := Int.ceil_lt_add_one _
    have : (kp : ℝ) < (N : ℤ) := by push_cast; linarith
    have : kp < N := by exact_mod_cast this
    omega
  have m0 : 0 ≤ km := Int.ceil_nonneg tm0
  have b1 : (kp : ℝ) < (time + 1 / 2 * dti) / h + 1 := Int.ceil_lt_add_one _
  have b2 : (time + 1 / 2 * dti) / h ≤ kp := Int.le_ceil _
  have b3 : (km : ℝ) < (time - 1 / 2 * dti) / h + 1 := Int.ceil_lt_add_one _
  have b4 : (time - 1 / 2 * dti) / h ≤ km := Int.le_ceil _
  have hle : km ≤ kp := by
    have : (km : ℝ) < kp + 1 := by linarith
    have : km < kp + 1 := by exact_mod_cast this
    omega
  obtain ⟨i, hi⟩ := Int.eq_ofNat_of_zero_le m0
  obtain ⟨n, hn⟩ := Int.eq_ofNat_of_zero_le (sub_nonneg.mpr hle)
  have hpn : kp = (i + n : ℕ) := by push_cast; omega
  have hnr : (n : ℝ) = kp - km := by
    have : (n : ℤ) = kp - km := hn.symm
    exact_mod_cast this
  set b := time / h - kk with hb
  have hb0 : -1 ≤ b := by
    have : (kk : ℝ) < time / h + 1 := Int.ceil_lt_add_one _
    linarith
  have hb1 : b ≤ 0 := by
    have : time / h ≤ kk := Int.le_ceil _
    linarith
  have ea : ((kk + 1 : ℤ) * h - time) / h = 1 - b := by rw [hb]; push_cast; field_simp; ring
  have eb : (time - kk * h) / h = b := by rw [hb]; field_simp
  obtain ⟨v1, v2⟩ := vel_bounds H hh h1 hb0 hb1 (i := i) (n := n) (by omega) (by linarith) (by linarith) hr
    (by linarith)
  set vel := maxBodyVel (lerpC (C (i + n)) (C (i + n + 1)) (1 - b) b) (lerpC (C i) (C (i + 1)) (1 - b) b) dti
    with hvel
  have vpos : 0 < vel := lt_of_lt_of_le (by positivity) v2
  have e4 : ((kk.toNat : ℕ) : ℝ) = kk := by
    have : ((kk.toNat : ℕ) : ℤ) = kk := Int.toNat_of_nonneg k0
    exact_mod_cast this
  refine ⟨m / vel, ?_, ?_, ?_, ?_⟩
  · have hle2 : m / vel ≤ 1 / 5 := by
      rw [div_le_iff₀ vpos]
      have : 8 * m ≤ (d - 2 * r) / h := by rw [le_div_iff₀ hh]; exact hdr
      linarith
    unfold evoIter
    simp only [timeIndex_eq, ok_bind, ex_ofInt, ex_mul, ex_sub, ex_div, ex_add, ex_ofRat]
    push_cast
    rw [← hkk, ← hkp, ← hkm, nodeAt_map P k0 (by omega), ok_bind, nodeAt_map P (by omega) k1, ok_bind]
    push_cast at ea
    rw [ea, eb, lerpCorners_eq C (by omega) p1, ok_bind, lerpCorners_eq C m0 (by omega), ok_bind]
    have e1 : kp.toNat = i + n := by omega
    have e2 : km.toNat = i := by omega
    rw [e1, e2, ← hvel]
    have hne : vel ≠ 0 := vpos.ne'
    simp only [ex_ne, ex_zero, ex_min, ex_lt]
    have hd1 : decide (vel ≠ 0) = true := decide_eq_true hne
    have hd2 : ¬ decide ((1 : ℝ) / 5 < m / vel) = true := by rw [decide_eq_true_eq]; exact not_lt.mpr hle2
    simp only [← hmdef, hd1, if_true, if_neg hd2]
    have e3 : (kk + 1).toNat = kk.toNat + 1 := by omega
    unfold interp
    dsimp only
    rw [e3, ← hkk, e4, ← hb]
    rfl
  · rw [le_div_iff₀ vpos]
    have : 15 / 8 * ((L + κ) / h) * (2 * h) = 15 / 4 * (L + κ) := by field_simp; ring
    nlinarith
  · rw [div_le_iff₀ vpos]
    have : 8 * m ≤ (d - 2 * r) / h := by rw [le_div_iff₀ hh]; exact hdr
    linarith
  · refine ⟨i, n, kk.toNat, by omega, by omega, e4, ?_, ?_, ?_, ?_⟩
    · exact_mod_cast congrArg (Int.cast (R := ℝ)) hi.symm
    · rw [← hkp, hpn]; push_cast; rfl
    · rw [e4, ← hb, ← hvel, div_mul_cancel₀ _ vpos.ne']
    · have h3 : 5 / 8 * (d - 2 * r) ≤ vel * h := by
        have := mul_le_mul_of_nonneg_right v2 hh.le
        rwa [mul_assoc, div_mul_cancel₀ _ hh.ne'] at this
      have h4 := mul_le_mul_of_nonneg_left h3 (div_nonneg hm.le vpos.le)
      have h5 : m / vel * (vel * h) = m * h := by field_simp
      rw [h5] at h4
      linarith

/-- The time loop -/
theorem evoLoop_ok {g : Grid ℝ} {P : ℕ → Vec3 ℝ × Vec3 ℝ} {C : ℕ → Corners ℝ} {N : ℕ} {L κ d r h : ℝ}
    (H : Samples C N L κ d r) (hm : 0 < Min.min g.cellXY g.cellZ) (hh : 0 < h) (hN : N * h = 8)
    (hL : 15 / 4 * (L + κ) ≤ Min.min g.cellXY g.cellZ) (hr : 0 ≤ r)
    (hdr : 8 * Min.min g.cellXY g.cellZ * h ≤ d - 2 * r) (n : ℕ) :
    ∀ time dti, 1 / 10 ≤ time → 2 * h ≤ dti → dti ≤ 1 / 5 → 8 - time ≤ n * (2 * h) →
      ∃ ts : List ℝ, (∀ fuel, n ≤ fuel →
        evoLoop g ((List.range (N + 1)).map P) ((List.range (N + 1)).map C) h (1 / 5) 8 fuel time dti =
          .ok (ts.map fun t => (t, interp P h t))) ∧
        (∀ t ∈ ts, time ≤ t ∧ t + 2 * h < 8) ∧
        List.IsChain (fun a b => a + 2 * h ≤ b ∧ b ≤ a + 1 / 5) ts ∧
        (time + dti < 8 → ts.head? = some time) ∧
        (∀ t, ts.getLast? = some t → 8 - 2 / 5 ≤ t) := by
  induction n with
  | zero =>
    intro time dti ht h1 h2 hn
    refine ⟨[], fun fuel _ => ?_, by simp, by simp, fun h => ?_, ?_⟩
    · unfold evoLoop
      simp only [ex_add, ex_lt, decide_eq_true_eq]
      rw [if_neg (by push_cast at hn; linarith)]
      rfl
    · push_cast at hn; linarith
    · simp
  | succ n ih =>
    intro time dti ht h1 h2 hn
    by_cases hlt : time + dti < 8
    · obtain ⟨dti', he, d1, d2, -⟩ := evoIter_ok (P := P) H hm hh hN hL hr hdr ht hlt h1 h2
      obtain ⟨ts, e1, e2, e3, e4, e5⟩ := ih (time + dti') dti' (by linarith) d1 d2 (by push_cast at hn; linarith)
      refine ⟨time :: ts, fun fuel hf => ?_, ?_, ?_, fun _ => rfl, ?_⟩
      · obtain ⟨k, rfl⟩ : ∃ k, fuel = k + 1 := ⟨fuel - 1, by omega⟩
        unfold evoLoop
        simp only [ex_add, ex_lt, decide_eq_true_eq]
        rw [if_pos hlt, he, ok_bind]
        dsimp only
        rw [e1 k (by omega), ok_bind]
        rfl
      · intro t htm
        rcases List.mem_cons.mp htm with rfl | htm
        · exact ⟨le_refl _, by linarith⟩
        · exact ⟨by linarith [(e2 t htm).1], (e2 t htm).2⟩
      · cases ts with
        | nil => simp
        | cons a ts =>
          refine List.isChain_cons_cons.mpr ⟨?_, e3⟩
          by_cases hlt' : time + dti' + dti' < 8
          · have := e4 hlt'
            simp at this
            rw [this]
            constructor <;> linarith
          · exfalso
            have := e1 n le_rfl
            unfold evoLoop at this
            simp only [ex_add, ex_lt, decide_eq_true_eq] at this
            rw [if_neg hlt'] at this
            simp at this
      · cases ts with
        | nil =>
          intro t htl
          have hlt' : ¬ time + dti' + dti' < 8 := fun hc => by simpa using e4 hc
          simp at htl
          linarith
        | cons a ts => simpa using e5
    · refine ⟨[], fun fuel _ => ?_, by simp, by simp, fun h => absurd h hlt, ?_⟩
      · unfold evoLoop
        simp only [ex_add, ex_lt, decide_eq_true_eq]
        rw [if_neg hlt]
        rfl
      · simp

end Soil
