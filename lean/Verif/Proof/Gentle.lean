import Verif.Proof.Moves

/-! # The trajectory of the example program is smooth on the scale of a cell -/

set_option linter.unusedSectionVars false

namespace Soil

section

variable {body : Body ℝ} {xi zi xmin zmin o m R V B κ : ℝ} {n : ℕ}

theorem Gentle.npos (H : Gentle body m (xmin - xi) |zi - zmin| R V B κ n) : (0 : ℝ) < n := by
  have := H.samples
  exact_mod_cast (by omega : 0 < n)

theorem Gentle.bends (H : Gentle body m (xmin - xi) |zi - zmin| R V B κ n) {f : Corners ℝ → Vec3 ℝ}
    (hf : f ∈ cornerFns) : Bends (fun k => f (evoCorners body (node xi zi xmin zmin o n k))) n κ := by
  intro k hk
  refine (node_bends H.toPaced hf k hk).trans ?_
  rw [div_le_iff₀ (pow_pos H.npos 2)]
  exact H.bend

theorem Gentle.lip (H : Gentle body m (xmin - xi) |zi - zmin| R V B κ n) {f : Corners ℝ → Vec3 ℝ}
    (hf : f ∈ cornerFns) {k : ℕ} (hk : k < n) :
    len (diff (fun k => f (evoCorners body (node xi zi xmin zmin o n k))) k) ≤
      (V + 4 * R * |zi - zmin| / (xmin - xi)) / n := by
  refine (node_lip H.toPaced hf hk).trans ?_
  have : Real.sqrt ((2 * (xmin - xi)) ^ 2 + (4 * |zi - zmin|) ^ 2) ≤ V := by
    rw [Real.sqrt_le_left H.pos.1]; exact H.speed
  have := H.npos
  gcongr

/-- The corners for an interpolated pose -/
theorem node_between (H : Gentle body m (xmin - xi) |zi - zmin| R V B κ n) {f : Corners ℝ → Vec3 ℝ}
    (hf : f ∈ cornerFns) {h t : ℝ} {k : ℕ} (hk : (k : ℝ) = ⌈t / h⌉) (hkn : k + 1 ≤ n) :
    len (vsub (f (calcBodyCornerPos (interp (node xi zi xmin zmin o n) h t).1
      (interp (node xi zi xmin zmin o n) h t).2 body))
      (along (fun k => f (evoCorners body (node xi zi xmin zmin o n k))) k (t / h - k))) ≤ κ / 2 := by
  have hx : xi < xmin := sub_pos.mp H.dist
  have hD := H.dist
  have hn' := H.npos
  have hn : 0 < n := by exact_mod_cast hn'
  have hkc : ⌈t / h⌉.toNat = k := by
    have : (k : ℤ) = ⌈t / h⌉ := by exact_mod_cast hk
    omega
  have hb0 : -1 ≤ t / h - k := by
    have := Int.ceil_lt_add_one (t / h)
    linarith
  have hb1 : t / h - k ≤ 0 := by
    have := Int.le_ceil (t / h)
    linarith
  unfold interp
  dsimp only
  rw [hkc]
  set b := t / h - k with hb
  obtain ⟨-, -, s3⟩ := node_step (o := o) (zi := zi) (zmin := zmin) hx hn (by omega : k < n)
  unfold along diff
  simp only [node_fn _ hf]
  set p := node xi zi xmin zmin o n k with hp
  set p' := node xi zi xmin zmin o n (k + 1) with hp'
  have hl : lerp p.2 p'.2 (1 - b) b = ⟨0, p.2.y * (1 - b) + p'.2.y * b, 0⟩ := by
    unfold lerp
    simp only [ex_add, ex_mul]
    apply Vec3.ext'
    · simp [hp, hp', node]
    · rfl
    · simp [hp, hp', node]
  rw [hl, ← evoCorners_eq, evoCorners_fn _ _ _ hf]
  set v := f (refCorners body)
  have r := rotY_between (a := -p.2.y) (c := -p'.2.y) (b := b)
    (by rw [show -p'.2.y - -p.2.y = -(p'.2.y - p.2.y) by ring, abs_neg]; exact s3) H.angle hb0 hb1 (flat v)
  have e : vsub (vadd (rotY (-(p.2.y * (1 - b) + p'.2.y * b)) v) (lerp p.1 p'.1 (1 - b) b))
      (vadd (vadd (rotY (-p.2.y) v) p.1) (vsmul b (vsub (vadd (rotY (-p'.2.y) v) p'.1) (vadd (rotY (-p.2.y) v) p.1)))) =
      vsub (rotY (-p.2.y * (1 - b) + -p'.2.y * b) (flat v))
        (vadd (rotY (-p.2.y) (flat v)) (vsmul b (vsub (rotY (-p'.2.y) (flat v)) (rotY (-p.2.y) (flat v))))) := by
    rw [show -p.2.y * (1 - b) + -p'.2.y * b = -(p.2.y * (1 - b) + p'.2.y * b) by ring]
    simp only [rotY_flat _ v]
    unfold vsub vadd vsmul lerp
    simp only [ex_add, ex_mul]
    apply Vec3.ext' <;> dsimp only <;> ring
  rw [e]
  refine r.trans ?_
  set Δ := 4 * |zi - zmin| / ((xmin - xi) * n) with hΔ
  have r2 := mul_le_mul_of_nonneg_left (refCorners_len H.toPaced hf) (by positivity : 0 ≤ 2 * Δ ^ 2)
  have hbend := H.bend
  have e4 : 2 * Δ ^ 2 * R = (64 * R * |zi - zmin| ^ 2 / (xmin - xi) ^ 2) / n ^ 2 / 2 := by
    rw [hΔ]; have : xmin - xi ≠ 0 := hD.ne'; field_simp; ring
  have h3 : (64 * R * |zi - zmin| ^ 2 / (xmin - xi) ^ 2) / n ^ 2 ≤ κ := by
    rw [div_le_iff₀ (by positivity)]
    linarith [abs_nonneg (zi - zmin)]
  linarith

end

/-- Consecutive poses of the time loop are related if every single time step relates them. -/
theorem evoLoop_chain {g : Grid ℝ} {P : ℕ → Vec3 ℝ × Vec3 ℝ} {C : ℕ → Corners ℝ} {N : ℕ} {L κ d r h : ℝ}
    (H : Samples C N L κ d r) (hm : 0 < Min.min g.cellXY g.cellZ) (hh : 0 < h) (hN : N * h = 8)
    (hL : 15 / 4 * (L + κ) ≤ Min.min g.cellXY g.cellZ) (hr : 0 ≤ r)
    (hdr : 8 * Min.min g.cellXY g.cellZ * h ≤ d - 2 * r) {J : ℝ → Prop}
    {Rel : Vec3 ℝ × Quat ℝ → Vec3 ℝ × Quat ℝ → Prop}
    (hR : ∀ time dti δ, 1 / 10 ≤ time → J dti → Measured C N d r h (Min.min g.cellXY g.cellZ) time dti δ →
      2 * h ≤ δ → time + δ + δ < 8 → J δ ∧ Rel (interp P h time) (interp P h (time + δ))) (fuel : ℕ) :
    ∀ time dti l, 1 / 10 ≤ time → 2 * h ≤ dti → dti ≤ 1 / 5 → J dti →
      evoLoop g ((List.range (N + 1)).map P) ((List.range (N + 1)).map C) h (1 / 5) 8 fuel time dti = .ok l →
      List.IsChain Rel (l.map (·.2)) ∧ ∀ q ∈ l.head?, q.2 = interp P h time ∧ time + dti < 8 := by
  induction fuel with
  | zero =>
    intro time dti l ht h1 h2 hJ he
    unfold evoLoop at he
    split_ifs at he
    cases he
    simp
  | succ fuel ih =>
    intro time dti l ht h1 h2 hJ he
    unfold evoLoop at he
    simp only [ex_add, ex_lt, decide_eq_true_eq] at he
    split_ifs at he with hlt
    · obtain ⟨dti', hi, d1, d2, hM⟩ := evoIter_ok (P := P) H hm hh hN hL hr hdr ht hlt h1 h2
      rw [hi, ok_bind] at he
      dsimp only at he
      obtain ⟨rest, hrest, he⟩ := bind_eq_ok.mp he
      cases he
      by_cases hlt' : time + dti' + dti' < 8
      · obtain ⟨hJ', hrel⟩ := hR time dti dti' ht hJ hM d1 hlt'
        obtain ⟨c1, c2⟩ := ih _ _ _ (by linarith) d1 d2 hJ' hrest
        refine ⟨?_, by simp [hlt]⟩
        cases rest with
        | nil => simp
        | cons q rest =>
          rw [List.map_cons, List.map_cons]
          refine List.isChain_cons_cons.mpr ⟨?_, by simpa using c1⟩
          rw [(c2 q (by simp)).1]
          exact hrel
      · unfold evoLoop at hrest
        simp only [ex_add, ex_lt, decide_eq_true_eq] at hrest
        rw [if_neg hlt'] at hrest
        cases hrest
        simp [hlt]
    · cases he
      simp

end Soil
