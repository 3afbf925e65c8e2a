import Verif.Proof.Gentle
import Verif.Props.Evolution

/-! # Property C54, continued: how far the body moves between the poses of the example program -/

set_option linter.unusedSectionVars false

namespace Soil

/-- The body at a pose -/
noncomputable def atPose (body : Body ℝ) (q : Vec3 ℝ × Quat ℝ) : Body ℝ := { body with pos := q.1, ori := q.2 }

theorem edist3_len (a b : Vec3 ℝ) : edist3 a b = len (vsub b a) := by
  rw [len_comm]; rfl

/-- The poses of the example program, up to the relation of consecutive ones -/
theorem evolution_chain {g : Grid ℝ} {body : Body ℝ} {xi zi xmin zmin o R : ℝ} {n : ℕ}
    (hz : xmin = 0 ∨ zi ≠ zmin)
    (H : Paced body (Min.min g.cellXY g.cellZ) (xmin - xi) |zi - zmin| R n) {J : ℝ → Prop}
    {Rel : Vec3 ℝ × Quat ℝ → Vec3 ℝ × Quat ℝ → Prop}
    (hJ : J (1 / 10))
    (hR : ∀ time dti δ, 1 / 10 ≤ time → J dti →
      Measured (fun k => evoCorners body (node xi zi xmin zmin o n k)) n (2 * (xmin - xi) / n)
        (4 * len body.jInit * |zi - zmin| / ((xmin - xi) * n)) (8 / n) (Min.min g.cellXY g.cellZ) time dti δ →
      2 * (8 / n) ≤ δ → time + δ + δ < 8 →
      J δ ∧ Rel (interp (node xi zi xmin zmin o n) (8 / n) time) (interp (node xi zi xmin zmin o n) (8 / n) (time + δ)))
    {fuel : ℕ} {times : List ℝ} {poses : List (Vec3 ℝ × Quat ℝ)}
    (he : evolution fuel g body (calcTrajectory xi zi xmin zmin o (n + 1)) = .ok (times, poses)) :
    ∃ rest last, poses = ((node xi zi xmin zmin o n 0).1, angleToQuat (node xi zi xmin zmin o n 0).2) ::
        (interp (node xi zi xmin zmin o n) (8 / n) (1 / 10) :: rest) ++ [last] ∧
      List.IsChain Rel (interp (node xi zi xmin zmin o n) (8 / n) (1 / 10) :: rest) := by
  have hx : xi < xmin := sub_pos.mp H.dist
  have hD := H.dist
  have hn : 0 < n := by have := H.many; omega
  have hn' : (0 : ℝ) < n := by exact_mod_cast hn
  have h160 : (160 : ℝ) ≤ n := by exact_mod_cast H.many
  have hh : (0 : ℝ) < 8 / n := by positivity
  have hS := node_samples (o := o) H
  have h2h : 2 * (8 / (n : ℝ)) ≤ 1 / 10 := by
    have : 2 * (8 / (n : ℝ)) = 16 / n := by ring
    rw [this, div_le_iff₀ hn']; linarith
  unfold evolution at he
  rw [calcTrajectory_eq hx.ne hz] at he
  simp only [List.length_map, List.length_range, List.map_map, ex_ofRat, ex_div, ex_ofInt] at he
  push_cast at he
  rw [nodeAt_map _ le_rfl (by positivity), ok_bind] at he
  have ee : (8 : ℝ) / ((n : ℝ) + 1 - 1) = 8 / n := by rw [add_sub_cancel_right]
  rw [ee] at he
  obtain ⟨l, hl, he⟩ := bind_eq_ok.mp he
  obtain ⟨last, -, he⟩ := bind_eq_ok.mp he
  cases he
  obtain ⟨c1, c2⟩ := evoLoop_chain (g := g) (P := node xi zi xmin zmin o n) (J := J) (Rel := Rel) hS H.size hh
    (by field_simp) (by
      have := H.fine
      rw [pow_two (n : ℝ), ← div_div, ← add_div, ← mul_div_assoc, div_le_iff₀ hn']; linarith)
    (by have := len_nonneg body.jInit; positivity) (by
      have := H.quick
      have ea : 8 * Min.min g.cellXY g.cellZ * (8 / (n : ℝ)) = 64 * Min.min g.cellXY g.cellZ / n := by ring
      have eb : 2 * (xmin - xi) / n - 2 * (4 * len body.jInit * |zi - zmin| / ((xmin - xi) * n)) =
          (2 * (xmin - xi) - 8 * len body.jInit * |zi - zmin| / (xmin - xi)) / n := by field_simp; ring
      rw [ea, eb]
      gcongr) hR fuel (1 / 10) (1 / 10) l le_rfl h2h (by norm_num) hJ hl
  cases l with
  | nil =>
    exfalso
    unfold evoLoop at hl
    simp only [ex_add, ex_lt, decide_eq_true_eq] at hl
    rw [if_pos (by norm_num)] at hl
    cases fuel with
    | zero => cases hl
    | succ fuel =>
      dsimp only at hl
      obtain ⟨a, -, hl⟩ := bind_eq_ok.mp hl
      obtain ⟨b, -, hl⟩ := bind_eq_ok.mp hl
      cases hl
  | cons q l =>
    have := (c2 q (by simp)).1
    refine ⟨l.map (·.2), (last.1, angleToQuat last.2), ?_, ?_⟩
    · rw [List.map_cons, this]; rfl
    · rw [List.map_cons, this] at c1; exact c1

/-- **C54**. Apart from the jump at the start and the one at the end, consecutive poses of the example program are
between half a cell and one cell apart: no vertex of the body moves further than the smaller cell size, some vertex
moves at least half of it, so that every step of the simulator is carried out, without a warning. -/
theorem C54_moves (g : Grid ℝ) (body : Body ℝ) (xi zi xmin zmin o R V B κ : ℝ) (n : ℕ)
    (hz : xmin = 0 ∨ zi ≠ zmin)
    (H : Gentle body (Min.min g.cellXY g.cellZ) (xmin - xi) |zi - zmin| R V B κ n)
    (fuel : ℕ) (times : List ℝ) (poses : List (Vec3 ℝ × Quat ℝ))
    (he : evolution fuel g body (calcTrajectory xi zi xmin zmin o (n + 1)) = .ok (times, poses)) :
    List.IsChain (fun q q' =>
      (∀ f ∈ cornerFns, edist3 (f (calcBodyCornerPos q.1 q.2 body)) (f (calcBodyCornerPos q'.1 q'.2 body)) ≤
        Min.min g.cellXY g.cellZ) ∧
      (∃ f ∈ cornerFns, 1 / 2 * Min.min g.cellXY g.cellZ ≤
        edist3 (f (calcBodyCornerPos q.1 q.2 body)) (f (calcBodyCornerPos q'.1 q'.2 body))) ∧
      checkBodyMovement q'.1 q'.2 g (atPose body q) = (true, [])) poses.tail.dropLast := by
  set m := Min.min g.cellXY g.cellZ with hm
  have hx : xi < xmin := sub_pos.mp H.dist
  have hD := H.dist
  have hn' := H.npos
  have h1600 : (1600 : ℝ) ≤ n := by exact_mod_cast H.samples
  have hm0 : 0 < m := H.size
  have hh : (0 : ℝ) < 8 / n := by positivity
  have hκ : 0 ≤ κ := (H.bends (o := o) (f := Corners.jr) (by simp [cornerFns])).nonneg (by
    have := H.samples; omega)
  have hB := H.pos.2
  have hquick : 0 < 2 * (xmin - xi) - 8 * len body.jInit * |zi - zmin| / (xmin - xi) := by
    have := H.quick
    linarith
  refine Exists.elim (evolution_chain (o := o) (Rel := fun q q' =>
      (∀ f ∈ cornerFns, edist3 (f (calcBodyCornerPos q.1 q.2 body)) (f (calcBodyCornerPos q'.1 q'.2 body)) ≤ m) ∧
      (∃ f ∈ cornerFns, 1 / 2 * m ≤
        edist3 (f (calcBodyCornerPos q.1 q.2 body)) (f (calcBodyCornerPos q'.1 q'.2 body))) ∧
      checkBodyMovement q'.1 q'.2 g (atPose body q) = (true, []))
    (J := fun dti => (15 / 2 * (8 / n) ≤ dti ∧ dti ≤ B * (8 / n)) ∨ dti = 1 / 10) hz H.toPaced (Or.inr rfl) ?_ he) ?_
  rotate_left
  · rintro rest ⟨last, rfl, hc⟩
    rw [List.cons_append, List.tail_cons, List.dropLast_concat]
    exact hc
  intro time dti δ ht hJ hM hδ hlt
  have hδB : δ ≤ B * (8 / n) := by
    obtain ⟨-, -, -, -, -, -, -, -, -, h⟩ := hM
    have eb : 2 * (xmin - xi) / n - 2 * (4 * len body.jInit * |zi - zmin| / ((xmin - xi) * n)) =
        (2 * (xmin - xi) - 8 * len body.jInit * |zi - zmin| / (xmin - xi)) / n := by field_simp; ring
    rw [eb] at h
    have hfar := H.far
    set S := 2 * (xmin - xi) - 8 * len body.jInit * |zi - zmin| / (xmin - xi)
    have h1 : 5 * (S / n) * δ ≤ 5 * (S / n) * (B * (8 / n)) := by
      refine h.trans ?_
      have e1 : 8 * m * (8 / (n : ℝ)) = 8 * m * n * (8 / n ^ 2) := by field_simp
      have e2 : 5 * (S / n) * (B * (8 / (n : ℝ))) = 5 * B * S * (8 / n ^ 2) := by field_simp
      rw [e1, e2]
      exact mul_le_mul_of_nonneg_right hfar (by positivity)
    exact le_of_mul_le_mul_left h1 (by positivity)
  have hδ0 : 0 ≤ δ := by linarith
  have hN : (n : ℝ) * (8 / n) = 8 := by field_simp
  -- the bound on the previous time step and on the sampling error
  obtain ⟨E, hq, hE, hup, hlo⟩ : ∃ E, 15 / 2 * (8 / (n : ℝ)) ≤ dti ∧
      (B * (dti / (8 / n) / 2 + 2) + (B + 1) ^ 2 / 2 + (B + 1) + 1) * κ ≤ E ∧
      4 / 5 * m * (dti / (dti - 8 / n)) + E ≤ m ∧ 1 / 2 * m ≤ 4 / 5 * m * (dti / (dti + 8 / n)) - E := by
    rcases hJ with ⟨j1, j2⟩ | rfl
    · refine ⟨m / 13, j1, ?_, ?_, ?_⟩
      · refine le_trans (mul_le_mul_of_nonneg_right ?_ hκ) H.smooth
        have : dti / (8 / (n : ℝ)) ≤ B := by rw [div_le_iff₀ hh]; exact j2
        have := mul_le_mul_of_nonneg_left this hB
        nlinarith
      · have : dti / (dti - 8 / n) ≤ 15 / 13 := by
          rw [div_le_iff₀ (by linarith)]; linarith
        nlinarith
      · have : 15 / 17 ≤ dti / (dti + 8 / n) := by
          rw [le_div_iff₀ (by linarith)]; linarith
        nlinarith
    · have h20 : 20 * (8 / (n : ℝ)) ≤ 1 / 10 := by
        have : 20 * (8 / (n : ℝ)) = 160 / n := by ring
        rw [this, div_le_iff₀ hn']; linarith
      refine ⟨3 * m / 20, by linarith, ?_, ?_, ?_⟩
      · refine le_trans (le_of_eq ?_) H.start
        have : (1 : ℝ) / 10 / (8 / n) / 2 = n / 160 := by field_simp; norm_num
        rw [this]
      · have : (1 : ℝ) / 10 / (1 / 10 - 8 / n) ≤ 20 / 19 := by
          rw [div_le_iff₀ (by linarith)]; linarith
        nlinarith
      · have : 20 / 21 ≤ (1 : ℝ) / 10 / (1 / 10 + 8 / n) := by
          rw [le_div_iff₀ (by linarith)]; linarith
        nlinarith
  obtain ⟨m1, m2, f0, hf0, m3⟩ := measured_move (C := fun k => evoCorners body (node xi zi xmin zmin o n k))
    (X := fun f t => f (calcBodyCornerPos (interp (node xi zi xmin zmin o n) (8 / n) t).1
      (interp (node xi zi xmin zmin o n) (8 / n) t).2 body)) (B := B) (E := E) (κ := κ) hm0 hh hκ
    (fun f hf => H.bends hf) (fun f hf k hk => H.lip hf hk)
    (fun f hf t k hk hkn => node_between H hf hk hkn) hM hδ0 hδB hq (by linarith) (by rw [hN]; linarith) hE H.slow
  have r1 : ∀ f ∈ cornerFns, edist3 (f (calcBodyCornerPos (interp (node xi zi xmin zmin o n) (8 / n) time).1
      (interp (node xi zi xmin zmin o n) (8 / n) time).2 body))
      (f (calcBodyCornerPos (interp (node xi zi xmin zmin o n) (8 / n) (time + δ)).1
      (interp (node xi zi xmin zmin o n) (8 / n) (time + δ)).2 body)) ≤ m := fun f hf => by
    rw [edist3_len]; exact (m2 f hf).trans hup
  have r2 := hlo.trans m3
  rw [← edist3_len] at r2
  refine ⟨Or.inl ⟨m1, hδB⟩, r1, ⟨f0, hf0, r2⟩, ?_⟩
  set q := interp (node xi zi xmin zmin o n) (8 / n) time
  set q' := interp (node xi zi xmin zmin o n) (8 / n) (time + δ)
  refine Prod.ext ?_ ?_
  · refine Bool.not_eq_false _ |>.mp fun hf => ?_
    have := (C10_no_movement_iff q'.1 q'.2 g (atPose body q)).mp hf f0 hf0
    exact absurd r2 (not_le.mpr this)
  · rw [C10_warning_iff _ _ _ _ hm0, if_neg]
    rintro ⟨f, hf, hlt⟩
    have h1 : 2 * m < m := lt_of_lt_of_le hlt (r1 f hf)
    linarith

/-- **C54**. The first time step of the example program is 0.1 whatever the cell size is, so that the body jumps by a
fortieth of the half length of the trajectory. If this is more than two cells, the second pose gives the warning about
large movements. -/
theorem C54_first_jump (g : Grid ℝ) (body : Body ℝ) (xi zi xmin zmin o R : ℝ) (n : ℕ) (hn : 1600 ≤ n)
    (hz : xmin = 0 ∨ zi ≠ zmin)
    (H : Paced body (Min.min g.cellXY g.cellZ) (xmin - xi) |zi - zmin| R n)
    (hj : 2 * Min.min g.cellXY g.cellZ < (xmin - xi) / 40 - 11 / 200 * len body.jInit * |zi - zmin| / (xmin - xi))
    (fuel : ℕ) (times : List ℝ) (poses : List (Vec3 ℝ × Quat ℝ))
    (he : evolution fuel g body (calcTrajectory xi zi xmin zmin o (n + 1)) = .ok (times, poses)) :
    ∃ q q' rest, poses = q :: q' :: rest ∧
      checkBodyMovement q'.1 q'.2 g (atPose body q) = (true, [.largeMovement]) := by
  have hx : xi < xmin := sub_pos.mp H.dist
  have hD := H.dist
  have hm0 := H.size
  have hn0 : 0 < n := by omega
  have hn' : (0 : ℝ) < n := by exact_mod_cast hn0
  have h1600 : (1600 : ℝ) ≤ n := by exact_mod_cast hn
  obtain ⟨rest, last, rfl, -⟩ := evolution_chain (o := o) (Rel := fun _ _ => True) (J := fun _ => True) hz H trivial
    (fun _ _ _ _ _ _ _ _ => ⟨trivial, trivial⟩) he
  refine ⟨_, _, rest ++ [last], rfl, ?_⟩
  obtain ⟨z, ψ, e1, -, e3⟩ := interp_node (o := o) (zi := zi) (zmin := zmin) (t := 1 / 10) hx hn0 (by norm_num) (by
    have : 2 * (8 / (n : ℝ)) ≤ 1 := by
      have : 2 * (8 / (n : ℝ)) = 16 / n := by ring
      rw [this, div_le_iff₀ hn']; linarith
    linarith)
  rw [e1]
  set x := xi + 1 / 10 / 8 * (2 * (xmin - xi)) with hxd
  set a := node xi zi xmin zmin o n 0 with ha
  have ex : x - xi = (xmin - xi) / 40 := by rw [hxd]; ring
  -- the angle changes little
  have hψ : |ψ - a.2.y| ≤ 11 / 200 * |zi - zmin| / (xmin - xi) := by
    have ea : a.2.y = Real.arctan (2 * (zi - zmin) * (xi - xmin) / (xmin - xi) ^ 2) - o := by
      rw [ha]; simp only [node, Nat.cast_zero, zero_mul, add_zero]
      rw [show (xi - xmin) ^ 2 = (xmin - xi) ^ 2 by ring]
    have l := arctan_lip (2 * (zi - zmin) * (x - xmin) / (xmin - xi) ^ 2) (2 * (zi - zmin) * (xi - xmin) / (xmin - xi) ^ 2)
    have el : 2 * (zi - zmin) * (x - xmin) / (xmin - xi) ^ 2 - 2 * (zi - zmin) * (xi - xmin) / (xmin - xi) ^ 2 =
        (zi - zmin) * (1 / (20 * (xmin - xi))) := by
      have : x - xmin = (xmin - xi) / 40 + (xi - xmin) := by linarith
      rw [this]
      have : xmin - xi ≠ 0 := hD.ne'
      field_simp; ring
    rw [el, abs_mul, abs_of_pos (by positivity : (0 : ℝ) < 1 / (20 * (xmin - xi)))] at l
    have h8 : 8 * |zi - zmin| / ((xmin - xi) * n) ≤ |zi - zmin| * (1 / (200 * (xmin - xi))) := by
      rw [mul_one_div, div_le_div_iff₀ (by positivity) (by positivity)]
      have := mul_le_mul_of_nonneg_left h1600 (by positivity : 0 ≤ |zi - zmin| * (xmin - xi))
      linarith
    have es : |zi - zmin| * (1 / (20 * (xmin - xi))) + |zi - zmin| * (1 / (200 * (xmin - xi))) =
        11 / 200 * |zi - zmin| / (xmin - xi) := by
      have : xmin - xi ≠ 0 := hD.ne'
      field_simp; ring
    rw [← es, ea]
    have et : ψ - (Real.arctan (2 * (zi - zmin) * (xi - xmin) / (xmin - xi) ^ 2) - o) =
        (Real.arctan (2 * (zi - zmin) * (x - xmin) / (xmin - xi) ^ 2) -
          Real.arctan (2 * (zi - zmin) * (xi - xmin) / (xmin - xi) ^ 2)) +
        (ψ - (Real.arctan (2 * (zi - zmin) * (x - xmin) / (xmin - xi) ^ 2) - o)) := by ring
    rw [et]
    exact (abs_add_le _ _).trans (add_le_add l (e3.trans h8))
  -- one of the two joint corners moves as far as their middle
  have hfn : ∀ (p : Vec3 ℝ) (t : ℝ) {f : Corners ℝ → Vec3 ℝ}, f ∈ cornerFns →
      f (calcBodyCornerPos p (angleToQuat ⟨0, t, 0⟩) body) = vadd (rotY (-t) (f (refCorners body))) p := by
    intro p t f hf
    rw [← evoCorners_eq]; exact evoCorners_fn _ _ _ hf
  have ea2 : a.2 = ⟨0, a.2.y, 0⟩ := rfl
  have hfar : ∃ f ∈ cornerFns, 2 * Min.min g.cellXY g.cellZ <
      edist3 (f (calcBodyCornerPos a.1 (angleToQuat a.2) body))
        (f (calcBodyCornerPos ⟨x, 0, z⟩ (angleToQuat ⟨0, ψ, 0⟩) body)) := by
    by_contra hcon
    push Not at hcon
    have c1 := hcon Corners.jr (by simp [cornerFns])
    have c2 := hcon Corners.jl (by simp [cornerFns])
    rw [edist3_len, ea2] at c1 c2
    rw [hfn _ _ (f := Corners.jr) (by simp [cornerFns]), hfn _ _ (f := Corners.jr) (by simp [cornerFns])] at c1
    rw [hfn _ _ (f := Corners.jl) (by simp [cornerFns]), hfn _ _ (f := Corners.jl) (by simp [cornerFns])] at c2
    have a1 := (le_abs_self _).trans ((abs_le_len _).1.trans c1)
    have a2 := (le_abs_self _).trans ((abs_le_len _).1.trans c2)
    have hax : a.1.x = xi := by simp [ha, node]
    have r1 := (abs_le_len (vsub (rotY (-ψ) body.jInit) (rotY (-a.2.y) body.jInit))).1.trans
      (rotY_lip (-ψ) (-a.2.y) body.jInit)
    rw [show -ψ - -a.2.y = -(ψ - a.2.y) by ring, abs_neg] at r1
    have r2 := mul_le_mul_of_nonneg_right hψ (len_nonneg body.jInit)
    have r3 := (abs_le.mp (r1.trans r2)).1
    simp only [refCorners, rotY, vadd, vsub, hax] at a1 a2 r3
    have e4 : 11 / 200 * len body.jInit * |zi - zmin| / (xmin - xi) =
        11 / 200 * |zi - zmin| / (xmin - xi) * len body.jInit := by ring
    rw [e4] at hj
    linarith
  refine Prod.ext ?_ ?_
  · refine Bool.not_eq_false _ |>.mp fun hf => ?_
    obtain ⟨f, hf0, hlt⟩ := hfar
    have := (C10_no_movement_iff ⟨x, 0, z⟩ (angleToQuat ⟨0, ψ, 0⟩) g (atPose body (a.1, angleToQuat a.2))).mp hf f hf0
    have h2 : 2 * Min.min g.cellXY g.cellZ < 1 / 2 * Min.min g.cellXY g.cellZ := hlt.trans this
    linarith
  · rw [C10_warning_iff _ _ _ _ hm0, if_pos]
    exact hfar

/-! ## The hypotheses can be met: the two bodies of the example with their default trajectories -/

theorem shipped_gentle (body : Body ℝ) (hb : shippedBody .bucket = .ok body) :
    Gentle body (1 / 100) (1 / 10 - -2) |3 / 2 - 1 / 4| (861 / 1000) (6531 / 1000) (381 / 10) (177 / 5 / 9999 ^ 2) 9999 := by
  have H := shipped_paced body hb
  rw [shippedBody_bucket] at hb
  cases hb
  have l1 : len ⟨0, 0, 0⟩ = 0 := by simp [len, dot]
  have ha : |(3 / 2 - 1 / 4 : ℝ)| = 5 / 4 := by rw [abs_of_pos] <;> norm_num
  refine { H with samples := by norm_num, pos := by norm_num, speed := ?_, bend := ?_, slow := ?_, far := ?_, smooth := ?_, start := ?_ }
  all_goals try rw [ha]
  · norm_num
  · norm_num
  · norm_num
  · rw [l1]; norm_num
  · norm_num
  · norm_num

example (body : Body ℝ) (hb : shippedBody .bucket = .ok body) :
    2 * (1 / 100) < (1 / 10 - -2) / 40 - 11 / 200 * len body.jInit * |3 / 2 - 1 / 4| / (1 / 10 - -2) := by
  rw [shippedBody_bucket] at hb
  cases hb
  have l1 : len ⟨0, 0, 0⟩ = 0 := by simp [len, dot]
  rw [l1]; norm_num

example (body : Body ℝ) (hb : shippedBody .blade = .ok body) :
    Gentle body (1 / 100) (1 / 10 - -2) |1 / 10 - 0| (17 / 10) (211 / 50) 42 (7 / 5 / 9999 ^ 2) 9999 := by
  have H := shipped_blade_paced body hb
  rw [shippedBody_blade] at hb
  cases hb
  have l1 : len ⟨9 / 10, 0, 1 / 5⟩ ≤ 1 := by
    unfold len; rw [Real.sqrt_le_left (by norm_num)]; norm_num [dot]
  have ha : |(1 / 10 - 0 : ℝ)| = 1 / 10 := by rw [abs_of_pos] <;> norm_num
  refine { H with samples := by norm_num, pos := by norm_num, speed := ?_, bend := ?_, slow := ?_, far := ?_, smooth := ?_, start := ?_ }
  all_goals try rw [ha]
  · norm_num
  · norm_num
  · norm_num
  · have : 8 * (1 / 100 : ℝ) * (9999 : ℕ) ≤ 5 * 42 * (2 * (1 / 10 - -2) - 8 * 1 * (1 / 10) / (1 / 10 - -2)) := by norm_num
    refine this.trans ?_
    norm_num
    linarith
  · norm_num
  · norm_num

end Soil
