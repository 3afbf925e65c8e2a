import Verif.Proof.Evolution
import Verif.Props.Trajectory
import Verif.Spec.Example

/-! # How fast the body of the example program moves -/

set_option linter.unusedSectionVars false

namespace Soil

/-- The corners computed by the example program are those computed by the simulator. -/
theorem evoCorners_eq (body : Body ℝ) (p a : Vec3 ℝ) :
    evoCorners body (p, a) = calcBodyCornerPos p (angleToQuat a) body := by
  have hn : ∀ u v w : Vec3 ℝ, calcNormal (vadd u p) (vadd v p) (vadd w p) = calcNormal u v w := by
    intro u v w
    rw [calcNormal_eq, calcNormal_eq]
    have e : ∀ u v : Vec3 ℝ, vsub (vadd u p) (vadd v p) = vsub u v := by
      intro u v; unfold vsub vadd; apply Vec3.ext' <;> dsimp only <;> ring
    rw [e, e]
  have ha : ∀ u v : Vec3 ℝ, u.addF v = vadd u v := fun u v => rfl
  unfold evoCorners calcBodyCornerPos
  simp only [ha, hn]
  have hs : ∀ x : ℝ, FOps.div (FOps.mul body.width x) (FOps.ofRat 2) = FOps.mul (FOps.mul (FOps.ofRat (1 / 2)) body.width) x := by
    intro x; simp only [ex_div, ex_mul, ex_ofRat]; push_cast; ring
  simp only [hs]
  rfl

theorem rot_pitch (t : ℝ) (p : Vec3 ℝ) : calcRotationQuaternion (angleToQuat ⟨0, t, 0⟩) p = rotY (-t) p := by
  rw [C07_zyx]
  simp [rotX, rotY, rotZ]

/-- Reference corner -/
noncomputable def refCorners (body : Body ℝ) : Corners ℝ :=
  let n := vsmul (1 / 2 * body.width) (calcNormal body.jInit body.bInit body.tInit)
  ⟨vadd body.jInit n, vsub body.jInit n, vadd body.bInit n, vsub body.bInit n, vadd body.tInit n, vsub body.tInit n⟩

theorem evoCorners_fn (body : Body ℝ) (p : Vec3 ℝ) (t : ℝ) {f : Corners ℝ → Vec3 ℝ} (hf : f ∈ cornerFns) :
    f (evoCorners body (p, ⟨0, t, 0⟩)) = vadd (rotY (-t) (f (refCorners body))) p := by
  rw [evoCorners_eq, C09_rigid p _ body (by rw [normSq_angleToQuat]; exact one_ne_zero)]
  unfold posed
  simp only [rot_pitch]
  simp only [cornerFns, List.mem_cons, List.not_mem_nil, or_false] at hf
  rcases hf with rfl | rfl | rfl | rfl | rfl | rfl <;> rfl

theorem refCorners_fn (body : Body ℝ) {f : Corners ℝ → Vec3 ℝ} (hf : f ∈ cornerFns) :
    f (calcBodyCornerPos ⟨0, 0, 0⟩ ⟨1, 0, 0, 0⟩ body) = f (refCorners body) := by
  have h := evoCorners_fn body ⟨0, 0, 0⟩ 0 hf
  rw [evoCorners_eq] at h
  have e : angleToQuat (⟨0, 0, 0⟩ : Vec3 ℝ) = ⟨1, 0, 0, 0⟩ := by
    have hc : Transc.cos (0 : ℝ) = 1 := Real.cos_zero
    have hs : Transc.sin (0 : ℝ) = 0 := Real.sin_zero
    unfold angleToQuat
    simp [hc, hs]
  rw [e] at h
  rw [h]
  unfold rotY vadd
  apply Vec3.ext' <;> simp

theorem refCorners_len {body : Body ℝ} {m D Z R : ℝ} {n : ℕ} (H : Paced body m D Z R n)
    {f : Corners ℝ → Vec3 ℝ} (hf : f ∈ cornerFns) : len (flat (f (refCorners body))) ≤ R := by
  have h := H.radius f hf
  rw [refCorners_fn body hf] at h
  unfold len
  rw [Real.sqrt_le_left H.reach]
  unfold flat dot
  dsimp only
  linarith

/-- Node `k` of the trajectory -/
noncomputable def node (xi zi xmin zmin o : ℝ) (n k : ℕ) : Vec3 ℝ × Vec3 ℝ :=
  (⟨xi + k * (2 * (xmin - xi) / n), 0, zmin + (zi - zmin) * ((xi + k * (2 * (xmin - xi) / n) - xmin) / (xi - xmin)) ^ 2⟩,
    ⟨0, Real.arctan (2 * (zi - zmin) * (xi + k * (2 * (xmin - xi) / n) - xmin) / (xi - xmin) ^ 2) - o, 0⟩)

theorem calcTrajectory_eq {xi zi xmin zmin o : ℝ} {n : ℕ} (hx : xi ≠ xmin) (hz : xmin = 0 ∨ zi ≠ zmin) :
    calcTrajectory xi zi xmin zmin o (n + 1) = (List.range (n + 1)).map (node xi zi xmin zmin o n) := by
  obtain ⟨h1, h2⟩ := C53_nodes xi zi xmin zmin o (n + 1) hx hz
  refine List.ext_getElem (by rw [h1]; simp) fun k hk hk' => ?_
  rw [h2 k hk]
  simp [node]

/-- Bounds between neighbouring nodes -/
theorem node_step {xi zi xmin zmin o : ℝ} {n k : ℕ} (hx : xi < xmin) (hn : 0 < n) (hk : k < n) :
    let D := xmin - xi
    let Z := |zi - zmin|
    let a := node xi zi xmin zmin o n k
    let b := node xi zi xmin zmin o n (k + 1)
    b.1.x - a.1.x = 2 * D / n ∧ |b.1.z - a.1.z| ≤ 4 * Z / n ∧ |b.2.y - a.2.y| ≤ 4 * Z / (D * n) := by
  intro D Z a b
  have hD : 0 < D := sub_pos.mpr hx
  have hn' : (0 : ℝ) < n := by exact_mod_cast hn
  have hxi : xi - xmin = -D := by simp [D]
  set t := (k : ℝ) / n with ht
  have t0 : 0 ≤ t := by positivity
  have t1 : t + 1 / n ≤ 1 := by
    rw [ht, ← add_div, div_le_one hn']
    exact_mod_cast hk
  have ex : ∀ j : ℕ, xi + j * (2 * (xmin - xi) / n) - xmin = D * (2 * (j / n) - 1) := by
    intro j; simp only [D]; field_simp; ring
  have er : ∀ j : ℕ, (xi + j * (2 * (xmin - xi) / n) - xmin) / (xi - xmin) = 1 - 2 * ((j : ℝ) / n) := by
    intro j; rw [ex, hxi]; field_simp; ring
  have es : ∀ j : ℕ, 2 * (zi - zmin) * (xi + j * (2 * (xmin - xi) / n) - xmin) / (xi - xmin) ^ 2 =
      2 * (zi - zmin) * (2 * (j / n) - 1) / D := by
    intro j; rw [ex, hxi]; field_simp
  have ek : (((k + 1 : ℕ) : ℝ)) / n = t + 1 / n := by rw [ht]; push_cast; ring
  refine ⟨?_, ?_, ?_⟩
  · simp only [a, b, node, D]; push_cast; ring
  · simp only [a, b, node]
    rw [er, er, ek, ← ht]
    have e : zmin + (zi - zmin) * (1 - 2 * (t + 1 / n)) ^ 2 - (zmin + (zi - zmin) * (1 - 2 * t) ^ 2) =
        (zi - zmin) * ((-4 / n) * (1 - 2 * t - 1 / n)) := by ring
    rw [e, abs_mul, abs_mul]
    have h1 : |(-4 : ℝ) / n| = 4 / n := by rw [abs_div, abs_neg, abs_of_pos hn']; norm_num
    have h2 : |1 - 2 * t - 1 / (n : ℝ)| ≤ 1 := by
      have : (0 : ℝ) < 1 / n := by positivity
      exact abs_le.mpr ⟨by linarith, by linarith⟩
    rw [h1]
    calc Z * (4 / n * |1 - 2 * t - 1 / (n : ℝ)|) ≤ Z * (4 / n * 1) := by
          refine mul_le_mul_of_nonneg_left (mul_le_mul_of_nonneg_left h2 (by positivity)) (abs_nonneg _)
      _ = 4 * Z / n := by ring
  · simp only [a, b, node]
    rw [es, es, ek, ← ht, sub_sub_sub_cancel_right]
    refine (arctan_lip _ _).trans ?_
    have e : 2 * (zi - zmin) * (2 * (t + 1 / n) - 1) / D - 2 * (zi - zmin) * (2 * t - 1) / D =
        (zi - zmin) * (4 / (D * n)) := by field_simp; ring
    rw [e, abs_mul, abs_of_pos (by positivity : (0 : ℝ) < 4 / (D * n))]
    apply le_of_eq
    simp only [Z]; ring

theorem Paced.npos {body : Body ℝ} {m D Z R : ℝ} {n : ℕ} (H : Paced body m D Z R n) : (0 : ℝ) < n := by
  have := H.many
  exact_mod_cast (by omega : 0 < n)

theorem Paced.angle {body : Body ℝ} {m D Z R : ℝ} {n : ℕ} (H : Paced body m D Z R n) : 4 * Z / (D * n) ≤ 1 := by
  rw [div_le_one (mul_pos H.dist H.npos)]
  exact H.turn

section

variable {body : Body ℝ} {xi zi xmin zmin o m R : ℝ} {n : ℕ}

theorem node_fn (k : ℕ) {f : Corners ℝ → Vec3 ℝ} (hf : f ∈ cornerFns) :
    f (evoCorners body (node xi zi xmin zmin o n k)) =
      vadd (rotY (-(node xi zi xmin zmin o n k).2.y) (f (refCorners body))) (node xi zi xmin zmin o n k).1 := by
  have hnode : node xi zi xmin zmin o n k = ((node xi zi xmin zmin o n k).1,
    ⟨0, (node xi zi xmin zmin o n k).2.y, 0⟩) := rfl
  conv_lhs => rw [hnode]
  rw [evoCorners_fn _ _ _ hf]

/-- Second differences of the corners -/
theorem node_bends (H : Paced body m (xmin - xi) |zi - zmin| R n) {f : Corners ℝ → Vec3 ℝ}
    (hf : f ∈ cornerFns) : Bends (fun k => f (evoCorners body (node xi zi xmin zmin o n k))) n
      ((8 * |zi - zmin| + 64 * R * |zi - zmin| ^ 2 / (xmin - xi) ^ 2) / n ^ 2) := by
  intro k hk
  have hx : xi < xmin := sub_pos.mp H.dist
  have hD := H.dist
  have hn' := H.npos
  have hn : 0 < n := by exact_mod_cast hn'
  have hnd : xi - xmin ≠ 0 := by linarith [hD] |> fun h : xi - xmin < 0 => h.ne
  obtain ⟨-, -, s3⟩ := node_step (o := o) (zi := zi) (zmin := zmin) hx hn (by omega : k < n)
  obtain ⟨-, -, s3'⟩ := node_step (o := o) (zi := zi) (zmin := zmin) hx hn (by omega : k + 1 < n)
  unfold diff
  simp only [node_fn _ hf]
  set v := f (refCorners body) with hv
  set Δ := 4 * |zi - zmin| / ((xmin - xi) * n) with hΔ
  have second : |((node xi zi xmin zmin o n (k + 1 + 1)).2.y - (node xi zi xmin zmin o n (k + 1)).2.y) -
      ((node xi zi xmin zmin o n (k + 1)).2.y - (node xi zi xmin zmin o n k).2.y)| ≤ 2 * Δ ^ 2 := by
    simp only [node]
    set u := 2 * (zi - zmin) * (xi + ((k + 1 : ℕ) : ℝ) * (2 * (xmin - xi) / n) - xmin) / (xi - xmin) ^ 2 with hu
    set e := 4 * (zi - zmin) / ((xmin - xi) * n) with he
    have e1 : 2 * (zi - zmin) * (xi + ((k + 1 + 1 : ℕ) : ℝ) * (2 * (xmin - xi) / n) - xmin) / (xi - xmin) ^ 2 = u + e := by
      rw [hu, he]
      have : xmin - xi ≠ 0 := hD.ne'
      rw [show (xi - xmin) ^ 2 = (xmin - xi) ^ 2 by ring]
      push_cast; field_simp; ring
    have e2 : 2 * (zi - zmin) * (xi + (k : ℝ) * (2 * (xmin - xi) / n) - xmin) / (xi - xmin) ^ 2 = u - e := by
      rw [hu, he]
      have : xmin - xi ≠ 0 := hD.ne'
      rw [show (xi - xmin) ^ 2 = (xmin - xi) ^ 2 by ring]
      push_cast; field_simp; ring
    rw [e1, e2]
    have hΔe : Δ ^ 2 = e ^ 2 := by
      rw [hΔ, he, div_pow, div_pow]
      congr 1
      rw [mul_pow, mul_pow 4, sq_abs]
    have e3 : ∀ a b c : ℝ, (a - o - (b - o)) - (b - o - (c - o)) = (a - b) - (b - c) := by intros; ring
    rw [e3, hΔe]
    rcases le_total 0 e with h0 | h0
    · exact arctan_second u e h0
    · have := arctan_second u (-e) (by linarith)
      rw [neg_sq, sub_neg_eq_add, ← sub_eq_add_neg] at this
      refine le_trans (le_of_eq ?_) this
      congr 1; ring
  set a := node xi zi xmin zmin o n k with ha
  set b := node xi zi xmin zmin o n (k + 1) with hb
  set c := node xi zi xmin zmin o n (k + 1 + 1) with hc
  have r1 := rotY_second (a := -a.2.y) (b := -b.2.y) (c := -c.2.y) (Δ := Δ) (E := 2 * Δ ^ 2)
    (by rw [show -b.2.y - -a.2.y = -(b.2.y - a.2.y) by ring, abs_neg]; exact s3)
    (by rw [show -c.2.y - -b.2.y = -(c.2.y - b.2.y) by ring, abs_neg]; exact s3') H.angle
    (by rw [show -c.2.y - -b.2.y - (-b.2.y - -a.2.y) = -((c.2.y - b.2.y) - (b.2.y - a.2.y)) by ring, abs_neg]
        exact second) (flat v)
  have p1 : vsub (vsub c.1 b.1) (vsub b.1 a.1) = ⟨0, 0, 8 * (zi - zmin) / n ^ 2⟩ := by
    simp only [ha, hb, hc, node, vsub]
    apply Vec3.ext'
    · push_cast; ring
    · simp
    · dsimp only
      have : xmin - xi ≠ 0 := hD.ne'
      push_cast
      field_simp
      ring
  have p2 : len (⟨0, 0, 8 * (zi - zmin) / n ^ 2⟩ : Vec3 ℝ) = 8 * |zi - zmin| / n ^ 2 := by
    simp only [len, dot, mul_zero, zero_add, Real.sqrt_mul_self_eq_abs]
    rw [abs_div, abs_mul, abs_of_pos (by positivity : (0 : ℝ) < n ^ 2)]
    norm_num
  have e : vsub (vsub (vadd (rotY (-c.2.y) v) c.1) (vadd (rotY (-b.2.y) v) b.1))
      (vsub (vadd (rotY (-b.2.y) v) b.1) (vadd (rotY (-a.2.y) v) a.1)) =
      vadd (vsub (vsub (rotY (-c.2.y) (flat v)) (rotY (-b.2.y) (flat v)))
        (vsub (rotY (-b.2.y) (flat v)) (rotY (-a.2.y) (flat v)))) (vsub (vsub c.1 b.1) (vsub b.1 a.1)) := by
    simp only [rotY_flat _ v]
    unfold vsub vadd; apply Vec3.ext' <;> dsimp only <;> ring
  rw [e]
  refine (len_add_le _ _).trans ?_
  rw [p1, p2]
  have r2 := mul_le_mul_of_nonneg_left (refCorners_len H hf) (by positivity : 0 ≤ 2 * Δ ^ 2 + 2 * Δ ^ 2)
  have : (2 * Δ ^ 2 + 2 * Δ ^ 2) * R + 8 * |zi - zmin| / n ^ 2 =
      (8 * |zi - zmin| + 64 * R * |zi - zmin| ^ 2 / (xmin - xi) ^ 2) / n ^ 2 := by
    rw [hΔ]; have : xmin - xi ≠ 0 := hD.ne'; field_simp; ring
  linarith

/-- Distance between consecutive samples -/
theorem node_lip (H : Paced body m (xmin - xi) |zi - zmin| R n) {f : Corners ℝ → Vec3 ℝ}
    (hf : f ∈ cornerFns) {k : ℕ} (hk : k < n) :
    len (diff (fun k => f (evoCorners body (node xi zi xmin zmin o n k))) k) ≤
      (Real.sqrt ((2 * (xmin - xi)) ^ 2 + (4 * |zi - zmin|) ^ 2) + 4 * R * |zi - zmin| / (xmin - xi)) / n := by
  have hx : xi < xmin := sub_pos.mp H.dist
  have hD := H.dist
  have hn' := H.npos
  have hn : 0 < n := by exact_mod_cast hn'
  set V := Real.sqrt ((2 * (xmin - xi)) ^ 2 + (4 * |zi - zmin|) ^ 2) with hV
  obtain ⟨s1, s2, s3⟩ := node_step (o := o) (zi := zi) (zmin := zmin) hx hn hk
  unfold diff
  simp only [node_fn _ hf]
  set a := node xi zi xmin zmin o n k
  set b := node xi zi xmin zmin o n (k + 1)
  set v := f (refCorners body)
  have e : vsub (vadd (rotY (-b.2.y) v) b.1) (vadd (rotY (-a.2.y) v) a.1) =
      vadd (vsub (rotY (-b.2.y) (flat v)) (rotY (-a.2.y) (flat v))) (vsub b.1 a.1) := by
    simp only [rotY_flat _ v]
    unfold vsub vadd; apply Vec3.ext' <;> dsimp only <;> ring
  rw [e]
  refine (len_add_le _ _).trans ?_
  have r1 := rotY_lip (-b.2.y) (-a.2.y) (flat v)
  rw [show -b.2.y - -a.2.y = -(b.2.y - a.2.y) by ring, abs_neg] at r1
  have r2 := mul_le_mul s3 (refCorners_len H hf) (len_nonneg _) (by positivity)
  have r3 : len (vsub b.1 a.1) ≤ V / n := by
    refine abs_le_of_sq_le_sq' ?_ (div_nonneg (Real.sqrt_nonneg _) hn'.le) |>.2
    rw [len_sq]
    have y1 : a.1.y = 0 := rfl
    have y2 : b.1.y = 0 := rfl
    unfold dot vsub
    dsimp only
    rw [s1, y1, y2]
    have s2' : (b.1.z - a.1.z) ^ 2 ≤ (4 * |zi - zmin| / n) ^ 2 := sq_le_sq' (abs_le.mp s2).1 (abs_le.mp s2).2
    have hs : ((2 * (xmin - xi)) ^ 2 + (4 * |zi - zmin|) ^ 2) / (n : ℝ) ^ 2 ≤ V ^ 2 / n ^ 2 := by
      have : V ^ 2 = (2 * (xmin - xi)) ^ 2 + (4 * |zi - zmin|) ^ 2 := Real.sq_sqrt (by positivity)
      rw [this]
    have e1 : ((2 * (xmin - xi)) ^ 2 + (4 * |zi - zmin|) ^ 2) / (n : ℝ) ^ 2 =
        (2 * (xmin - xi) / n) ^ 2 + (4 * |zi - zmin| / n) ^ 2 := by ring
    rw [div_pow]
    linarith
  have e3 : (V + 4 * R * |zi - zmin| / (xmin - xi)) / n =
      4 * |zi - zmin| / ((xmin - xi) * n) * R + V / n := by
    field_simp; ring
  rw [e3]
  linarith

end

theorem node_samples {body : Body ℝ} {xi zi xmin zmin o m R : ℝ} {n : ℕ}
    (H : Paced body m (xmin - xi) |zi - zmin| R n) :
    Samples (fun k => evoCorners body (node xi zi xmin zmin o n k)) n
      ((Real.sqrt ((2 * (xmin - xi)) ^ 2 + (4 * |zi - zmin|) ^ 2) + 4 * R * |zi - zmin| / (xmin - xi)) / n)
      ((8 * |zi - zmin| + 64 * R * |zi - zmin| ^ 2 / (xmin - xi) ^ 2) / n ^ 2) (2 * (xmin - xi) / n)
      (4 * len body.jInit * |zi - zmin| / ((xmin - xi) * n)) := by
  have hx : xi < xmin := sub_pos.mp H.dist
  have hD := H.dist
  have hn : 0 < n := by have := H.many; omega
  have hn' : (0 : ℝ) < n := by exact_mod_cast hn
  have hnode : ∀ k, node xi zi xmin zmin o n k = ((node xi zi xmin zmin o n k).1,
    ⟨0, (node xi zi xmin zmin o n k).2.y, 0⟩) := fun k => rfl
  refine ⟨fun k hk f hf => node_lip H hf hk, fun f hf => node_bends H hf, ?_⟩
  · intro k hk
    obtain ⟨s1, s2, s3⟩ := node_step (o := o) (zi := zi) (zmin := zmin) hx hn hk
    have hmid : ∀ k, midX (evoCorners body (node xi zi xmin zmin o n k)) =
        (rotY (-(node xi zi xmin zmin o n k).2.y) body.jInit).x + (node xi zi xmin zmin o n k).1.x := by
      intro k
      unfold midX
      rw [hnode k, evoCorners_fn _ _ _ (f := Corners.jr) (by simp [cornerFns]),
        evoCorners_fn _ _ _ (f := Corners.jl) (by simp [cornerFns])]
      simp only [refCorners, rotY, vadd, vsub]
      ring
    rw [hmid, hmid]
    set a := node xi zi xmin zmin o n k
    set b := node xi zi xmin zmin o n (k + 1)
    have r1 := rotY_lip (-b.2.y) (-a.2.y) body.jInit
    rw [show -b.2.y - -a.2.y = -(b.2.y - a.2.y) by ring, abs_neg] at r1
    have r2 := mul_le_mul_of_nonneg_right s3 (len_nonneg body.jInit)
    have r3 := (abs_le_len (vsub (rotY (-b.2.y) body.jInit) (rotY (-a.2.y) body.jInit))).1
    have e : (rotY (-b.2.y) body.jInit).x + b.1.x - ((rotY (-a.2.y) body.jInit).x + a.1.x) - 2 * (xmin - xi) / n =
        (vsub (rotY (-b.2.y) body.jInit) (rotY (-a.2.y) body.jInit)).x := by
      rw [← s1]; simp only [vsub]; ring
    rw [e]
    refine r3.trans (r1.trans (r2.trans (le_of_eq ?_)))
    ring

/-- Where the interpolated poses are -/
theorem interp_node {xi zi xmin zmin o t : ℝ} {n : ℕ} (hx : xi < xmin) (hn : 0 < n) (ht0 : 0 ≤ t)
    (ht : t + 2 * (8 / n) < 8) :
    let D := xmin - xi
    let Z := |zi - zmin|
    let x := xi + t / 8 * (2 * D)
    ∃ z ψ, interp (node xi zi xmin zmin o n) (8 / n) t = (⟨x, 0, z⟩, angleToQuat ⟨0, ψ, 0⟩) ∧
      |z - (zmin + (zi - zmin) * ((x - xmin) / D) ^ 2)| ≤ 8 * Z / n ^ 2 ∧
      |ψ - (Real.arctan (2 * (zi - zmin) * (x - xmin) / D ^ 2) - o)| ≤ 8 * Z / (D * n) := by
  intro D Z x
  have hD : 0 < D := sub_pos.mpr hx
  have hn' : (0 : ℝ) < n := by exact_mod_cast hn
  have hxi : xi - xmin = -D := by simp [D]
  set k := ⌈t / (8 / (n : ℝ))⌉.toNat with hk
  have hc0 : 0 ≤ ⌈t / (8 / (n : ℝ))⌉ := Int.ceil_nonneg (by positivity)
  have hkc : (k : ℝ) = ⌈t / (8 / (n : ℝ))⌉ := by
    have : ((k : ℕ) : ℤ) = ⌈t / (8 / (n : ℝ))⌉ := Int.toNat_of_nonneg hc0
    exact_mod_cast this
  set b := t / (8 / (n : ℝ)) - k with hb
  have hb0 : -1 ≤ b := by
    have : (⌈t / (8 / (n : ℝ))⌉ : ℝ) < t / (8 / (n : ℝ)) + 1 := Int.ceil_lt_add_one _
    linarith
  have hb1 : b ≤ 0 := by
    have : t / (8 / (n : ℝ)) ≤ ⌈t / (8 / (n : ℝ))⌉ := Int.le_ceil _
    linarith
  have hkn : k < n := by
    have h1 : t / (8 / (n : ℝ)) < n - 2 := by
      rw [div_lt_iff₀ (by positivity)]
      have : ((n : ℝ) - 2) * (8 / n) = 8 - 2 * (8 / n) := by field_simp
      linarith
    have : (k : ℝ) < n := by linarith
    exact_mod_cast this
  have htk : t = (k + b) * (8 / n) := by rw [hb]; field_simp; ring
  obtain ⟨-, -, s3⟩ := node_step (o := o) (zi := zi) (zmin := zmin) hx hn hkn
  have ex : ∀ j : ℕ, xi + j * (2 * (xmin - xi) / n) - xmin = D * (2 * (j / n) - 1) := by
    intro j; simp only [D]; field_simp; ring
  have er : ∀ j : ℕ, (xi + j * (2 * (xmin - xi) / n) - xmin) / (xi - xmin) = 1 - 2 * ((j : ℝ) / n) := by
    intro j; rw [ex, hxi]; field_simp; ring
  have exx : x - xmin = D * (2 * ((k + b) / n) - 1) := by
    simp only [x, D]; rw [htk]; field_simp; ring
  refine ⟨_, _, Prod.ext (Vec3.ext' ?_ ?_ rfl) (congrArg angleToQuat (Vec3.ext' ?_ rfl ?_)), ?_, ?_⟩
  · show FOps.add (FOps.mul _ _) (FOps.mul _ _) = _
    simp only [ex_add, ex_mul, node, ← hk, ← hb, x, D]
    rw [htk]; push_cast; field_simp; ring
  · show FOps.add (FOps.mul _ _) (FOps.mul _ _) = _
    simp [ex_add, ex_mul, node]
  · show FOps.add (FOps.mul _ _) (FOps.mul _ _) = _
    simp [ex_add, ex_mul, node]
  · show FOps.add (FOps.mul _ _) (FOps.mul _ _) = _
    simp [ex_add, ex_mul, node]
  · simp only [interp, lerp, ex_add, ex_mul, node, ← hk, ← hb]
    rw [er, er, exx]
    have e1 : D * (2 * ((k + b) / n) - 1) / D = 2 * ((k + b) / n) - 1 := by field_simp
    rw [e1]
    have e2 : (zmin + (zi - zmin) * (1 - 2 * ((k : ℝ) / n)) ^ 2) * (1 - b) +
        (zmin + (zi - zmin) * (1 - 2 * (((k + 1 : ℕ) : ℝ) / n)) ^ 2) * b -
        (zmin + (zi - zmin) * (2 * ((k + b) / n) - 1) ^ 2) = (zi - zmin) * (4 / n ^ 2 * (b * (1 - b))) := by
      push_cast; field_simp; ring
    rw [e2, abs_mul, abs_mul, abs_of_pos (by positivity : (0 : ℝ) < 4 / n ^ 2)]
    have h3 : |b * (1 - b)| ≤ 2 := abs_le.mpr ⟨by nlinarith, by nlinarith⟩
    calc Z * (4 / n ^ 2 * |b * (1 - b)|) ≤ Z * (4 / n ^ 2 * 2) := by
          refine mul_le_mul_of_nonneg_left (mul_le_mul_of_nonneg_left h3 (by positivity)) (abs_nonneg _)
      _ = 8 * Z / n ^ 2 := by ring
  · simp only [lerp, ex_add, ex_mul, ← hk, ← hb]
    set A := (node xi zi xmin zmin o n k).2.y with hA
    set B := (node xi zi xmin zmin o n (k + 1)).2.y with hB
    have e1 : A * (1 - b) + B * b - (Real.arctan (2 * (zi - zmin) * (x - xmin) / D ^ 2) - o) =
        (A + o - Real.arctan (2 * (zi - zmin) * (x - xmin) / D ^ 2)) + b * (B - A) := by ring
    rw [e1]
    have ab : |b| ≤ 1 := abs_le.mpr ⟨hb0, by linarith⟩
    have h1 : |b * (B - A)| ≤ 4 * Z / (D * n) := by
      rw [abs_mul]
      have := mul_le_mul ab s3 (abs_nonneg _) (by norm_num)
      linarith
    have h2 : |A + o - Real.arctan (2 * (zi - zmin) * (x - xmin) / D ^ 2)| ≤ 4 * Z / (D * n) := by
      have : A + o = Real.arctan (2 * (zi - zmin) * (xi + k * (2 * (xmin - xi) / n) - xmin) / (xi - xmin) ^ 2) := by
        rw [hA]; simp [node]
      rw [this]
      refine (arctan_lip _ _).trans ?_
      rw [ex, exx, hxi]
      have e2 : 2 * (zi - zmin) * (D * (2 * (k / n) - 1)) / (-D) ^ 2 - 2 * (zi - zmin) * (D * (2 * ((k + b) / n) - 1)) / D ^ 2
          = (zi - zmin) * (4 / (D * n)) * (-b) := by field_simp; ring
      rw [e2, abs_mul, abs_mul, abs_neg, abs_of_pos (by positivity : (0 : ℝ) < 4 / (D * n))]
      calc Z * (4 / (D * n)) * |b| ≤ Z * (4 / (D * n)) * 1 :=
            mul_le_mul_of_nonneg_left ab (mul_nonneg (abs_nonneg _) (by positivity))
        _ = 4 * Z / (D * n) := by ring
    calc _ ≤ _ + _ := abs_add_le _ _
      _ ≤ 4 * Z / (D * n) + 4 * Z / (D * n) := add_le_add h2 h1
      _ = 8 * Z / (D * n) := by ring

end Soil
