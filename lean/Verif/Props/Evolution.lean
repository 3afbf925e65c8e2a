import Verif.Proof.Pace

/-! # Property C54: the time steps of the example program -/

set_option linter.unusedSectionVars false

namespace Soil

/-- **C54**. The schedule of the example program is computed without an index leaving the trajectory and the loop
ends, for every body and every parabola that satisfy the conditions `Paced`. The times start at
0.1, grow by at least two sampling intervals and at most 0.2, reach at least 7.6, stay below 8, and 8 is added. The first pose is the start of
the trajectory, the last one its end. The pose for each time is on the parabola, up to an error
of second order in the height and of first order in the angle, at the abscissa proportional to the time. -/
theorem C54_schedule (g : Grid ℝ) (body : Body ℝ) (xi zi xmin zmin o R : ℝ) (n : ℕ)
    (hz : xmin = 0 ∨ zi ≠ zmin)
    (H : Paced body (Min.min g.cellXY g.cellZ) (xmin - xi) |zi - zmin| R n) :
    let x := fun t : ℝ => xi + t / 8 * (2 * (xmin - xi))
    ∃ (ts : List ℝ) (ps : List (Vec3 ℝ × Quat ℝ)) (z ψ : ℝ → ℝ) (N : ℕ),
      (∀ fuel, N ≤ fuel → evolution fuel g body (calcTrajectory xi zi xmin zmin o (n + 1)) =
        .ok (ts ++ [8], ps)) ∧
      ts.head? = some (1 / 10) ∧ List.IsChain (fun a b : ℝ => a + 16 / n ≤ b ∧ b ≤ a + 1 / 5) ts ∧
      (∀ t ∈ ts, t < 8) ∧ (∀ t, ts.getLast? = some t → 38 / 5 ≤ t) ∧
      ps = (⟨xi, 0, zi⟩, angleToQuat ⟨0, Real.arctan (-2 * (zi - zmin) / (xmin - xi)) - o, 0⟩) ::
        (ts.map fun t => ((⟨x t, 0, z t⟩ : Vec3 ℝ), angleToQuat (⟨0, ψ t, 0⟩ : Vec3 ℝ))) ++
        [(⟨2 * xmin - xi, 0, zi⟩, angleToQuat ⟨0, Real.arctan (2 * (zi - zmin) / (xmin - xi)) - o, 0⟩)] ∧
      ∀ t ∈ ts, |z t - (zmin + (zi - zmin) * ((x t - xmin) / (xmin - xi)) ^ 2)| ≤ 8 * |zi - zmin| / n ^ 2 ∧
        |ψ t - (Real.arctan (2 * (zi - zmin) * (x t - xmin) / (xmin - xi) ^ 2) - o)| ≤
          8 * |zi - zmin| / ((xmin - xi) * n) := by
  intro x
  have hx : xi < xmin := sub_pos.mp H.dist
  have hD := H.dist
  have hn : 0 < n := by have := H.many; omega
  have hn' : (0 : ℝ) < n := by exact_mod_cast hn
  have hnd : xi - xmin ≠ 0 := by linarith [hD] |> fun h : xi - xmin < 0 => h.ne
  have h160 : (160 : ℝ) ≤ n := by exact_mod_cast H.many
  have hh : (0 : ℝ) < 8 / n := by positivity
  have hS := node_samples (o := o) H
  have h2h : 2 * (8 / (n : ℝ)) ≤ 1 / 10 := by
    have : 2 * (8 / (n : ℝ)) = 16 / n := by ring
    rw [this, div_le_iff₀ hn']; linarith
  obtain ⟨M, hM⟩ := exists_nat_ge ((8 - 1 / 10) / (2 * (8 / (n : ℝ))))
  obtain ⟨ts, e1, e2, e3, e4, e5⟩ := evoLoop_ok (g := g) (P := node xi zi xmin zmin o n) hS H.size hh
    (by field_simp) (by
      have := H.fine
      rw [pow_two (n : ℝ), ← div_div, ← add_div, ← mul_div_assoc, div_le_iff₀ hn']; linarith)
    (by have := len_nonneg body.jInit; positivity) (by
      have := H.quick
      have ea : 8 * Min.min g.cellXY g.cellZ * (8 / (n : ℝ)) = 64 * Min.min g.cellXY g.cellZ / n := by ring
      have eb : 2 * (xmin - xi) / n - 2 * (4 * len body.jInit * |zi - zmin| / ((xmin - xi) * n)) =
          (2 * (xmin - xi) - 8 * len body.jInit * |zi - zmin| / (xmin - xi)) / n := by field_simp; ring
      rw [ea, eb]
      gcongr) M (1 / 10) (1 / 10) le_rfl h2h (by norm_num) (by rwa [div_le_iff₀ (by positivity)] at hM)
  have key : ∀ t ∈ ts, ∃ z ψ, interp (node xi zi xmin zmin o n) (8 / n) t = (⟨x t, 0, z⟩, angleToQuat ⟨0, ψ, 0⟩) ∧
      |z - (zmin + (zi - zmin) * ((x t - xmin) / (xmin - xi)) ^ 2)| ≤ 8 * |zi - zmin| / n ^ 2 ∧
      |ψ - (Real.arctan (2 * (zi - zmin) * (x t - xmin) / (xmin - xi) ^ 2) - o)| ≤
        8 * |zi - zmin| / ((xmin - xi) * n) := fun t ht =>
    interp_node (o := o) hx hn (by linarith [(e2 t ht).1]) (e2 t ht).2
  classical
  choose! z ψ hzψ using key
  refine ⟨ts, _, z, ψ, M, fun fuel hf => ?_, e4 (by norm_num), ?_, fun t ht => ?_, fun t ht => ?_, rfl,
    fun t ht => (hzψ t ht).2⟩
  · unfold evolution
    rw [calcTrajectory_eq hx.ne hz]
    simp only [List.length_map, List.length_range, List.map_map, ex_ofRat, ex_div, ex_ofInt]
    push_cast
    rw [nodeAt_map _ le_rfl (by positivity), ok_bind]
    have ee : (8 : ℝ) / ((n : ℝ) + 1 - 1) = 8 / n := by rw [add_sub_cancel_right]
    rw [ee]
    have := e1 fuel hf
    rw [show (evoCorners body ∘ node xi zi xmin zmin o n) = fun k => evoCorners body (node xi zi xmin zmin o n k) from rfl,
      this, ok_bind]
    rw [show ((n : ℤ) + 1 - 1) = n by ring, nodeAt_map _ (by positivity) le_rfl, ok_bind]
    refine congrArg Except.ok (Prod.ext ?_ ?_)
    · simp [Function.comp_def]
    · have c1 : (node xi zi xmin zmin o n (0 : ℤ).toNat) =
          (⟨xi, 0, zi⟩, ⟨0, Real.arctan (-2 * (zi - zmin) / (xmin - xi)) - o, 0⟩) := by
        have a1 : 2 * (zi - zmin) * (xi - xmin) / (xi - xmin) ^ 2 = -2 * (zi - zmin) / (xmin - xi) := by
          rw [div_eq_div_iff (pow_ne_zero 2 hnd) hD.ne']; ring
        simp [node, div_self hnd]
        rw [a1]; ring_nf
      have c2 : (node xi zi xmin zmin o n (n : ℤ).toNat) =
          (⟨2 * xmin - xi, 0, zi⟩, ⟨0, Real.arctan (2 * (zi - zmin) / (xmin - xi)) - o, 0⟩) := by
        have a0 : xi + (n : ℝ) * (2 * (xmin - xi) / n) = 2 * xmin - xi := by field_simp; ring
        have a1 : 2 * (zi - zmin) * (2 * xmin - xi - xmin) / (xi - xmin) ^ 2 = 2 * (zi - zmin) / (xmin - xi) := by
          rw [div_eq_div_iff (pow_ne_zero 2 hnd) hD.ne']; ring
        have a2 : ((2 * xmin - xi - xmin) / (xi - xmin)) ^ 2 = 1 := by
          rw [div_pow, div_eq_one_iff_eq (pow_ne_zero 2 hnd)]; ring
        unfold node
        rw [Int.toNat_natCast, a0, a1, a2]
        simp
      rw [c1, c2]
      simp only [List.map_map, Function.comp_def]
      congr 2
      refine List.map_congr_left fun t ht => ?_
      exact (hzψ t ht).1
  · have : 2 * (8 / (n : ℝ)) = 16 / n := by ring
    rwa [this] at e3
  · linarith [(e2 t ht).2]
  · have := e5 t ht; linarith

/-! ## The hypotheses can be met: the two bodies of the example with their default trajectories -/

/-- Corners of a body whose points are in the vertical plane through its axis -/
theorem planar_radius {body : Body ℝ} {R : ℝ} (hj : body.jInit.y = 0) (hb : body.bInit.y = 0) (ht : body.tInit.y = 0)
    (h1 : body.jInit.x ^ 2 + body.jInit.z ^ 2 ≤ R ^ 2) (h2 : body.bInit.x ^ 2 + body.bInit.z ^ 2 ≤ R ^ 2)
    (h3 : body.tInit.x ^ 2 + body.tInit.z ^ 2 ≤ R ^ 2) : ∀ f ∈ cornerFns,
      (f (calcBodyCornerPos ⟨0, 0, 0⟩ ⟨1, 0, 0, 0⟩ body)).x ^ 2 +
      (f (calcBodyCornerPos ⟨0, 0, 0⟩ ⟨1, 0, 0, 0⟩ body)).z ^ 2 ≤ R ^ 2 := by
  intro f hf
  rw [refCorners_fn body hf]
  have hn : (calcNormal body.jInit body.bInit body.tInit).x = 0 ∧ (calcNormal body.jInit body.bInit body.tInit).z = 0 := by
    rw [calcNormal_eq]
    simp [vsmul, cross, vsub, hj, hb, ht]
  simp only [cornerFns, List.mem_cons, List.not_mem_nil, or_false] at hf
  rcases hf with rfl | rfl | rfl | rfl | rfl | rfl <;>
    simpa [refCorners, vadd, vsub, vsmul, hn.1, hn.2]

/-- Sizes of a body -/
structure Sizes (body : Body ℝ) (R : ℝ) : Prop where
  width : 0 ≤ body.width
  joint : len body.jInit + body.width / 2 ≤ R
  base : len body.bInit + body.width / 2 ≤ R
  teeth : len body.tInit + body.width / 2 ≤ R

theorem bucket_sizes (body : Body ℝ) (hb : shippedBody .bucket = .ok body) : Sizes body (28 / 25) := by
  rw [shippedBody_bucket] at hb
  cases hb
  have l1 : len ⟨0, 0, 0⟩ = 0 := by simp [len, dot]
  have l2 : len ⟨7 / 10, 0, -1 / 2⟩ ≤ 87 / 100 := by
    unfold len; rw [Real.sqrt_le_left (by norm_num)]; norm_num [dot]
  have l3 : len ⟨0, 0, -1 / 2⟩ ≤ 87 / 100 := by
    unfold len; rw [Real.sqrt_le_left (by norm_num)]; norm_num [dot]
  refine ⟨by norm_num, ?_, ?_, ?_⟩
  · show len ⟨0, 0, 0⟩ + 1 / 2 / 2 ≤ _
    rw [l1]; norm_num
  · show len ⟨0, 0, -1 / 2⟩ + 1 / 2 / 2 ≤ _
    linarith
  · show len ⟨7 / 10, 0, -1 / 2⟩ + 1 / 2 / 2 ≤ _
    linarith

theorem blade_sizes (body : Body ℝ) (hb : shippedBody .blade = .ok body) : Sizes body 4 := by
  rw [shippedBody_blade] at hb
  cases hb
  have l1 : len ⟨9 / 10, 0, 1 / 5⟩ ≤ 1 := by
    unfold len; rw [Real.sqrt_le_left (by norm_num)]; norm_num [dot]
  have l2 : len ⟨3 / 4, 0, 3 / 2⟩ ≤ 17 / 10 := by
    unfold len; rw [Real.sqrt_le_left (by norm_num)]; norm_num [dot]
  have l3 : len ⟨8 / 5, 0, -2 / 5⟩ ≤ 17 / 10 := by
    unfold len; rw [Real.sqrt_le_left (by norm_num)]; norm_num [dot]
  refine ⟨by norm_num, ?_, ?_, ?_⟩
  · show len ⟨9 / 10, 0, 1 / 5⟩ + 9 / 2 / 2 ≤ _
    linarith
  · show len ⟨3 / 4, 0, 3 / 2⟩ + 9 / 2 / 2 ≤ _
    linarith
  · show len ⟨8 / 5, 0, -2 / 5⟩ + 9 / 2 / 2 ≤ _
    linarith

/-- The bucket of the example with all trajectories whose dimensions are in the range of its random ones -/
theorem bucket_paced (body : Body ℝ) (hb : shippedBody .bucket = .ok body) (D Z : ℝ) (hD : 1 / 2 ≤ D) (hD' : D ≤ 3)
    (hZ : 0 ≤ Z) (hZ' : Z ≤ 9 / 4) : Paced body (1 / 100) D Z (861 / 1000) 9999 := by
  rw [shippedBody_bucket] at hb
  cases hb
  have l1 : len ⟨0, 0, 0⟩ = 0 := by simp [len, dot]
  have hD0 : 0 < D := by linarith
  have q : Z / D ≤ 9 / 4 * (7 / 3 - 2 / 3 * D) := by
    rw [div_le_iff₀ hD0]
    have : Z ≤ 9 / 4 * ((7 / 3 - 2 / 3 * D) * D) := by nlinarith [mul_nonneg (sub_nonneg.mpr hD) (sub_nonneg.mpr hD')]
    linarith
  have q0 : 0 ≤ Z / D := by positivity
  have q1 : Z / D ≤ 9 / 2 := by linarith
  have hs : Real.sqrt ((2 * D) ^ 2 + (4 * Z) ^ 2) ≤ 9 + 2 / 9 * D ^ 2 := by
    rw [Real.sqrt_le_left (by positivity)]
    nlinarith [sq_nonneg (D ^ 2)]
  have e1 : 4 * (861 / 1000) * Z / D = 861 / 250 * (Z / D) := by ring
  have e2 : 64 * (861 / 1000) * Z ^ 2 / D ^ 2 = 64 * 861 / 1000 * (Z / D) ^ 2 := by ring
  have q2 : (Z / D) ^ 2 ≤ (9 / 2) ^ 2 := by gcongr
  refine ⟨by norm_num, planar_radius rfl rfl rfl (by norm_num) (by norm_num) (by norm_num), hD0, hZ, by norm_num,
    by norm_num, ?_, ?_, ?_⟩
  · norm_num; linarith
  · rw [e1, e2]
    have hd2 : D ^ 2 ≤ 7 / 2 * D - 3 / 2 := by nlinarith [mul_nonneg (sub_nonneg.mpr hD) (sub_nonneg.mpr hD')]
    have h3 : (8 * Z + 64 * 861 / 1000 * (Z / D) ^ 2) / ((9999 : ℕ) : ℝ) ≤ 1 / 5 := by
      rw [div_le_iff₀ (by norm_num)]
      norm_num
      linarith
    norm_num at h3 ⊢
    linarith
  · rw [l1]; norm_num; linarith

theorem shipped_paced (body : Body ℝ) (hb : shippedBody .bucket = .ok body) :
    Paced body (1 / 100) (1 / 10 - -2) |3 / 2 - 1 / 4| (861 / 1000) 9999 :=
  bucket_paced body hb _ _ (by norm_num) (by norm_num) (abs_nonneg _) (by norm_num [abs_le])

/-- The blade of the example with most trajectories whose dimensions are in the range of its random ones -/
theorem blade_paced (body : Body ℝ) (hb : shippedBody .blade = .ok body) (D Z : ℝ) (hD : 4 / 5 ≤ D) (hD' : D ≤ 3)
    (hZ : 0 ≤ Z) (hZ' : Z ≤ 1 / 10) : Paced body (1 / 100) D Z (17 / 10) 9999 := by
  rw [shippedBody_blade] at hb
  cases hb
  have l1 : len ⟨9 / 10, 0, 1 / 5⟩ ≤ 923 / 1000 := by
    unfold len; rw [Real.sqrt_le_left (by norm_num)]; norm_num [dot]
  have hD0 : 0 < D := by linarith
  have q0 : 0 ≤ Z / D := by positivity
  have q1 : Z / D ≤ 1 / 8 := by rw [div_le_iff₀ hD0]; linarith
  have hs : Real.sqrt ((2 * D) ^ 2 + (4 * Z) ^ 2) ≤ 7 := by
    rw [Real.sqrt_le_left (by positivity)]
    nlinarith
  have e1 : 4 * (17 / 10) * Z / D = 34 / 5 * (Z / D) := by ring
  have e2 : 64 * (17 / 10) * Z ^ 2 / D ^ 2 = 544 / 5 * (Z / D) ^ 2 := by ring
  have q2 : (Z / D) ^ 2 ≤ (1 / 8) ^ 2 := by gcongr
  have e3 : 8 * len (⟨9 / 10, 0, 1 / 5⟩ : Vec3 ℝ) * Z / D ≤ 8 * (923 / 1000) * (1 / 8) := by
    rw [mul_div_assoc]
    have := len_nonneg (⟨9 / 10, 0, 1 / 5⟩ : Vec3 ℝ)
    gcongr
  refine ⟨by norm_num, planar_radius rfl rfl rfl (by norm_num) (by norm_num) (by norm_num), hD0, hZ, by norm_num,
    by norm_num, ?_, ?_, ?_⟩
  · norm_num; linarith
  · rw [e1, e2]
    have h3 : (8 * Z + 544 / 5 * (Z / D) ^ 2) / ((9999 : ℕ) : ℝ) ≤ 1 / 5 := by
      rw [div_le_iff₀ (by norm_num)]
      norm_num
      linarith
    norm_num at h3 ⊢
    linarith
  · linarith

theorem shipped_blade_paced (body : Body ℝ) (hb : shippedBody .blade = .ok body) :
    Paced body (1 / 100) (1 / 10 - -2) |1 / 10 - 0| (17 / 10) 9999 :=
  blade_paced body hb _ _ (by norm_num) (by norm_num) (abs_nonneg _) (by norm_num [abs_le])

end Soil
