import Verif.Proof.Trajectory

/-! # Property C53: the trajectory of the example program -/

namespace Soil

/-- **C53**. The trajectory has the requested number of points. They are equally spaced along X, from the
start to its mirror image about the deepest point, on the parabola with vertex `(xmin, zmin)` through
`(xi, zi)`. The angle about Y is the angle of the tangent minus the given one, the others are zero. -/
theorem C53_nodes (xi zi xmin zmin o : ℝ) (nn : ℕ) (hx : xi ≠ xmin) (hz : xmin = 0 ∨ zi ≠ zmin) :
    (calcTrajectory xi zi xmin zmin o nn).length = nn ∧
    ∀ k (hk : k < (calcTrajectory xi zi xmin zmin o nn).length),
      let x := xi + k * (2 * (xmin - xi) / (nn - 1))
      (calcTrajectory xi zi xmin zmin o nn)[k] =
        (⟨x, 0, zmin + (zi - zmin) * ((x - xmin) / (xi - xmin)) ^ 2⟩,
          ⟨0, Real.arctan (2 * (zi - zmin) * (x - xmin) / (xi - xmin) ^ 2) - o, 0⟩) := by
  refine ⟨by simp [calcTrajectory], fun k hk => ?_⟩
  obtain ⟨e1, e2⟩ := parabola_eq hx hz (xi + k * (2 * (xmin - xi) / ((nn : ℝ) - 1)))
  have ex : trajX xi xmin nn k = xi + k * (2 * (xmin - xi) / ((nn : ℝ) - 1)) := by
    rw [trajX_eq]; push_cast; rfl
  simp only [calcTrajectory, List.getElem_map, List.getElem_range, trajNode, ex, ex_add, ex_mul, ex_neg,
    ex_zero, ex_ofRat, Rat.cast_ofNat]
  rw [e1, e2]
  refine Prod.ext rfl ?_
  show (⟨_, _, _⟩ : Vec3 ℝ) = ⟨_, _, _⟩
  congr 1
  show -o + Real.arctan _ = _
  ring

/-- **C53**. The trajectory starts at the given point and ends at the same height on the other side. With an odd
number of points the middle one is the deepest point. If the start is above the deepest point, no
point is below the deepest point or above the start. -/
theorem C53_ends (xi zi xmin zmin o : ℝ) (nn : ℕ) (hn : 2 ≤ nn) (hx : xi ≠ xmin)
    (hz : xmin = 0 ∨ zi ≠ zmin) :
    let l := calcTrajectory xi zi xmin zmin o nn
    (∃ a, l[0]? = some (⟨xi, 0, zi⟩, a)) ∧ (∃ a, l[nn - 1]? = some (⟨2 * xmin - xi, 0, zi⟩, a)) ∧
    (∀ m, nn = 2 * m + 1 → l[m]? = some (⟨xmin, 0, zmin⟩, ⟨0, -o, 0⟩)) ∧
    (zmin ≤ zi → ∀ q ∈ l, zmin ≤ q.1.z ∧ q.1.z ≤ zi) := by
  intro l
  obtain ⟨hl, hnode⟩ := C53_nodes xi zi xmin zmin o nn hx hz
  have hd : xi - xmin ≠ 0 := sub_ne_zero.mpr hx
  have hn1 : (0 : ℝ) < (nn : ℝ) - 1 := by
    have : (2 : ℝ) ≤ nn := by exact_mod_cast hn
    linarith
  refine ⟨?_, ?_, ?_, ?_⟩
  · refine ⟨l[0]'(by rw [hl]; omega) |>.2, ?_⟩
    rw [List.getElem?_eq_getElem (by rw [hl]; omega)]
    refine congrArg some (Prod.ext ?_ rfl)
    rw [hnode 0 (by rw [hl]; omega)]
    simp [div_self hd]
  · refine ⟨l[nn - 1]'(by rw [hl]; omega) |>.2, ?_⟩
    rw [List.getElem?_eq_getElem (by rw [hl]; omega)]
    refine congrArg some (Prod.ext ?_ rfl)
    rw [hnode (nn - 1) (by rw [hl]; omega)]
    have ek : ((nn - 1 : ℕ) : ℝ) = (nn : ℝ) - 1 := by push_cast [Nat.cast_sub (by omega : 1 ≤ nn)]; rfl
    have e1 : xi + ((nn - 1 : ℕ) : ℝ) * (2 * (xmin - xi) / ((nn : ℝ) - 1)) = 2 * xmin - xi := by
      rw [ek, mul_div_cancel₀ _ hn1.ne']; ring
    have e2 : (2 * xmin - xi - xmin) / (xi - xmin) = -1 := by
      rw [div_eq_iff hd]; ring
    simp only [e1, e2]
    norm_num
  · intro m hm
    rw [List.getElem?_eq_getElem (by rw [hl]; omega), hnode m (by rw [hl]; omega)]
    have hm0 : (nn : ℝ) - 1 = 2 * m := by rw [hm]; push_cast; ring
    have hmp : (m : ℝ) ≠ 0 := by intro h; rw [hm0, h] at hn1; simp at hn1
    have e1 : xi + (m : ℝ) * (2 * (xmin - xi) / ((nn : ℝ) - 1)) = xmin := by
      rw [hm0]; field_simp; ring
    simp only [e1]
    simp
  · intro hle q hq
    obtain ⟨k, hk, rfl⟩ := List.mem_iff_getElem.mp hq
    rw [hnode k hk]
    dsimp only
    have hk' : (k : ℝ) ≤ (nn : ℝ) - 1 := by
      have : k + 1 ≤ nn := by rw [hl] at hk; omega
      have : ((k + 1 : ℕ) : ℝ) ≤ nn := by exact_mod_cast this
      push_cast at this; linarith
    have e : (xi + k * (2 * (xmin - xi) / ((nn : ℝ) - 1)) - xmin) / (xi - xmin) = 1 - 2 * (k / ((nn : ℝ) - 1)) := by
      field_simp; ring
    rw [e]
    have t0 : 0 ≤ (k : ℝ) / ((nn : ℝ) - 1) := by positivity
    have t1 : (k : ℝ) / ((nn : ℝ) - 1) ≤ 1 := (div_le_one hn1).mpr hk'
    have s1 : (1 - 2 * ((k : ℝ) / ((nn : ℝ) - 1))) ^ 2 ≤ 1 := by nlinarith
    have d0 : 0 ≤ zi - zmin := by linarith
    constructor
    · nlinarith [mul_nonneg d0 (sq_nonneg (1 - 2 * ((k : ℝ) / ((nn : ℝ) - 1))))]
    · nlinarith [mul_le_mul_of_nonneg_left s1 d0]

/-- **C53**. The teeth lead along the path: with the origin angle of the bucket, at each point of the trajectory
the orientation turns the floor of the bucket, from its base to its teeth, into the direction of the
tangent in which X grows. -/
theorem C53_tangent (body : Body ℝ) (hb : body.tInit.y = body.bInit.y)
    (hne : body.tInit.x ≠ body.bInit.x ∨ body.tInit.z ≠ body.bInit.z) (xi zi xmin zmin : ℝ) (nn : ℕ)
    (hx : xi ≠ xmin) (hz : xmin = 0 ∨ zi ≠ zmin) :
    ∀ q ∈ calcTrajectory xi zi xmin zmin (originAngle body) nn, ∃ c > 0,
      calcRotationQuaternion (angleToQuat q.2) (vsub body.tInit body.bInit) =
        vsmul c ⟨1, 0, 2 * (zi - zmin) * (q.1.x - xmin) / (xi - xmin) ^ 2⟩ := by
  intro q hq
  obtain ⟨k, hk, rfl⟩ := List.mem_iff_getElem.mp hq
  rw [(C53_nodes xi zi xmin zmin (originAngle body) nn hx hz).2 k hk]
  dsimp only
  generalize 2 * (zi - zmin) * (xi + k * (2 * (xmin - xi) / ((nn : ℝ) - 1)) - xmin) / (xi - xmin) ^ 2 = s
  set v : ℂ := ⟨body.tInit.x - body.bInit.x, body.tInit.z - body.bInit.z⟩ with hv
  have ho : originAngle body = v.arg := rfl
  have hv0 : v ≠ 0 := by
    intro h
    have h1 := congrArg Complex.re h
    have h2 := congrArg Complex.im h
    simp only [hv, Complex.zero_re, Complex.zero_im] at h1 h2
    rcases hne with h | h
    · exact h (by linarith)
    · exact h (by linarith)
  have hr : 0 < ‖v‖ := norm_pos_iff.mpr hv0
  have hre : body.tInit.x - body.bInit.x = ‖v‖ * Real.cos v.arg := by rw [Complex.norm_mul_cos_arg]
  have him : body.tInit.z - body.bInit.z = ‖v‖ * Real.sin v.arg := by rw [Complex.norm_mul_sin_arg]
  have hc : 0 < Real.cos (Real.arctan s) := Real.cos_arctan_pos s
  refine ⟨‖v‖ * Real.cos (Real.arctan s), mul_pos hr hc, ?_⟩
  have hs : Real.sin (Real.arctan s) = s * Real.cos (Real.arctan s) := by
    have := Real.tan_arctan s
    rw [Real.tan_eq_sin_div_cos, div_eq_iff hc.ne'] at this
    exact this
  rw [C07_zyx]
  simp only [rotX, rotY, rotZ, vsub, vsmul, ho, hre, him, hb, neg_zero, Real.cos_zero, Real.sin_zero, neg_sub]
  have e1 : Real.cos (v.arg - Real.arctan s) * Real.cos v.arg + Real.sin (v.arg - Real.arctan s) * Real.sin v.arg =
      Real.cos (Real.arctan s) := by
    rw [show Real.arctan s = v.arg - (v.arg - Real.arctan s) by ring]
    rw [Real.cos_sub v.arg (v.arg - Real.arctan s)]; simp only [sub_sub_cancel]; ring
  have e2 : -Real.sin (v.arg - Real.arctan s) * Real.cos v.arg + Real.cos (v.arg - Real.arctan s) * Real.sin v.arg =
      Real.sin (Real.arctan s) := by
    rw [show Real.arctan s = v.arg - (v.arg - Real.arctan s) by ring]
    rw [Real.sin_sub v.arg (v.arg - Real.arctan s)]; simp only [sub_sub_cancel]; ring
  refine congr (congr (congrArg Vec3.mk ?_) ?_) ?_
  · linear_combination ‖v‖ * e1
  · ring
  · rw [hs] at e2
    linear_combination ‖v‖ * e2

/-- **C53** fails for flat trajectories (a start as high as the deepest point, away from `x = 0`): the code
divides zero by zero and every height of the trajectory is NaN. -/
theorem C53_flat (xi xmin z o : ℝ) (hx : xi ≠ xmin) (h0 : xmin ≠ 0) (nn : ℕ) (hn : 2 ≤ nn) :
    ∀ q ∈ calcTrajectory (F := NaNable ℝ) (.num xi) (.num z) (.num xmin) (.num z) (.num o) nn, q.1.z = .nan := by
  intro q hq
  simp only [calcTrajectory, List.mem_map, List.mem_range] at hq
  obtain ⟨k, hk, rfl⟩ := hq
  have hd : (xi - xmin) * (xi - xmin) ≠ 0 := mul_self_ne_zero.mpr (sub_ne_zero.mpr hx)
  have hnn : ((nn : ℝ) - 1) ≠ 0 := by
    have : (2 : ℝ) ≤ nn := by exact_mod_cast hn
    linarith
  simp [trajNode, parabola, trajX, FOps.sub, FOps.mul, FOps.add, FOps.div, FOps.neg, FOps.eq, FOps.zero, FOps.ofRat,
    FOps.ofInt, NaNable.map₂, NaNable.map₁, NaNable.cmp, h0, hd, hnn]

/-- The documentation says that the blade keeps its orientation. The code turns it like the bucket: in the
default trajectory it starts nose down and ends nose up. -/
theorem C53_blade_turns (body : Body ℝ) (hk : body.kind = .blade) :
    ∃ a b, (defaultTraj body)[0]? = some a ∧ (defaultTraj body)[9999]? = some b ∧ a.2.y < 0 ∧ 0 < b.2.y := by
  have h := C53_nodes (-2) (1 / 10) (1 / 10) 0 0 10000 (by norm_num) (by norm_num)
  have he : defaultTraj body = calcTrajectory (-2 : ℝ) (1 / 10) (1 / 10) 0 0 10000 := by
    unfold defaultTraj; rw [hk]; simp
  rw [he]
  refine ⟨_, _, List.getElem?_eq_getElem (by rw [h.1]; norm_num), List.getElem?_eq_getElem (by rw [h.1]; norm_num), ?_, ?_⟩
  · rw [h.2 0 (by rw [h.1]; norm_num)]
    norm_num [Real.arctan_lt_zero]
  · rw [h.2 9999 (by rw [h.1]; norm_num)]
    norm_num [Real.arctan_pos]

/-! ## The hypotheses can be met -/

/-- The default trajectory of the bucket -/
example : (-2 : ℝ) ≠ 1 / 10 ∧ ((1 / 10 : ℝ) = 0 ∨ (3 / 2 : ℝ) ≠ 1 / 4) ∧ 2 ≤ 10000 ∧ (1 / 4 : ℝ) ≤ 3 / 2 := by
  norm_num

/-- The bucket of the example -/
example : ∃ body : Body ℝ, shippedBody .bucket = .ok body ∧ body.tInit.y = body.bInit.y ∧
    (body.tInit.x ≠ body.bInit.x ∨ body.tInit.z ≠ body.bInit.z) := by
  exact ⟨_, shippedBody_bucket, rfl, .inl (by norm_num)⟩

/-- The blade of the example -/
example : ∃ body : Body ℝ, shippedBody .blade = .ok body ∧ body.kind = .blade :=
  ⟨_, shippedBody_blade, rfl⟩

end Soil
