import Verif.Proof.CornerDir
import Verif.Props.Accuracy

/-! # Property C71: the corners of the body in rounded arithmetic

`CalcBodyCornerPos` rotates the three reference points, takes the unit normal of their plane, and goes half the width to both
sides.  In exact arithmetic the middle of two opposite corners is the posed reference point and their distance is the width.
Here the same is shown for rounded arithmetic, up to stated errors. -/

namespace Soil

open FOps

section Rounded

variable {R : Rounding} {prec : ℕ} {u : ℚ}

/-- The three pairs of opposite corners, each with the reference point it comes from -/
def sidesOf (q : Vec3 (Flt R) × Quat (Flt R)) (body : Body (Flt R)) : List (Vec3 (Flt R) × Vec3 (Flt R) × Vec3 (Flt R)) :=
  let c := calcBodyCornerPos q.1 q.2 body
  [(c.jr, c.jl, body.jInit), (c.br, c.bl, body.bInit), (c.tr, c.tl, body.tInit)]

/-- The reference points are at most `r` from the origin of the body, and their triangle has at least `500 u` times
the area `r²` (for single precision, about `3 · 10⁻⁵ r²`): they are not nearly on a line. -/
structure ProperTriangle (u r : ℚ) (body : Body (Flt R)) : Prop where
  radius : 0 < r
  width : 0 < body.width.val
  j : dot body.jInit.exact body.jInit.exact ≤ r ^ 2
  b : dot body.bInit.exact body.bInit.exact ≤ r ^ 2
  t : dot body.tInit.exact body.tInit.exact ≤ r ^ 2
  area : (1000 * u * r ^ 2) ^ 2 ≤ dot (cross (vsub body.bInit.exact body.jInit.exact) (vsub body.tInit.exact body.jInit.exact))
    (cross (vsub body.bInit.exact body.jInit.exact) (vsub body.tInit.exact body.jInit.exact))

/-- both parts, before they are taken apart -/
theorem corner_sides (hR : R.rnd = roundBinary prec) (hp : 1 ≤ prec) (hu : 2 ^ (-(prec : ℤ)) ≤ u) (hu' : u ≤ 1 / 500)
    (hs : SqrtAccurate R u) (q : Vec3 (Flt R) × Quat (Flt R)) (hq : 0 < qnormSq q.2.exact) (body : Body (Flt R)) {r : ℚ}
    (hb : ProperTriangle u r body) (L : ℚ) : ∀ s ∈ sidesOf q body,
    let E := vadd (calcRotationQuaternion q.2.exact s.2.2.exact) q.1.exact
    let w := body.width.val
    (|(s.1.x.val + s.2.1.x.val) / 2 - E.x| ≤ u * (64 * r + 3 * |E.x| + w) ∧
      |(s.1.y.val + s.2.1.y.val) / 2 - E.y| ≤ u * (64 * r + 3 * |E.y| + w) ∧
      |(s.1.z.val + s.2.1.z.val) / 2 - E.z| ≤ u * (64 * r + 3 * |E.z| + w)) ∧
    (|E.x| ≤ L → |E.y| ≤ L → |E.z| ≤ L →
      vdist2 s.1.exact s.2.1.exact ≤ (w + u * (r + 5 * L + 10 * w)) ^ 2 ∧
      (0 ≤ w - u * (r + 5 * L + 10 * w) → (w - u * (r + 5 * L + 10 * w)) ^ 2 ≤ vdist2 s.1.exact s.2.1.exact)) := by
  have A := accurate_of hR hp hu hu' hs
  have u0 : 0 < u := lt_of_lt_of_le (two_zpow_pos _) hu
  obtain ⟨n1, n2⟩ := normal_err A hu' u0 hb.radius q.2 hq body.jInit body.bInit body.tInit hb.j hb.b hb.t hb.area
  obtain ⟨o1, o2⟩ := off_err A hu' (w := body.width.val) n1 n2
  set o : Vec3 (Flt R) := Vec3.smulF (ofRat (1 / 2) *ᶠ body.width) (calcNormal (calcRotationQuaternion q.2 body.jInit)
    (calcRotationQuaternion q.2 body.bInit) (calcRotationQuaternion q.2 body.tInit)) with ho
  intro s hs'
  simp only [sidesOf, List.mem_cons, List.not_mem_nil, or_false] at hs'
  rcases hs' with rfl | rfl | rfl
  · exact side_err A hu' u0 hb.radius.le hb.width q hq body.jInit o hb.j o1 o2
  · exact side_err A hu' u0 hb.radius.le hb.width q hq body.bInit o hb.b o1 o2
  · exact side_err A hu' u0 hb.radius.le hb.width q hq body.tInit o hb.t o1 o2

/-- **C71** (middle). The middle of the two corners made from a reference point is the exactly posed reference point `E`,
each coordinate up to `u (64 r + 3 |coordinate| + width)`. -/
theorem C71_middle (hR : R.rnd = roundBinary prec) (hp : 1 ≤ prec) (hu : 2 ^ (-(prec : ℤ)) ≤ u) (hu' : u ≤ 1 / 500)
    (hs : SqrtAccurate R u) (q : Vec3 (Flt R) × Quat (Flt R)) (hq : 0 < qnormSq q.2.exact) (body : Body (Flt R)) {r : ℚ}
    (hb : ProperTriangle u r body) : ∀ s ∈ sidesOf q body,
    let E := vadd (calcRotationQuaternion q.2.exact s.2.2.exact) q.1.exact
    |(s.1.x.val + s.2.1.x.val) / 2 - E.x| ≤ u * (64 * r + 3 * |E.x| + body.width.val) ∧
    |(s.1.y.val + s.2.1.y.val) / 2 - E.y| ≤ u * (64 * r + 3 * |E.y| + body.width.val) ∧
    |(s.1.z.val + s.2.1.z.val) / 2 - E.z| ≤ u * (64 * r + 3 * |E.z| + body.width.val) :=
  fun s h => (corner_sides hR hp hu hu' hs q hq body hb 0 s h).1

/-- **C71** (width). If the coordinates of the exactly posed reference point are at most `L`, the distance of its two corners is the
width of the body up to `u (r + 5 L + 10 width)`. -/
theorem C71_width (hR : R.rnd = roundBinary prec) (hp : 1 ≤ prec) (hu : 2 ^ (-(prec : ℤ)) ≤ u) (hu' : u ≤ 1 / 500)
    (hs : SqrtAccurate R u) (q : Vec3 (Flt R) × Quat (Flt R)) (hq : 0 < qnormSq q.2.exact) (body : Body (Flt R)) {r L : ℚ}
    (hb : ProperTriangle u r body) : ∀ s ∈ sidesOf q body,
    let E := vadd (calcRotationQuaternion q.2.exact s.2.2.exact) q.1.exact
    |E.x| ≤ L → |E.y| ≤ L → |E.z| ≤ L → ∀ δ : ℚ, δ = u * (r + 5 * L + 10 * body.width.val) →
      vdist2 s.1.exact s.2.1.exact ≤ (body.width.val + δ) ^ 2 ∧
      (δ ≤ body.width.val → (body.width.val - δ) ^ 2 ≤ vdist2 s.1.exact s.2.1.exact) := by
  intro s h E hx hy hz δ hδ
  obtain ⟨a, b⟩ := (corner_sides hR hp hu hu' hs q hq body hb L s h).2 hx hy hz
  subst hδ
  exact ⟨a, fun hle => b (sub_nonneg.mpr hle)⟩

/-- **C71** (direction). Let `N` be the exact normal (rotated cross product of the two edges), of length at least `κ`.
From the left to the right corner it is a positive multiple of `N`, up to a vector of length `u (r + 5 L + 3 width) + 2100 u r² width / κ`. -/
theorem C71_direction (hR : R.rnd = roundBinary prec) (hp : 1 ≤ prec) (hu : 2 ^ (-(prec : ℤ)) ≤ u) (hu' : u ≤ 1 / 500)
    (hs : SqrtAccurate R u) (q : Vec3 (Flt R) × Quat (Flt R)) (hq : 0 < qnormSq q.2.exact) (body : Body (Flt R)) {r L κ : ℚ}
    (hb : ProperTriangle u r body) (hκ : 2004 * u * r ^ 2 ≤ κ)
    (hN : κ ^ 2 ≤ dot (cross (vsub body.bInit.exact body.jInit.exact) (vsub body.tInit.exact body.jInit.exact))
      (cross (vsub body.bInit.exact body.jInit.exact) (vsub body.tInit.exact body.jInit.exact))) : ∀ s ∈ sidesOf q body,
    let E := vadd (calcRotationQuaternion q.2.exact s.2.2.exact) q.1.exact
    let N := calcRotationQuaternion q.2.exact (cross (vsub body.bInit.exact body.jInit.exact) (vsub body.tInit.exact body.jInit.exact))
    |E.x| ≤ L → |E.y| ≤ L → |E.z| ≤ L → ∃ μ : ℚ, 0 < μ ∧ vdist2 (vsub s.1.exact s.2.1.exact) (vsmul μ N) ≤
      (u * (r + 5 * L + 3 * body.width.val) + 2100 * u * r ^ 2 / κ * body.width.val) ^ 2 := by
  have A := accurate_of hR hp hu hu' hs
  have u0 : 0 < u := lt_of_lt_of_le (two_zpow_pos _) hu
  obtain ⟨n1, n2⟩ := normal_err A hu' u0 hb.radius q.2 hq body.jInit body.bInit body.tInit hb.j hb.b hb.t hb.area
  obtain ⟨o1, o2⟩ := off_err A hu' (w := body.width.val) n1 n2
  obtain ⟨X, Y, Z, l, l0, hn, hX, hY, hZ⟩ := cross_near A hu' hb.radius.le q.2 hq body.jInit body.bInit body.tInit hb.j hb.b hb.t
  rw [← C05_dot q.2.exact hq.ne'] at hN
  set o : Vec3 (Flt R) := Vec3.smulF (ofRat (1 / 2) *ᶠ body.width) (calcNormal (calcRotationQuaternion q.2 body.jInit)
    (calcRotationQuaternion q.2 body.bInit) (calcRotationQuaternion q.2 body.tInit)) with ho
  have k0 : 0 ≤ R.rnd (R.rnd (1 / 2) * body.width.val) := A.nn (mul_nonneg (A.nn (by norm_num)) hb.width.le)
  have ho' : o.exact = ⟨R.rnd (R.rnd (R.rnd (1 / 2) * body.width.val) * R.rnd (X / l)), R.rnd (R.rnd (R.rnd (1 / 2) * body.width.val) * R.rnd (Y / l)),
      R.rnd (R.rnd (R.rnd (1 / 2) * body.width.val) * R.rnd (Z / l))⟩ := by
    have e : o.exact = ⟨R.rnd (R.rnd (R.rnd (1 / 2) * body.width.val) * (calcNormal (calcRotationQuaternion q.2 body.jInit)
        (calcRotationQuaternion q.2 body.bInit) (calcRotationQuaternion q.2 body.tInit)).exact.x),
      R.rnd (R.rnd (R.rnd (1 / 2) * body.width.val) * (calcNormal (calcRotationQuaternion q.2 body.jInit)
        (calcRotationQuaternion q.2 body.bInit) (calcRotationQuaternion q.2 body.tInit)).exact.y),
      R.rnd (R.rnd (R.rnd (1 / 2) * body.width.val) * (calcNormal (calcRotationQuaternion q.2 body.jInit)
        (calcRotationQuaternion q.2 body.bInit) (calcRotationQuaternion q.2 body.tInit)).exact.z)⟩ := rfl
    rw [e, hn]
  intro s hs'
  simp only [sidesOf, List.mem_cons, List.not_mem_nil, or_false] at hs'
  rcases hs' with rfl | rfl | rfl
  · exact dir_err A hu' u0 hb.radius hb.width q hq body.jInit o hb.j _ X Y Z _ l k0 l0 ho' hX hY hZ o1 o2 hκ hN
  · exact dir_err A hu' u0 hb.radius hb.width q hq body.bInit o hb.b _ X Y Z _ l k0 l0 ho' hX hY hZ o1 o2 hκ hN
  · exact dir_err A hu' u0 hb.radius hb.width q hq body.tInit o hb.t _ X Y Z _ l k0 l0 ho' hX hY hZ o1 o2 hκ hN

/-- **C71** (right angles). The line between two opposite corners is at right angles to every vector `v` in the plane of the exactly
rotated reference points (in particular to both edges), up to the error of `C71_direction` times the length of `v`. -/
theorem C71_square (hR : R.rnd = roundBinary prec) (hp : 1 ≤ prec) (hu : 2 ^ (-(prec : ℤ)) ≤ u) (hu' : u ≤ 1 / 500)
    (hs : SqrtAccurate R u) (q : Vec3 (Flt R) × Quat (Flt R)) (hq : 0 < qnormSq q.2.exact) (body : Body (Flt R)) {r L κ : ℚ}
    (hb : ProperTriangle u r body) (hκ : 2004 * u * r ^ 2 ≤ κ)
    (hN : κ ^ 2 ≤ dot (cross (vsub body.bInit.exact body.jInit.exact) (vsub body.tInit.exact body.jInit.exact))
      (cross (vsub body.bInit.exact body.jInit.exact) (vsub body.tInit.exact body.jInit.exact))) (α β : ℚ) : ∀ s ∈ sidesOf q body,
    let E := vadd (calcRotationQuaternion q.2.exact s.2.2.exact) q.1.exact
    let v := calcRotationQuaternion q.2.exact (vadd (vsmul α (vsub body.bInit.exact body.jInit.exact))
      (vsmul β (vsub body.tInit.exact body.jInit.exact)))
    |E.x| ≤ L → |E.y| ≤ L → |E.z| ≤ L → dot (vsub s.1.exact s.2.1.exact) v ^ 2 ≤
      (u * (r + 5 * L + 3 * body.width.val) + 2100 * u * r ^ 2 / κ * body.width.val) ^ 2 * dot v v := by
  intro s h E v hx hy hz
  obtain ⟨μ, -, hμ⟩ := C71_direction hR hp hu hu' hs q hq body hb hκ hN s h hx hy hz
  set N := calcRotationQuaternion q.2.exact (cross (vsub body.bInit.exact body.jInit.exact) (vsub body.tInit.exact body.jInit.exact))
  have hNv : dot N v = 0 := by
    rw [C05_dot _ hq.ne']
    simp only [dot, cross, vadd, vsmul, vsub]
    ring
  generalize vsub s.1.exact s.2.1.exact = D at *
  have e : dot D v = dot (vsub D (vsmul μ N)) v := by
    have : dot (vsub D (vsmul μ N)) v = dot D v - μ * dot N v := by simp only [dot, vsub, vsmul]; ring
    rw [this, hNv, mul_zero, sub_zero]
  rw [e]
  have cs : ∀ a b : Vec3 ℚ, dot a b ^ 2 ≤ dot a a * dot b b := by
    intro a b
    simp only [dot]
    nlinarith [sq_nonneg (a.x * b.y - a.y * b.x), sq_nonneg (a.x * b.z - a.z * b.x), sq_nonneg (a.y * b.z - a.z * b.y)]
  refine (cs _ _).trans (mul_le_mul_of_nonneg_right hμ ?_)
  simp only [dot]
  nlinarith [mul_self_nonneg v.x, mul_self_nonneg v.y, mul_self_nonneg v.z]

end Rounded

/-- the bucket of the example meets the hypotheses -/
theorem plcTriangle : ProperTriangle (2 ^ (-23 : ℤ)) 1 (plcBody .bucket) := by
  refine ⟨one_pos, ?_, ?_, ?_, ?_, ?_⟩ <;> decide +kernel

/-- In single precision, its six corners are in the middle within 9 millionths (in x) and at the distance of the width, 0.6, within 2 millionths. -/
example : ∀ s ∈ sidesOf plcPose2 (plcBody .bucket),
    let E := vadd (calcRotationQuaternion plcPose2.2.exact s.2.2.exact) plcPose2.1.exact
    |(s.1.x.val + s.2.1.x.val) / 2 - E.x| ≤ 9 / 1000000 ∧
      vdist2 s.1.exact s.2.1.exact ≤ (6 / 10 + 2 / 1000000) ^ 2 ∧ (6 / 10 - 2 / 1000000) ^ 2 ≤ vdist2 s.1.exact s.2.1.exact := by
  intro s h E
  have hE : ∀ s ∈ sidesOf plcPose2 (plcBody .bucket),
      |(vadd (calcRotationQuaternion plcPose2.2.exact s.2.2.exact) plcPose2.1.exact).x| ≤ 1 ∧
      |(vadd (calcRotationQuaternion plcPose2.2.exact s.2.2.exact) plcPose2.1.exact).y| ≤ 1 ∧
      |(vadd (calcRotationQuaternion plcPose2.2.exact s.2.2.exact) plcPose2.1.exact).z| ≤ 1 := by
    have : ((sidesOf plcPose2 (plcBody .bucket)).all fun s =>
      decide (|(vadd (calcRotationQuaternion plcPose2.2.exact s.2.2.exact) plcPose2.1.exact).x| ≤ 1) &&
      decide (|(vadd (calcRotationQuaternion plcPose2.2.exact s.2.2.exact) plcPose2.1.exact).y| ≤ 1) &&
      decide (|(vadd (calcRotationQuaternion plcPose2.2.exact s.2.2.exact) plcPose2.1.exact).z| ≤ 1)) = true := by decide +kernel
    intro s hs
    have := List.all_eq_true.mp this s hs
    simp only [Bool.and_eq_true, decide_eq_true_eq] at this
    exact ⟨this.1.1, this.1.2, this.2⟩
  obtain ⟨hx, hy, hz⟩ := hE s h
  have hw : (plcBody .bucket).width.val = 6 / 10 := rfl
  obtain ⟨m, -, -⟩ := C71_middle (R := plcR) (prec := 24) rfl (by norm_num) (by norm_num) (by norm_num) plcR_sqrt plcPose2 (by decide +kernel)
    (plcBody .bucket) plcTriangle s h
  obtain ⟨a, b⟩ := C71_width (R := plcR) (prec := 24) rfl (by norm_num) (by norm_num) (by norm_num) plcR_sqrt plcPose2 (by decide +kernel)
    (plcBody .bucket) plcTriangle s h hx hy hz _ rfl
  rw [hw] at m a b
  refine ⟨m.trans ?_, a.trans ?_, le_trans ?_ (b ?_)⟩
  · have := mul_le_mul_of_nonneg_left (show (64 * 1 + 3 * |E.x| + 6 / 10 : ℚ) ≤ 68 by linarith) (by norm_num : (0 : ℚ) ≤ 2 ^ (-23 : ℤ))
    refine this.trans ?_
    norm_num
  · norm_num
  · norm_num
  · norm_num

/-- In single precision, from each left to each right corner it is a positive multiple of the exact normal up to half a millimetre. -/
example : ∀ s ∈ sidesOf plcPose2 (plcBody .bucket),
    let N := calcRotationQuaternion plcPose2.2.exact (cross (vsub (plcBody .bucket).bInit.exact (plcBody .bucket).jInit.exact)
      (vsub (plcBody .bucket).tInit.exact (plcBody .bucket).jInit.exact))
    ∃ μ : ℚ, 0 < μ ∧ vdist2 (vsub s.1.exact s.2.1.exact) (vsmul μ N) ≤ (5 / 10000) ^ 2 := by
  intro s h
  have : ((sidesOf plcPose2 (plcBody .bucket)).all fun s =>
      decide (|(vadd (calcRotationQuaternion plcPose2.2.exact s.2.2.exact) plcPose2.1.exact).x| ≤ 1) &&
      decide (|(vadd (calcRotationQuaternion plcPose2.2.exact s.2.2.exact) plcPose2.1.exact).y| ≤ 1) &&
      decide (|(vadd (calcRotationQuaternion plcPose2.2.exact s.2.2.exact) plcPose2.1.exact).z| ≤ 1)) = true := by decide +kernel
  have := List.all_eq_true.mp this s h
  simp only [Bool.and_eq_true, decide_eq_true_eq] at this
  have hw : (plcBody .bucket).width.val = 6 / 10 := rfl
  obtain ⟨μ, m0, hμ⟩ := C71_direction (R := plcR) (prec := 24) rfl (by norm_num) (by norm_num) (by norm_num) plcR_sqrt plcPose2 (by decide +kernel)
    (plcBody .bucket) (κ := 34 / 100) plcTriangle (by norm_num) (by decide +kernel) s h this.1.1 this.1.2 this.2
  refine ⟨μ, m0, hμ.trans ?_⟩
  rw [hw]
  norm_num

end Soil
