import Verif.Proof.BladeBack

/-! # Property C69: where the back of the blade is

The blade is given by its front; `CalcBodyPos` for a blade draws a second copy of the six vertices
behind it (body_pos.cpp 149-167). The documentation (types.hpp 310-314, docs/blade.rst 23-27) speaks
of a constant thickness of two cells. -/

namespace Soil

/-- **C69**. In every pose the back of the blade is the front moved by one vector. The vector is one
column (`cell_size_xy`) long, at right angles to the ankle (the rectangle of joint and base), and
points to the side of the ankle away from the teeth. -/
theorem C69_back (pos : Vec3 ℝ) (ori : Quat ℝ) (g : Grid ℝ) (body : Body ℝ)
    (hq : qnormSq ori ≠ 0) (hb : NonCollinear body.jInit body.bInit body.tInit)
    (hw : 0 < body.width) (hg : 0 < g.cellXY) :
    let c := calcBodyCornerPos pos ori body
    ∃ d : Vec3 ℝ, (∀ f ∈ cornerFns, f (bladeBack g c) = vadd (f c) d) ∧
      Real.sqrt (dot d d) = g.cellXY ∧
      dot d (vsub c.jr c.jl) = 0 ∧ dot d (vsub c.bl c.jl) = 0 ∧ dot d (vsub c.br c.jr) = 0 ∧
      dot d (vsub c.tl c.jl) < 0 ∧ dot d (vsub c.tr c.jr) < 0 := by
  intro c
  obtain ⟨p1, p2, p3, p4⟩ := ankleN_props body hb hw
  refine ⟨vsmul g.cellXY (calcNormal c.jr c.jl c.bl), fun f hf => bladeBack_vadd g c f hf, ?_⟩
  have hn : calcNormal c.jr c.jl c.bl = calcRotationQuaternion ori (ankleN body) :=
    normal_posed pos ori body hq
  have hc : ∀ f ∈ cornerFns, f c = posed pos ori (f (frontRef body)) :=
    fun f hf => corner_posed pos ori body hq f hf
  have key : ∀ f ∈ cornerFns, ∀ k ∈ cornerFns,
      dot (vsmul g.cellXY (calcNormal c.jr c.jl c.bl)) (vsub (f c) (k c)) =
        g.cellXY * dot (ankleN body) (vsub (f (frontRef body)) (k (frontRef body))) := by
    intro f hf k hk
    rw [hc f hf, hc k hk, posed_sub _ _ hq, hn, dot_smul_left, C05_dot ori hq]
  have m1 : Corners.jr ∈ cornerFns := by simp [cornerFns]
  have m2 : Corners.jl ∈ cornerFns := by simp [cornerFns]
  have m3 : Corners.br ∈ cornerFns := by simp [cornerFns]
  have m4 : Corners.bl ∈ cornerFns := by simp [cornerFns]
  have m5 : Corners.tr ∈ cornerFns := by simp [cornerFns]
  have m6 : Corners.tl ∈ cornerFns := by simp [cornerFns]
  have e1 : vsub (frontRef body).jr (frontRef body).jl = vsmul (body.width *
      (1 / Real.sqrt (dot (cross (vsub body.bInit body.jInit) (vsub body.tInit body.jInit))
        (cross (vsub body.bInit body.jInit) (vsub body.tInit body.jInit)))))
      (cross (vsub body.bInit body.jInit) (vsub body.tInit body.jInit)) := by
    simp only [frontRef, calcNormal_eq]
    generalize 1 / Real.sqrt _ = k
    simp only [cross, vsub, vadd, vsmul]
    apply Vec3.ext' <;> dsimp only <;> ring
  have e2 : vsub (frontRef body).bl (frontRef body).jl = vsub body.bInit body.jInit := by
    simp only [frontRef, vsub]; apply Vec3.ext' <;> dsimp only <;> ring
  have e3 : vsub (frontRef body).br (frontRef body).jr = vsub body.bInit body.jInit := by
    simp only [frontRef, vsub, vadd]; apply Vec3.ext' <;> dsimp only <;> ring
  have e4 : vsub (frontRef body).tl (frontRef body).jl = vsub body.tInit body.jInit := by
    simp only [frontRef, vsub]; apply Vec3.ext' <;> dsimp only <;> ring
  have e5 : vsub (frontRef body).tr (frontRef body).jr = vsub body.tInit body.jInit := by
    simp only [frontRef, vsub, vadd]; apply Vec3.ext' <;> dsimp only <;> ring
  refine ⟨?_, ?_, ?_, ?_, ?_, ?_⟩
  · rw [hn, dot_smul_left, dot_smul_right, C05_dot ori hq, p1, mul_one, Real.sqrt_mul_self hg.le]
  · rw [key _ m1 _ m2, e1, dot_smul_right]
    rw [show dot (ankleN body) (cross (vsub body.bInit body.jInit)
      (vsub body.tInit body.jInit)) = 0 from p2]
    ring
  · rw [key _ m4 _ m2, e2, show dot (ankleN body) (vsub body.bInit body.jInit) = 0 from p3, mul_zero]
  · rw [key _ m3 _ m1, e3, show dot (ankleN body) (vsub body.bInit body.jInit) = 0 from p3, mul_zero]
  · rw [key _ m6 _ m2, e4]; exact mul_neg_of_pos_of_neg hg p4
  · rw [key _ m5 _ m1, e5]; exact mul_neg_of_pos_of_neg hg p4

/-- **C69**. Each vertex of the back is one column away from the vertex in front of it; it is never
two columns away, as the documentation of the class says. -/
theorem C69_thickness (pos : Vec3 ℝ) (ori : Quat ℝ) (g : Grid ℝ) (body : Body ℝ)
    (hq : qnormSq ori ≠ 0) (hb : NonCollinear body.jInit body.bInit body.tInit)
    (hw : 0 < body.width) (hg : 0 < g.cellXY) (f : Corners ℝ → Vec3 ℝ) (hf : f ∈ cornerFns) :
    let c := calcBodyCornerPos pos ori body
    edist3 (f c) (f (bladeBack g c)) = g.cellXY ∧
      edist3 (f c) (f (bladeBack g c)) ≠ 2 * g.cellXY := by
  intro c
  obtain ⟨d, h1, h2, -⟩ := C69_back pos ori g body hq hb hw hg
  have h3 : edist3 (f c) (f (bladeBack g c)) = g.cellXY := by
    rw [← h2, h1 f hf]
    unfold edist3
    congr 1
    simp only [dot, vsub, vadd, c]; ring
  refine ⟨h3, ?_⟩
  rw [h3]
  intro h
  linarith

/-- **C69**. The back moves rigidly with the body: its vertices are the images of six points that do
not depend on the pose. -/
theorem C69_rigid (g : Grid ℝ) (body : Body ℝ) :
    ∃ r : Corners ℝ, ∀ (pos : Vec3 ℝ) (ori : Quat ℝ), qnormSq ori ≠ 0 → ∀ f ∈ cornerFns,
      f (bladeBack g (calcBodyCornerPos pos ori body)) = posed pos ori (f r) := by
  refine ⟨bladeBack g (frontRef body), ?_⟩
  intro pos ori hq f hf
  rw [bladeBack_vadd g _ f hf, bladeBack_vadd g _ f hf, corner_posed pos ori body hq f hf,
    normal_posed pos ori body hq, ← (C05_linear ori hq (ankleN body) (ankleN body) g.cellXY).2]
  show _ = posed pos ori (vadd (f (frontRef body)) (vsmul g.cellXY (ankleN body)))
  unfold posed
  rw [(C05_linear ori hq _ _ 0).1]
  unfold vadd; apply Vec3.ext' <;> dsimp only <;> ring

/-- **C69**. The heel (joint and teeth) is thinner than the ankle: the lines of the front and of the
back from joint to teeth are parallel, and their distance is a column times the cosine of the angle
between ankle and heel (distance of the parallel lines: area of the parallelogram over its base).
-/
theorem C69_heel (pos : Vec3 ℝ) (ori : Quat ℝ) (g : Grid ℝ) (body : Body ℝ)
    (hq : qnormSq ori ≠ 0) (hb : NonCollinear body.jInit body.bInit body.tInit)
    (hw : 0 < body.width) :
    let c := calcBodyCornerPos pos ori body
    let e := bladeBack g c
    let d := vsub e.jl c.jl
    let u := vsub c.bl c.jl
    let v := vsub c.tl c.jl
    vsub e.tl e.jl = v ∧
    dot (cross d v) (cross d v) / dot v v =
      g.cellXY ^ 2 * (dot u v ^ 2 / (dot u u * dot v v)) := by
  intro c e d u v
  obtain ⟨p1, p2, p3, p4⟩ := ankleN_props body hb hw
  have hn : calcNormal c.jr c.jl c.bl = calcRotationQuaternion ori (ankleN body) :=
    normal_posed pos ori body hq
  have m2 : Corners.jl ∈ cornerFns := by simp [cornerFns]
  have m4 : Corners.bl ∈ cornerFns := by simp [cornerFns]
  have m6 : Corners.tl ∈ cornerFns := by simp [cornerFns]
  have hd : d = vsmul g.cellXY (calcRotationQuaternion ori (ankleN body)) := by
    show vsub (bladeBack g c).jl c.jl = _
    rw [bladeBack_vadd g c _ m2, hn]
    unfold vsub vadd; apply Vec3.ext' <;> dsimp only <;> ring
  have hu : u = calcRotationQuaternion ori (vsub body.bInit body.jInit) := by
    show vsub (calcBodyCornerPos pos ori body).bl (calcBodyCornerPos pos ori body).jl = _
    rw [corner_posed pos ori body hq _ m2, corner_posed pos ori body hq _ m4, posed_sub _ _ hq]
    congr 1
    simp only [frontRef, vsub]; apply Vec3.ext' <;> dsimp only <;> ring
  have hv : v = calcRotationQuaternion ori (vsub body.tInit body.jInit) := by
    show vsub (calcBodyCornerPos pos ori body).tl (calcBodyCornerPos pos ori body).jl = _
    rw [corner_posed pos ori body hq _ m2, corner_posed pos ori body hq _ m6, posed_sub _ _ hq]
    congr 1
    simp only [frontRef, vsub]; apply Vec3.ext' <;> dsimp only <;> ring
  have hdu : dot d u = 0 := by
    rw [hd, hu, dot_smul_left, C05_dot ori hq]
    exact mul_eq_zero_of_right _ p3
  have hdc : dot d (cross u v) = 0 := by
    rw [hd, hu, hv, C05_cross ori hq, dot_smul_left, C05_dot ori hq]
    exact mul_eq_zero_of_right _ p2
  have hdd : dot d d = g.cellXY ^ 2 := by
    rw [hd, dot_smul_left, dot_smul_right, C05_dot ori hq, p1]; ring
  have hG := gram3 d u v hdu hdc
  have hu0 : dot u u ≠ 0 := by
    rw [hu, C05_dot ori hq]
    have : vsub body.bInit body.jInit ≠ ⟨0, 0, 0⟩ := by
      intro h0
      apply hb
      rw [h0]; simp [cross]
    exact (dot_self_pos this).ne'
  have hv0 : dot v v ≠ 0 := by
    rw [hv, C05_dot ori hq]
    have : vsub body.tInit body.jInit ≠ ⟨0, 0, 0⟩ := by
      intro h0
      rw [h0] at p4
      simp [dot] at p4
    exact (dot_self_pos this).ne'
  refine ⟨?_, ?_⟩
  · show vsub (bladeBack g c).tl (bladeBack g c).jl = vsub c.tl c.jl
    rw [bladeBack_vadd g c _ m2, bladeBack_vadd g c _ m6]
    unfold vsub vadd; apply Vec3.ext' <;> dsimp only <;> ring
  · rw [hdd] at hG
    field_simp
    linarith

/-- **C69**. A heel at right angles to the ankle has no thickness at all: the back of the joint is on
the line through the front of joint and teeth. -/
theorem C69_flat (pos : Vec3 ℝ) (ori : Quat ℝ) (g : Grid ℝ) (body : Body ℝ)
    (hq : qnormSq ori ≠ 0) (hb : NonCollinear body.jInit body.bInit body.tInit)
    (hw : 0 < body.width)
    (hr : dot (vsub body.bInit body.jInit) (vsub body.tInit body.jInit) = 0) :
    let c := calcBodyCornerPos pos ori body
    ∃ k : ℝ, (bladeBack g c).jl = vadd c.jl (vsmul k (vsub c.tl c.jl)) := by
  intro c
  obtain ⟨h1, h2⟩ := C69_heel pos ori g body hq hb hw
  obtain ⟨p1, p2, p3, p4⟩ := ankleN_props body hb hw
  have m2 : Corners.jl ∈ cornerFns := by simp [cornerFns]
  have m4 : Corners.bl ∈ cornerFns := by simp [cornerFns]
  have m6 : Corners.tl ∈ cornerFns := by simp [cornerFns]
  have hu : vsub c.bl c.jl = calcRotationQuaternion ori (vsub body.bInit body.jInit) := by
    show vsub (calcBodyCornerPos pos ori body).bl (calcBodyCornerPos pos ori body).jl = _
    rw [corner_posed pos ori body hq _ m2, corner_posed pos ori body hq _ m4, posed_sub _ _ hq]
    congr 1
    simp only [frontRef, vsub]; apply Vec3.ext' <;> dsimp only <;> ring
  have hv : vsub c.tl c.jl = calcRotationQuaternion ori (vsub body.tInit body.jInit) := by
    show vsub (calcBodyCornerPos pos ori body).tl (calcBodyCornerPos pos ori body).jl = _
    rw [corner_posed pos ori body hq _ m2, corner_posed pos ori body hq _ m6, posed_sub _ _ hq]
    congr 1
    simp only [frontRef, vsub]; apply Vec3.ext' <;> dsimp only <;> ring
  have hv0 : 0 < dot (vsub c.tl c.jl) (vsub c.tl c.jl) := by
    rw [hv, C05_dot ori hq]
    have : vsub body.tInit body.jInit ≠ ⟨0, 0, 0⟩ := by
      intro h0
      rw [h0] at p4
      simp [dot] at p4
    exact dot_self_pos this
  have huv : dot (vsub c.bl c.jl) (vsub c.tl c.jl) = 0 := by
    rw [hu, hv, C05_dot ori hq, hr]
  have h3 : dot (cross (vsub (bladeBack g c).jl c.jl) (vsub c.tl c.jl))
      (cross (vsub (bladeBack g c).jl c.jl) (vsub c.tl c.jl)) = 0 := by
    have h4 : dot (cross (vsub (bladeBack g c).jl c.jl) (vsub c.tl c.jl))
      (cross (vsub (bladeBack g c).jl c.jl) (vsub c.tl c.jl)) /
        dot (vsub c.tl c.jl) (vsub c.tl c.jl) = 0 := by
      refine h2.trans ?_
      show g.cellXY ^ 2 * (dot (vsub c.bl c.jl) (vsub c.tl c.jl) ^ 2 / _) = 0
      rw [huv]; ring
    rcases div_eq_zero_iff.mp h4 with h | h
    · exact h
    · exact absurd h hv0.ne'
  have h5 : cross (vsub (bladeBack g c).jl c.jl) (vsub c.tl c.jl) = ⟨0, 0, 0⟩ := by
    by_contra h
    exact (dot_self_pos h).ne' h3
  refine ⟨dot (vsub (bladeBack g c).jl c.jl) (vsub c.tl c.jl) /
    dot (vsub c.tl c.jl) (vsub c.tl c.jl), ?_⟩
  generalize hD : vsub (bladeBack g c).jl c.jl = d at *
  generalize hV : vsub c.tl c.jl = v at *
  have hx : v.x * dot d v = d.x * dot v v := by
    have a := congrArg Vec3.y h5; have b := congrArg Vec3.z h5
    simp only [cross, dot] at *
    linear_combination v.z * a - v.y * b
  have hy : v.y * dot d v = d.y * dot v v := by
    have a := congrArg Vec3.x h5; have b := congrArg Vec3.z h5
    simp only [cross, dot] at *
    linear_combination v.x * b - v.z * a
  have hz : v.z * dot d v = d.z * dot v v := by
    have a := congrArg Vec3.x h5; have b := congrArg Vec3.y h5
    simp only [cross, dot] at *
    linear_combination v.y * a - v.x * b
  have hk : vsmul (dot d v / dot v v) v = d := by
    unfold vsmul
    apply Vec3.ext' <;> dsimp only <;> rw [div_mul_eq_mul_div, div_eq_iff hv0.ne'] <;> linarith
  rw [hk, ← hD]
  unfold vsub vadd; apply Vec3.ext' <;> dsimp only <;> ring

/-- the blade of the example program (main.cpp 44-50) -/
noncomputable def exBlade : Body ℝ :=
  { kind := .blade, jInit := ⟨9 / 10, 0, 1 / 5⟩, bInit := ⟨3 / 4, 0, 3 / 2⟩,
    tInit := ⟨8 / 5, 0, -(2 / 5)⟩, width := 9 / 2, pos := ⟨0, 0, 0⟩, ori := ⟨1, 0, 0, 0⟩ }

example : NonCollinear exBlade.jInit exBlade.bInit exBlade.tInit ∧ 0 < exBlade.width ∧
    qnormSq (⟨1, 2, 0, 0⟩ : Quat ℝ) ≠ 0 := by
  refine ⟨?_, by norm_num [exBlade], by norm_num [qnormSq]⟩
  unfold NonCollinear cross vsub exBlade
  norm_num

/-- a blade with its heel at right angles to its ankle -/
example : NonCollinear (⟨0, 0, 0⟩ : Vec3 ℝ) ⟨0, 0, 1⟩ ⟨1, 0, 0⟩ ∧
    dot (vsub (⟨0, 0, 1⟩ : Vec3 ℝ) ⟨0, 0, 0⟩) (vsub ⟨1, 0, 0⟩ ⟨0, 0, 0⟩) = 0 := by
  refine ⟨?_, ?_⟩
  · unfold NonCollinear cross vsub; norm_num
  · simp [dot, vsub]

end Soil
