import Verif.Props.BodyGeometry
import Verif.Model.BodyPos

/-! # The back of the blade: lemmas for C69 -/

namespace Soil

theorem dot_smul_left (k : ℝ) (u v : Vec3 ℝ) : dot (vsmul k u) v = k * dot u v := by
  unfold dot vsmul; ring

theorem dot_smul_right (k : ℝ) (u v : Vec3 ℝ) : dot u (vsmul k v) = k * dot u v := by
  unfold dot vsmul; ring

/-- the front corners of the body in its reference pose (compare C09) -/
noncomputable def frontRef (body : Body ℝ) : Corners ℝ :=
  let n := vsmul (1 / 2 * body.width) (calcNormal body.jInit body.bInit body.tInit)
  ⟨vadd body.jInit n, vsub body.jInit n, vadd body.bInit n, vsub body.bInit n,
    vadd body.tInit n, vsub body.tInit n⟩

theorem bladeBack_vadd (g : Grid ℝ) (c : Corners ℝ) (f : Corners ℝ → Vec3 ℝ) (hf : f ∈ cornerFns) :
    f (bladeBack g c) = vadd (f c) (vsmul g.cellXY (calcNormal c.jr c.jl c.bl)) := by
  simp only [cornerFns, List.mem_cons, List.not_mem_nil, or_false] at hf
  rcases hf with rfl | rfl | rfl | rfl | rfl | rfl <;>
    simp only [bladeBack, Vec3.addF, Vec3.smulF, ex_add, ex_mul, vadd, vsmul]

theorem posed_sub (pos : Vec3 ℝ) (ori : Quat ℝ) (hq : qnormSq ori ≠ 0) (p r : Vec3 ℝ) :
    vsub (posed pos ori p) (posed pos ori r) = calcRotationQuaternion ori (vsub p r) := by
  unfold posed
  simp only [rot_eq ori _ hq, vsub, vadd]
  apply Vec3.ext' <;> dsimp only <;> ring

theorem corner_posed (pos : Vec3 ℝ) (ori : Quat ℝ) (body : Body ℝ) (hq : qnormSq ori ≠ 0)
    (f : Corners ℝ → Vec3 ℝ) (hf : f ∈ cornerFns) :
    f (calcBodyCornerPos pos ori body) = posed pos ori (f (frontRef body)) := by
  rw [C09_rigid pos ori body hq]
  simp only [cornerFns, List.mem_cons, List.not_mem_nil, or_false] at hf
  rcases hf with rfl | rfl | rfl | rfl | rfl | rfl <;> rfl

/-- the normal of the ankle in the reference pose -/
noncomputable def ankleN (body : Body ℝ) : Vec3 ℝ :=
  calcNormal (frontRef body).jr (frontRef body).jl (frontRef body).bl

theorem normal_posed (pos : Vec3 ℝ) (ori : Quat ℝ) (body : Body ℝ) (hq : qnormSq ori ≠ 0) :
    let c := calcBodyCornerPos pos ori body
    calcNormal c.jr c.jl c.bl = calcRotationQuaternion ori (ankleN body) := by
  intro c
  have h1 := corner_posed pos ori body hq Corners.jr (by simp [cornerFns])
  have h2 := corner_posed pos ori body hq Corners.jl (by simp [cornerFns])
  have h3 := corner_posed pos ori body hq Corners.bl (by simp [cornerFns])
  show calcNormal (calcBodyCornerPos pos ori body).jr (calcBodyCornerPos pos ori body).jl
    (calcBodyCornerPos pos ori body).bl = _
  rw [h1, h2, h3]
  exact C08_equivariant ori hq pos _ _ _

/-- the cross product that gives the direction to the back -/
theorem ankle_cross (body : Body ℝ) :
    let u := vsub body.bInit body.jInit
    let v := vsub body.tInit body.jInit
    let N := cross u v
    let r := frontRef body
    cross (vsub r.jl r.jr) (vsub r.bl r.jr) =
      vsmul (-(body.width * (1 / Real.sqrt (dot N N)))) (cross N u) := by
  intro u v N r
  simp only [r, frontRef, calcNormal_eq]
  show _ = vsmul (-(body.width * (1 / Real.sqrt (dot N N)))) (cross N u)
  have hN : cross (vsub body.bInit body.jInit) (vsub body.tInit body.jInit) = N := rfl
  rw [hN]
  generalize 1 / Real.sqrt (dot N N) = k
  generalize N = M
  simp only [u, cross, vsub, vadd, vsmul]
  apply Vec3.ext' <;> dsimp only <;> ring

theorem triple (u v : Vec3 ℝ) : dot (cross (cross u v) u) v = dot (cross u v) (cross u v) := by
  simp only [dot, cross]; ring

theorem ankleN_props (body : Body ℝ) (hb : NonCollinear body.jInit body.bInit body.tInit)
    (hw : 0 < body.width) :
    let u := vsub body.bInit body.jInit
    let v := vsub body.tInit body.jInit
    dot (ankleN body) (ankleN body) = 1 ∧ dot (ankleN body) (cross u v) = 0 ∧
      dot (ankleN body) u = 0 ∧ dot (ankleN body) v < 0 := by
  intro u v
  have hN : 0 < dot (cross u v) (cross u v) := dot_self_pos hb
  have hs : 0 < Real.sqrt (dot (cross u v) (cross u v)) := Real.sqrt_pos.mpr hN
  have hW := ankle_cross body
  dsimp only at hW
  have hneg : dot (cross (vsub (frontRef body).jl (frontRef body).jr)
      (vsub (frontRef body).bl (frontRef body).jr)) v < 0 := by
    rw [hW, dot_smul_left, triple]
    have : 0 < body.width * (1 / Real.sqrt (dot (cross u v) (cross u v))) := by positivity
    have h2 := mul_pos this hN
    show -(body.width * (1 / Real.sqrt (dot (cross u v) (cross u v)))) *
      dot (cross u v) (cross u v) < 0
    linarith
  have hnc : NonCollinear (frontRef body).jr (frontRef body).jl (frontRef body).bl := by
    intro h0
    rw [h0] at hneg
    simp [dot] at hneg
  have h1 := (C08_normal _ _ _ hnc).1
  refine ⟨h1, ?_, ?_, ?_⟩
  · unfold ankleN
    have : dot (cross (cross u v) u) (cross u v) = 0 := by simp only [dot, cross]; ring
    rw [calcNormal_eq, dot_smul_left]
    refine mul_eq_zero_of_right _ ?_
    rw [hW, dot_smul_left]
    exact mul_eq_zero_of_right _ this
  · unfold ankleN
    have : dot (cross (cross u v) u) u = 0 := by simp only [dot, cross]; ring
    rw [calcNormal_eq, dot_smul_left]
    refine mul_eq_zero_of_right _ ?_
    rw [hW, dot_smul_left]
    exact mul_eq_zero_of_right _ this
  · unfold ankleN
    rw [calcNormal_eq, dot_smul_left]
    have hp := dot_self_pos hnc
    have : 0 < 1 / Real.sqrt (dot (cross (vsub (frontRef body).jl (frontRef body).jr)
      (vsub (frontRef body).bl (frontRef body).jr))
      (cross (vsub (frontRef body).jl (frontRef body).jr)
      (vsub (frontRef body).bl (frontRef body).jr))) := by
      have := Real.sqrt_pos.mpr hp
      positivity
    exact mul_neg_of_pos_of_neg this hneg

theorem gram3 (d u v : Vec3 ℝ) (h1 : dot d u = 0) (h2 : dot d (cross u v) = 0) :
    dot (cross d v) (cross d v) * dot u u = dot d d * dot u v ^ 2 := by
  simp only [dot, cross] at *
  linear_combination (d.x * (u.y * v.z - u.z * v.y) + d.y * (u.z * v.x - u.x * v.z) +
      d.z * (u.x * v.y - u.y * v.x)) * h2 +
    (-2 * (u.x * v.x + u.y * v.y + u.z * v.z) * (d.x * v.x + d.y * v.y + d.z * v.z) +
      (v.x * v.x + v.y * v.y + v.z * v.z) * (d.x * u.x + d.y * u.y + d.z * u.z)) * h1

end Soil
