import Verif.Proof.CornerFlt

/-! # Direction of the width of the body in rounded arithmetic: lemmas for C71 -/

namespace Soil

open FOps

section Rounded

variable {R : Rounding} {prec : ℕ} {u : ℚ}

variable (A : Accurate R prec u)

include A

/-- The computed normal is a computed cross product divided by its computed length, and the cross product is accurate. -/
theorem cross_near (hu : u ≤ 1 / 500) {r : ℚ} (hr : 0 ≤ r) (q : Quat (Flt R)) (hq : 0 < qnormSq q.exact) (J B T : Vec3 (Flt R))
    (hJ : dot J.exact J.exact ≤ r ^ 2) (hB : dot B.exact B.exact ≤ r ^ 2) (hT : dot T.exact T.exact ≤ r ^ 2) :
    let n := (calcNormal (calcRotationQuaternion q J) (calcRotationQuaternion q B) (calcRotationQuaternion q T)).exact
    let N := calcRotationQuaternion q.exact (cross (vsub B.exact J.exact) (vsub T.exact J.exact))
    ∃ X Y Z s : ℚ, 0 ≤ s ∧ n = ⟨R.rnd (X / s), R.rnd (Y / s), R.rnd (Z / s)⟩ ∧
      (|X - N.x| ≤ 550 * u * r ^ 2 ∧ |N.x| ≤ 8 * r ^ 2) ∧ (|Y - N.y| ≤ 550 * u * r ^ 2 ∧ |N.y| ≤ 8 * r ^ 2) ∧
      (|Z - N.z| ≤ 550 * u * r ^ 2 ∧ |N.z| ≤ 8 * r ^ 2) := by
  have u0 := A.pos
  have near : ∀ V : Vec3 (Flt R), dot V.exact V.exact ≤ r ^ 2 →
      (|(calcRotationQuaternion q.exact V.exact).x| ≤ r ∧ |(calcRotationQuaternion q.exact V.exact).y| ≤ r ∧
        |(calcRotationQuaternion q.exact V.exact).z| ≤ r) ∧
      |(calcRotationQuaternion q V).x.val - (calcRotationQuaternion q.exact V.exact).x| ≤ 29 * u * r ∧
      |(calcRotationQuaternion q V).y.val - (calcRotationQuaternion q.exact V.exact).y| ≤ 29 * u * r ∧
      |(calcRotationQuaternion q V).z.val - (calcRotationQuaternion q.exact V.exact).z| ≤ 29 * u * r := by
    intro V hV
    refine ⟨coords_le hr (by rw [C05_dot _ hq.ne']; exact hV), ?_⟩
    refine coords_within (a := (calcRotationQuaternion q V).exact) (by positivity) ?_
    refine (rot_err A hu q hq V).trans ?_
    rw [mul_pow (29 * u) r]
    exact mul_le_mul_of_nonneg_left hV (sq_nonneg _)
  obtain ⟨⟨jx, jy, jz⟩, jx', jy', jz'⟩ := near J hJ
  obtain ⟨⟨bx, bY, bz⟩, bx', by', bz'⟩ := near B hB
  obtain ⟨⟨tx, ty, tz⟩, tx', ty', tz'⟩ := near T hT
  intro n N
  have hN : N = cross (vsub (calcRotationQuaternion q.exact B.exact) (calcRotationQuaternion q.exact J.exact))
        (vsub (calcRotationQuaternion q.exact T.exact) (calcRotationQuaternion q.exact J.exact)) := by
    rw [rot_sub hq.ne', rot_sub hq.ne', C05_cross _ hq.ne']
  obtain ⟨p1, p1'⟩ := edge_err A hu hr jx bx jx' bx'
  obtain ⟨p2, p2'⟩ := edge_err A hu hr jy bY jy' by'
  obtain ⟨p3, p3'⟩ := edge_err A hu hr jz bz jz' bz'
  obtain ⟨s1, s1'⟩ := edge_err A hu hr jx tx jx' tx'
  obtain ⟨s2, s2'⟩ := edge_err A hu hr jy ty jy' ty'
  obtain ⟨s3, s3'⟩ := edge_err A hu hr jz tz jz' tz'
  have cx := cross_err A hu hr p2 s3 p3 s2 p2' s3' p3' s2'
  have cy := cross_err A hu hr p3 s1 p1 s3 p3' s1' p1' s3'
  have cz := cross_err A hu hr p1 s2 p2 s1 p1' s2' p2' s1'
  have big : ∀ {a b c d : ℚ}, |a| ≤ 2 * r → |b| ≤ 2 * r → |c| ≤ 2 * r → |d| ≤ 2 * r → |a * b - c * d| ≤ 8 * r ^ 2 := by
    intro a b c d ha hb hc hd
    have h1 : |a * b| ≤ 2 * r * (2 * r) := by rw [abs_mul]; exact mul_le_mul ha hb (abs_nonneg _) (by positivity)
    have h2 : |c * d| ≤ 2 * r * (2 * r) := by rw [abs_mul]; exact mul_le_mul hc hd (abs_nonneg _) (by positivity)
    have := abs_sub (a * b) (c * d)
    linarith
  rw [hN]
  exact ⟨_, _, _, _, (A.norm3 _ _ _).2.2, rfl, ⟨cx, big p2 s3 p3 s2⟩, ⟨cy, big p3 s1 p1 s3⟩, cz, big p1 s2 p2 s1⟩

/-- one coordinate of the offset -/
theorem off_near (hu : u ≤ 1 / 500) {r k s X N : ℚ} (hk : 0 ≤ k) (hs : 0 ≤ s) (h : |X - N| ≤ 550 * u * r ^ 2) (h8 : |N| ≤ 8 * r ^ 2) :
    |R.rnd (k * R.rnd (X / s)) - k / s * N| ≤ k / s * (578 * u * r ^ 2) := by
  have u0 := A.pos
  have l0 : 0 ≤ k / s := div_nonneg hk hs
  have r2 := sq_nonneg r
  have ur : u * r ^ 2 ≤ 1 / 500 * r ^ 2 := mul_le_mul_of_nonneg_right hu r2
  have hX : |X| ≤ 10 * r ^ 2 - 9 / 10 * r ^ 2 := by
    have := abs_add_le (X - N) N
    rw [sub_add_cancel] at this
    linarith
  have e1 := A.rel (X / s)
  have e2 := A.rel (k * R.rnd (X / s))
  have f : |k * R.rnd (X / s) - k / s * X| ≤ u * (k / s * |X|) := by
    have : k * R.rnd (X / s) - k / s * X = k * (R.rnd (X / s) - X / s) := by ring
    rw [this, abs_mul, abs_of_nonneg hk]
    refine (mul_le_mul_of_nonneg_left e1 hk).trans (le_of_eq ?_)
    rw [abs_div, abs_of_nonneg hs]; ring
  have aX : |k / s * X| = k / s * |X| := by rw [abs_mul, abs_of_nonneg l0]
  have P0 : 0 ≤ k / s * |X| := mul_nonneg l0 (abs_nonneg _)
  set P := k / s * |X| with hP
  have g : |k * R.rnd (X / s)| ≤ 2 * P := by
    have := abs_add_le (k * R.rnd (X / s) - k / s * X) (k / s * X)
    rw [sub_add_cancel, aX] at this
    have : u * P ≤ 1 / 500 * P := mul_le_mul_of_nonneg_right hu P0
    linarith
  have g' := mul_le_mul_of_nonneg_left g u0
  have m : |k / s * X - k / s * N| ≤ k / s * (550 * u * r ^ 2) := by
    rw [← mul_sub, abs_mul, abs_of_nonneg l0]
    exact mul_le_mul_of_nonneg_left h l0
  have t1 := abs_add_le (R.rnd (k * R.rnd (X / s)) - k * R.rnd (X / s)) (k * R.rnd (X / s) - k / s * N)
  have t2 := abs_add_le (k * R.rnd (X / s) - k / s * X) (k / s * X - k / s * N)
  rw [sub_add_sub_cancel] at t1 t2
  have z : 3 * u * P ≤ k / s * (28 * u * r ^ 2) := by
    have := mul_le_mul_of_nonneg_left hX (mul_nonneg (mul_nonneg (by norm_num : (0 : ℚ) ≤ 3) u0) l0)
    have : 0 ≤ k / s * (u * r ^ 2) := mul_nonneg l0 (mul_nonneg u0 r2)
    rw [hP]
    linarith
  linarith

/-- The difference of two opposite corners is close to a positive multiple of the exact normal. -/
theorem dir_err (hu : u ≤ 1 / 500) (u0 : 0 < u) {r w L κ : ℚ} (hr : 0 < r) (hw : 0 < w) (q : Vec3 (Flt R) × Quat (Flt R)) (hq : 0 < qnormSq q.2.exact)
    (V o : Vec3 (Flt R)) (hV : dot V.exact V.exact ≤ r ^ 2) (N : Vec3 ℚ) (X Y Z k s : ℚ) (hk : 0 ≤ k) (hs : 0 ≤ s)
    (ho : o.exact = ⟨R.rnd (k * R.rnd (X / s)), R.rnd (k * R.rnd (Y / s)), R.rnd (k * R.rnd (Z / s))⟩)
    (hX : |X - N.x| ≤ 550 * u * r ^ 2 ∧ |N.x| ≤ 8 * r ^ 2) (hY : |Y - N.y| ≤ 550 * u * r ^ 2 ∧ |N.y| ≤ 8 * r ^ 2)
    (hZ : |Z - N.z| ≤ 550 * u * r ^ 2 ∧ |N.z| ≤ 8 * r ^ 2)
    (o1 : (1 - 13 * u) * (w ^ 2 / 4) ≤ o.x.val ^ 2 + o.y.val ^ 2 + o.z.val ^ 2)
    (o2 : o.x.val ^ 2 + o.y.val ^ 2 + o.z.val ^ 2 ≤ (1 + 13 * u) * (w ^ 2 / 4))
    (hκ : 2004 * u * r ^ 2 ≤ κ) (hN : κ ^ 2 ≤ dot N N) :
    let a := (((calcRotationQuaternion q.2 V).addF q.1).addF o).exact
    let b := (((calcRotationQuaternion q.2 V).addF q.1).subF o).exact
    let E := vadd (calcRotationQuaternion q.2.exact V.exact) q.1.exact
    |E.x| ≤ L → |E.y| ≤ L → |E.z| ≤ L →
      ∃ μ : ℚ, 0 < μ ∧ vdist2 (vsub a b) (vsmul μ N) ≤ (u * (r + 5 * L + 3 * w) + 2100 * u * r ^ 2 / κ * w) ^ 2 := by
  intro a b E lx ly lz
  have near : |(calcRotationQuaternion q.2 V).x.val - (calcRotationQuaternion q.2.exact V.exact).x| ≤ 29 * u * r ∧
      |(calcRotationQuaternion q.2 V).y.val - (calcRotationQuaternion q.2.exact V.exact).y| ≤ 29 * u * r ∧
      |(calcRotationQuaternion q.2 V).z.val - (calcRotationQuaternion q.2.exact V.exact).z| ≤ 29 * u * r := by
    refine coords_within (a := (calcRotationQuaternion q.2 V).exact) (by positivity) ?_
    refine (rot_err A hu q.2 hq V).trans ?_
    rw [mul_pow (29 * u) r]
    exact mul_le_mul_of_nonneg_left hV (sq_nonneg _)
  obtain ⟨nx, ny, nz⟩ := near
  have qx := sq_nonneg o.x.val
  have qy := sq_nonneg o.y.val
  have qz := sq_nonneg o.z.val
  have x2 := (coord_err A (p := q.1.x.val) (o := o.x.val) hu hr.le hw.le nx (by linarith)).2
  have y2 := (coord_err A (p := q.1.y.val) (o := o.y.val) hu hr.le hw.le ny (by linarith)).2
  have z2 := (coord_err A (p := q.1.z.val) (o := o.z.val) hu hr.le hw.le nz (by linarith)).2
  have L0 : 0 ≤ L := (abs_nonneg _).trans lx
  set ε := u * (r / 2 + 5 / 2 * L + 3 / 2 * w) with hε
  have ε0 : 0 ≤ ε := by positivity
  have ex : |a.x - b.x - 2 * o.x.val| ≤ ε :=
    le_trans x2 (mul_le_mul_of_nonneg_left (by have : |(calcRotationQuaternion q.2.exact V.exact).x + q.1.x.val| ≤ L := lx
                                               linarith) u0.le)
  have ey : |a.y - b.y - 2 * o.y.val| ≤ ε :=
    le_trans y2 (mul_le_mul_of_nonneg_left (by have : |(calcRotationQuaternion q.2.exact V.exact).y + q.1.y.val| ≤ L := ly
                                               linarith) u0.le)
  have ez : |a.z - b.z - 2 * o.z.val| ≤ ε :=
    le_trans z2 (mul_le_mul_of_nonneg_left (by have : |(calcRotationQuaternion q.2.exact V.exact).z + q.1.z.val| ≤ L := lz
                                               linarith) u0.le)
  have fx := pow_le_pow_left₀ (abs_nonneg _) ex 2
  have fy := pow_le_pow_left₀ (abs_nonneg _) ey 2
  have fz := pow_le_pow_left₀ (abs_nonneg _) ez 2
  rw [sq_abs] at fx fy fz
  have ox : o.x.val = R.rnd (k * R.rnd (X / s)) := congrArg Vec3.x ho
  have oy : o.y.val = R.rnd (k * R.rnd (Y / s)) := congrArg Vec3.y ho
  have oz : o.z.val = R.rnd (k * R.rnd (Z / s)) := congrArg Vec3.z ho
  have gx := off_near A hu hk hs hX.1 hX.2
  have gy := off_near A hu hk hs hY.1 hY.2
  have gz := off_near A hu hk hs hZ.1 hZ.2
  rw [← ox] at gx
  rw [← oy] at gy
  rw [← oz] at gz
  have l0 : 0 ≤ k / s := div_nonneg hk hs
  set l := k / s with hl
  have hx' := pow_le_pow_left₀ (abs_nonneg _) gx 2
  have hy' := pow_le_pow_left₀ (abs_nonneg _) gy 2
  have hz' := pow_le_pow_left₀ (abs_nonneg _) gz 2
  rw [sq_abs] at hx' hy' hz'
  set G := u * r ^ 2 with hG
  have G0 : 0 < G := by positivity
  have κ0 : 0 < κ := lt_of_lt_of_le (by positivity) hκ
  have rew : l * (578 * u * r ^ 2) = 578 * (l * G) := by rw [hG]; ring
  rw [rew] at hx' hy' hz'
  have lG0 : 0 ≤ l * G := mul_nonneg l0 G0.le
  -- the offset and the multiple of the normal
  have d1 : vdist2 o.exact (vsmul l N) ≤ (1002 * (l * G)) ^ 2 * 1 := by
    have e : vdist2 o.exact (vsmul l N) = (o.x.val - l * N.x) ^ 2 + (o.y.val - l * N.y) ^ 2 + (o.z.val - l * N.z) ^ 2 := by
      simp only [vdist2, dot, vsub, vsmul, Vec3.exact]; ring
    rw [e]
    linarith [sq_nonneg (l * G)]
  have d1' : vdist2 (vsmul l N) o.exact ≤ (1002 * (l * G)) ^ 2 * 1 := by
    refine le_trans (le_of_eq ?_) d1
    simp only [vdist2, dot, vsub]; ring
  have oo : dot o.exact o.exact ≤ (51 / 100 * w) ^ 2 * 1 := by
    have e : dot o.exact o.exact = o.x.val ^ 2 + o.y.val ^ 2 + o.z.val ^ 2 := by
      simp only [dot, Vec3.exact]; ring
    rw [e]
    have : u * w ^ 2 ≤ 1 / 500 * w ^ 2 := mul_le_mul_of_nonneg_right hu (sq_nonneg w)
    linarith [sq_nonneg w]
  have d2 := dot_tri (by positivity) (by positivity) zero_le_one d1' oo
  have d3 : (l * κ) ^ 2 ≤ (1002 * (l * G) + 51 / 100 * w) ^ 2 := by
    have e : dot (vsmul l N) (vsmul l N) = l ^ 2 * dot N N := by simp only [dot, vsmul]; ring
    rw [e, mul_one] at d2
    rw [mul_pow]
    exact (mul_le_mul_of_nonneg_left hN (sq_nonneg l)).trans d2
  have d4 := (abs_le_of_sq_le_sq d3 (by positivity)) |> (le_abs_self _).trans
  have d5 : 1002 * (l * G) ≤ l * κ / 2 := by
    have := mul_le_mul_of_nonneg_left hκ l0
    rw [hG]
    linarith
  have d6 : l * κ ≤ 102 / 100 * w := by linarith
  have d7 : l * G ≤ 102 / 100 * w * G / κ := by
    rw [le_div_iff₀ κ0]
    have := mul_le_mul_of_nonneg_right d6 G0.le
    linarith
  have lpos : 0 < l := by
    rcases l0.lt_or_eq with h | h
    · exact h
    · exfalso
      rw [← h] at hx' hy' hz'
      have uw : u * w ^ 2 ≤ 1 / 500 * w ^ 2 := mul_le_mul_of_nonneg_right hu (sq_nonneg w)
      have w2 : 0 < w ^ 2 := by positivity
      linarith
  refine ⟨2 * l, by positivity, ?_⟩
  have e1 : vdist2 (vsub a b) (vsmul 2 o.exact) ≤ (2 * ε) ^ 2 * 1 := by
    have e : vdist2 (vsub a b) (vsmul 2 o.exact) = (a.x - b.x - 2 * o.x.val) ^ 2 + (a.y - b.y - 2 * o.y.val) ^ 2 + (a.z - b.z - 2 * o.z.val) ^ 2 := by
      simp only [vdist2, dot, vsub, vsmul, Vec3.exact]; ring
    rw [e]
    linarith [sq_nonneg ε]
  have e2 : vdist2 (vsmul 2 o.exact) (vsmul (2 * l) N) ≤ (2004 * (l * G)) ^ 2 * 1 := by
    have e : vdist2 (vsmul 2 o.exact) (vsmul (2 * l) N) = 4 * vdist2 o.exact (vsmul l N) := by
      simp only [vdist2, dot, vsub, vsmul]; ring
    rw [e]
    linarith
  have e3 := vdist2_tri (by positivity) (by positivity) zero_le_one e1 e2
  rw [mul_one] at e3
  refine e3.trans (pow_le_pow_left₀ (by positivity) ?_ 2)
  have e4 : 2004 * (102 / 100 * w * G / κ) ≤ 2100 * u * r ^ 2 / κ * w := by
    have : 0 ≤ w * G / κ := by positivity
    have e5 : 2004 * (102 / 100 * w * G / κ) = 2004 * (102 / 100) * (w * G / κ) := by ring
    have e6 : 2100 * u * r ^ 2 / κ * w = 2100 * (w * G / κ) := by rw [hG]; ring
    rw [e5, e6]
    linarith
  have e7 : 2 * ε = u * (r + 5 * L + 3 * w) := by rw [hε]; ring
  linarith

end Rounded

end Soil
