import Verif.Props.Construct
import Verif.Spec.Geom
import Verif.Model.Utils

/-! # Properties C04–C07: quaternions, rotations, body frame -/

set_option linter.unusedSectionVars false

namespace Soil

open Quaternion

variable {K : Type} [Field K] [LinearOrder K] [FloorRing K] [Transc K] [IsStrictOrderedRing K]

@[ext] theorem Vec3.ext' {a b : Vec3 K} (hx : a.x = b.x) (hy : a.y = b.y) (hz : a.z = b.z) :
    a = b := by cases a; cases b; simp_all

theorem Quat.ext' {a b : Quat K} (h0 : a.q0 = b.q0) (h1 : a.q1 = b.q1) (h2 : a.q2 = b.q2)
    (h3 : a.q3 = b.q3) : a = b := by cases a; cases b; simp_all

theorem toHamilton_inj {a b : Quat K} (h : toHamilton a = toHamilton b) : a = b := by
  unfold toHamilton at h
  have := QuaternionAlgebra.ext_iff.mp h
  exact Quat.ext' this.1 this.2.1 this.2.2.1 this.2.2.2

/-- **C04**. The simulator's quaternion product is the Hamilton product. -/
theorem C04_hamilton (a b : Quat K) :
    toHamilton (multiplyQuaternion a b) = toHamilton a * toHamilton b := by
  have h : toHamilton a * toHamilton b =
      (⟨a.q0, a.q1, a.q2, a.q3⟩ : ℍ[K, -1, 0, -1]) *
        (⟨b.q0, b.q1, b.q2, b.q3⟩ : ℍ[K, -1, 0, -1]) := rfl
  rw [h, QuaternionAlgebra.mk_mul_mk]
  unfold toHamilton multiplyQuaternion
  simp only [ex_add, ex_sub, ex_mul]
  apply QuaternionAlgebra.ext <;> dsimp only <;> ring

/-- **C04**. Algebraic laws of the quaternion product. -/
theorem C04_laws (a b c : Quat K) (k : K) :
    multiplyQuaternion (multiplyQuaternion a b) c = multiplyQuaternion a (multiplyQuaternion b c) ∧
    multiplyQuaternion qone a = a ∧ multiplyQuaternion a qone = a ∧
    multiplyQuaternion (qadd a b) c = qadd (multiplyQuaternion a c) (multiplyQuaternion b c) ∧
    multiplyQuaternion a (qadd b c) = qadd (multiplyQuaternion a b) (multiplyQuaternion a c) ∧
    multiplyQuaternion (qsmul k a) b = qsmul k (multiplyQuaternion a b) ∧
    multiplyQuaternion a (qsmul k b) = qsmul k (multiplyQuaternion a b) ∧
    qconj (multiplyQuaternion a b) = multiplyQuaternion (qconj b) (qconj a) ∧
    qnormSq (multiplyQuaternion a b) = qnormSq a * qnormSq b ∧
    multiplyQuaternion (qconj a) a = ⟨qnormSq a, 0, 0, 0⟩ := by
  refine ⟨?_, ?_, ?_, ?_, ?_, ?_, ?_, ?_, ?_, ?_⟩
  · apply toHamilton_inj; simp only [C04_hamilton, mul_assoc]
  all_goals
    simp only [multiplyQuaternion, qone, qadd, qsmul, qconj, qnormSq, ex_add, ex_sub, ex_mul]
  · apply Quat.ext' <;> ring
  · apply Quat.ext' <;> ring
  · apply Quat.ext' <;> ring
  · apply Quat.ext' <;> ring
  · apply Quat.ext' <;> ring
  · apply Quat.ext' <;> ring
  · apply Quat.ext' <;> ring
  · ring
  · apply Quat.ext' <;> ring

/-- The rotation in closed form -/
theorem rot_eq (q : Quat K) (p : Vec3 K) (h : qnormSq q ≠ 0) :
    calcRotationQuaternion q p =
      ⟨((q.q0 ^ 2 + q.q1 ^ 2 - q.q2 ^ 2 - q.q3 ^ 2) * p.x + 2 * (q.q1 * q.q2 + q.q0 * q.q3) * p.y +
          2 * (q.q1 * q.q3 - q.q0 * q.q2) * p.z) / qnormSq q,
        (2 * (q.q1 * q.q2 - q.q0 * q.q3) * p.x + (q.q0 ^ 2 - q.q1 ^ 2 + q.q2 ^ 2 - q.q3 ^ 2) * p.y +
          2 * (q.q2 * q.q3 + q.q0 * q.q1) * p.z) / qnormSq q,
        (2 * (q.q1 * q.q3 + q.q0 * q.q2) * p.x + 2 * (q.q2 * q.q3 - q.q0 * q.q1) * p.y +
          (q.q0 ^ 2 - q.q1 ^ 2 - q.q2 ^ 2 + q.q3 ^ 2) * p.z) / qnormSq q⟩ := by
  have hn : q.q0 * q.q0 + q.q1 * q.q1 + q.q2 * q.q2 + q.q3 * q.q3 = qnormSq q := by
    unfold qnormSq; ring
  unfold calcRotationQuaternion multiplyQuaternion
  simp only [ex_add, ex_sub, ex_mul, ex_div, ex_neg, ex_zero, hn]
  apply Vec3.ext' <;> dsimp only <;> field_simp <;> ring

/-- **C05**. Rotation is linear. -/
theorem C05_linear (q : Quat K) (h : qnormSq q ≠ 0) (p r : Vec3 K) (k : K) :
    calcRotationQuaternion q (vadd p r) =
      vadd (calcRotationQuaternion q p) (calcRotationQuaternion q r) ∧
    calcRotationQuaternion q (vsmul k p) = vsmul k (calcRotationQuaternion q p) := by
  simp only [rot_eq q _ h, vadd, vsmul]
  constructor <;> apply Vec3.ext' <;> dsimp only <;> ring

/-- **C05**. Rotation preserves dot products. -/
theorem C05_dot (q : Quat K) (h : qnormSq q ≠ 0) (p r : Vec3 K) :
    dot (calcRotationQuaternion q p) (calcRotationQuaternion q r) = dot p r := by
  simp only [rot_eq q _ h, dot]
  field_simp
  unfold qnormSq
  ring

/-- **C05**. Rotation preserves cross products (it does not mirror). -/
theorem C05_cross (q : Quat K) (h : qnormSq q ≠ 0) (p r : Vec3 K) :
    cross (calcRotationQuaternion q p) (calcRotationQuaternion q r) =
      calcRotationQuaternion q (cross p r) := by
  simp only [rot_eq q _ h, cross]
  apply Vec3.ext' <;> dsimp only <;> field_simp <;> unfold qnormSq <;> ring

/-- **C05**. The rotation does not depend on the scale or sign of the quaternion. -/
theorem C05_scale (q : Quat K) (h : qnormSq q ≠ 0) (k : K) (hk : k ≠ 0) (p : Vec3 K) :
    calcRotationQuaternion (qsmul k q) p = calcRotationQuaternion q p := by
  have hq : qnormSq (qsmul k q) = k ^ 2 * qnormSq q := by unfold qnormSq qsmul; ring
  have hn : qnormSq (qsmul k q) ≠ 0 := by rw [hq]; positivity
  rw [rot_eq _ _ hn, rot_eq q _ h, hq]
  simp only [qsmul]
  apply Vec3.ext' <;> dsimp only <;> field_simp

/-- **C05**. Applying `q` then `r` is applying `q * r`. -/
theorem C05_compose (q r : Quat K) (hq : qnormSq q ≠ 0) (hr : qnormSq r ≠ 0) (p : Vec3 K) :
    calcRotationQuaternion r (calcRotationQuaternion q p) =
      calcRotationQuaternion (multiplyQuaternion q r) p := by
  have hn : qnormSq (multiplyQuaternion q r) = qnormSq q * qnormSq r :=
    (C04_laws q r q 0).2.2.2.2.2.2.2.2.1
  have hn' : qnormSq (multiplyQuaternion q r) ≠ 0 := by rw [hn]; exact mul_ne_zero hq hr
  rw [rot_eq _ _ hn', rot_eq r _ hr, rot_eq q _ hq, hn]
  simp only [multiplyQuaternion, ex_add, ex_sub, ex_mul]
  apply Vec3.ext' <;> dsimp only <;> field_simp <;> ring

/-- **C05**. The unit quaternion leaves every point where it is. -/
theorem C05_identity (p : Vec3 K) : calcRotationQuaternion qone p = p := by
  have h : qnormSq (qone : Quat K) = 1 := by simp [qnormSq, qone]
  rw [rot_eq _ _ (by rw [h]; exact one_ne_zero), h]
  simp [qone]

example : qnormSq (⟨1, 2, -1, 3⟩ : Quat ℚ) ≠ 0 := by norm_num [qnormSq]

/-- **C06**. The body-frame position of a point, rotated by the body orientation and translated by
the body position, is the point: `(vect_x[ii], vect_y[jj], z)`. -/
theorem C06_body_frame (ii jj : ℤ) (z : K) (g : Grid K) (body : Body K)
    (h : qnormSq body.ori ≠ 0) :
    vadd (calcRotationQuaternion body.ori (calcBodyFramePos ii jj z g body)) body.pos =
      ⟨g.vectX ii, g.vectY jj, z⟩ := by
  have hc : qnormSq (qconj body.ori) ≠ 0 := by
    have : qnormSq (qconj body.ori) = qnormSq body.ori := by simp [qnormSq, qconj]
    rwa [this]
  have hinv : calcBodyFramePos ii jj z g body = calcRotationQuaternion (qconj body.ori)
      ⟨g.vectX ii - body.pos.x, g.vectY jj - body.pos.y, z - body.pos.z⟩ := rfl
  rw [hinv, C05_compose _ _ hc h, (C04_laws body.ori body.ori body.ori 0).2.2.2.2.2.2.2.2.2]
  have : (⟨qnormSq body.ori, 0, 0, 0⟩ : Quat K) = qsmul (qnormSq body.ori) qone := by
    simp [qsmul, qone]
  rw [this, C05_scale qone (by simp [qnormSq, qone]) _ h, C05_identity]
  simp [vadd]

/-- **C06**. The grid index recovered from the position of a column is the column itself, provided
the half-width of the grid is less than half a cell away from a whole number of cells. -/
theorem C06_index (g : Grid K) (gx : K) (hc : g.cellXY ≠ 0)
    (hv : ∀ i, 0 ≤ i → g.vectX i = -gx + i * g.cellXY)
    (hh : |gx / g.cellXY - g.halfX| < 1 / 2) (ii : ℤ) (hi : 0 ≤ ii) :
    castInt (FOps.round (FOps.add (FOps.div (g.vectX ii) g.cellXY) (FOps.ofInt g.halfX))) =
      .ok ii := by
  simp only [ex_round, ex_add, ex_div, ex_ofInt, castInt_exact, truncZ_intCast]
  rw [roundAway_eq_of_abs_lt _ ii]
  rw [hv ii hi]
  have : (-gx + ii * g.cellXY) / g.cellXY + g.halfX - ii = -(gx / g.cellXY - g.halfX) := by
    field_simp; ring
  rw [this, abs_neg]; exact hh

/-- **C06**, counter-example to the index round trip without its hypothesis: with a grid of
two and a half cells per side every column is read back as its right-hand neighbour. -/
theorem C06_index_needs_hypothesis :
    ∃ g : Grid ℚ, mkGrid (5 / 2) (5 / 2) 1 1 1 = .ok g ∧
      castInt (FOps.round (FOps.add (FOps.div (g.vectX 3) g.cellXY) (FOps.ofInt g.halfX))) =
        .ok 4 := by
  obtain ⟨g, hg, hs⟩ := C01_grid_accepts (K := ℚ) (gx := 5 / 2) (gy := 5 / 2) (gz := 1) (cxy := 1)
    (cz := 1) (by constructor <;> norm_num)
  refine ⟨g, hg, ?_⟩
  have h : g.halfX = 3 := by rw [hs.halfX]; norm_num
  rw [h, hs.cellXY, hs.vectX 3 (by norm_num)]
  decide +kernel

example : |(4 : ℚ) / (1 / 5) - (20 : ℤ)| < 1 / 2 := by norm_num

/-! ## Euler angles -/

theorem rot_about_x (c s : ℝ) (h : c ^ 2 + s ^ 2 = 1) (p : Vec3 ℝ) :
    calcRotationQuaternion ⟨c, s, 0, 0⟩ p =
      ⟨p.x, (c ^ 2 - s ^ 2) * p.y + 2 * c * s * p.z, -(2 * c * s) * p.y + (c ^ 2 - s ^ 2) * p.z⟩ := by
  have hn : qnormSq (⟨c, s, 0, 0⟩ : Quat ℝ) = 1 := by simp [qnormSq, h]
  rw [rot_eq _ _ (by rw [hn]; exact one_ne_zero), hn]
  apply Vec3.ext' <;> dsimp only
  · linear_combination p.x * h
  · ring
  · ring

theorem rot_about_y (c s : ℝ) (h : c ^ 2 + s ^ 2 = 1) (p : Vec3 ℝ) :
    calcRotationQuaternion ⟨c, 0, s, 0⟩ p =
      ⟨(c ^ 2 - s ^ 2) * p.x - 2 * c * s * p.z, p.y, 2 * c * s * p.x + (c ^ 2 - s ^ 2) * p.z⟩ := by
  have hn : qnormSq (⟨c, 0, s, 0⟩ : Quat ℝ) = 1 := by simp [qnormSq, h]
  rw [rot_eq _ _ (by rw [hn]; exact one_ne_zero), hn]
  apply Vec3.ext' <;> dsimp only
  · ring
  · linear_combination p.y * h
  · ring

theorem rot_about_z (c s : ℝ) (h : c ^ 2 + s ^ 2 = 1) (p : Vec3 ℝ) :
    calcRotationQuaternion ⟨c, 0, 0, s⟩ p =
      ⟨(c ^ 2 - s ^ 2) * p.x + 2 * c * s * p.y, -(2 * c * s) * p.x + (c ^ 2 - s ^ 2) * p.y, p.z⟩ := by
  have hn : qnormSq (⟨c, 0, 0, s⟩ : Quat ℝ) = 1 := by simp [qnormSq, h]
  rw [rot_eq _ _ (by rw [hn]; exact one_ne_zero), hn]
  apply Vec3.ext' <;> dsimp only
  · ring
  · ring
  · linear_combination p.z * h

theorem half_cos (θ : ℝ) : Real.cos (θ / 2) ^ 2 - Real.sin (θ / 2) ^ 2 = Real.cos θ := by
  have := Real.cos_two_mul' (θ / 2)
  rw [show 2 * (θ / 2) = θ by ring] at this
  exact this.symm

theorem half_sin (θ : ℝ) : 2 * Real.cos (θ / 2) * Real.sin (θ / 2) = Real.sin θ := by
  have := Real.sin_two_mul (θ / 2)
  rw [show 2 * (θ / 2) = θ by ring] at this
  rw [this]; ring

theorem half_one (θ : ℝ) : Real.cos (θ / 2) ^ 2 + Real.sin (θ / 2) ^ 2 = 1 :=
  Real.cos_sq_add_sin_sq _

/-- `AngleToQuat` is plus or minus the product of the three elementary half-angle quaternions -/
theorem angleToQuat_eq (a : Vec3 ℝ) :
    ∃ k : ℝ, (k = 1 ∨ k = -1) ∧ angleToQuat a = qsmul k
      (multiplyQuaternion (multiplyQuaternion
        ⟨Real.cos (a.x / 2), 0, 0, Real.sin (a.x / 2)⟩
        ⟨Real.cos (a.y / 2), 0, Real.sin (a.y / 2), 0⟩)
        ⟨Real.cos (a.z / 2), Real.sin (a.z / 2), 0, 0⟩) := by
  have e : ∀ x : ℝ, (FOps.div x (FOps.ofRat 2) : ℝ) = x / 2 := by intro x; simp
  unfold angleToQuat
  simp only [e]
  split_ifs with h
  · refine ⟨1, Or.inl rfl, ?_⟩
    simp only [qsmul, multiplyQuaternion, ex_add, ex_sub, ex_mul, ex_cos, ex_sin, Transc.cos,
      Transc.sin]
    apply Quat.ext' <;> dsimp only <;> ring
  · refine ⟨-1, Or.inr rfl, ?_⟩
    simp only [qsmul, multiplyQuaternion, ex_add, ex_sub, ex_mul, ex_cos, ex_sin, Transc.cos,
      Transc.sin, ex_neg]
    apply Quat.ext' <;> dsimp only <;> ring

theorem normSq_angleToQuat (a : Vec3 ℝ) : qnormSq (angleToQuat a) = 1 := by
  obtain ⟨k, hk, h⟩ := angleToQuat_eq a
  have hs : ∀ (k : ℝ) (q : Quat ℝ), qnormSq (qsmul k q) = k ^ 2 * qnormSq q := by
    intro k q; unfold qnormSq qsmul; ring
  have hm : ∀ q r : Quat ℝ, qnormSq (multiplyQuaternion q r) = qnormSq q * qnormSq r :=
    fun q r => (C04_laws q r q 0).2.2.2.2.2.2.2.2.1
  rw [h, hs, hm, hm]
  simp only [qnormSq]
  have h1 := half_one a.x; have h2 := half_one a.y; have h3 := half_one a.z
  have hk2 : k ^ 2 = 1 := by rcases hk with rfl | rfl <;> norm_num
  simp only [ne_eq, OfNat.ofNat_ne_zero, not_false_eq_true, zero_pow, add_zero, h1, h2, h3, hk2,
    mul_one]

/-- **C07**. Converting Euler angles gives a unit quaternion with non-negative scalar part. -/
theorem C07_unit (a : Vec3 ℝ) : qnormSq (angleToQuat a) = 1 ∧ 0 ≤ (angleToQuat a).q0 := by
  refine ⟨normSq_angleToQuat a, ?_⟩
  unfold angleToQuat
  dsimp only
  split_ifs with h
  · simp only [ex_lt, ex_zero, decide_eq_true_eq] at h; exact h.le
  · simp only [ex_lt, ex_zero, decide_eq_true_eq] at h
    simp only [ex_neg]
    linarith

/-- **C07**. Applying the resulting orientation rotates by minus the yaw `a.x` about Z, then by
minus the pitch `a.y` about Y, then by minus the roll `a.z` about X: the inverse of the ZYX
rotation, which is the library's convention for applying an orientation. -/
theorem C07_zyx (a p : Vec3 ℝ) :
    calcRotationQuaternion (angleToQuat a) p = rotX (-a.z) (rotY (-a.y) (rotZ (-a.x) p)) := by
  obtain ⟨k, hk, h⟩ := angleToQuat_eq a
  have hm : ∀ q r : Quat ℝ, qnormSq (multiplyQuaternion q r) = qnormSq q * qnormSq r :=
    fun q r => (C04_laws q r q 0).2.2.2.2.2.2.2.2.1
  have n1 : qnormSq (⟨Real.cos (a.x / 2), 0, 0, Real.sin (a.x / 2)⟩ : Quat ℝ) = 1 := by
    simp [qnormSq]
  have n2 : qnormSq (⟨Real.cos (a.y / 2), 0, Real.sin (a.y / 2), 0⟩ : Quat ℝ) = 1 := by
    simp [qnormSq]
  have n3 : qnormSq (⟨Real.cos (a.z / 2), Real.sin (a.z / 2), 0, 0⟩ : Quat ℝ) = 1 := by
    simp [qnormSq]
  have hk0 : k ≠ 0 := by rcases hk with rfl | rfl <;> norm_num
  rw [h, C05_scale _ (by rw [hm, hm, n1, n2, n3]; norm_num) k hk0,
    ← C05_compose _ _ (by rw [hm, n1, n2]; norm_num) (by rw [n3]; norm_num),
    ← C05_compose _ _ (by rw [n1]; norm_num) (by rw [n2]; norm_num),
    rot_about_z _ _ (half_one _), rot_about_y _ _ (half_one _), rot_about_x _ _ (half_one _)]
  simp only [half_cos, half_sin, rotX, rotY, rotZ, Real.cos_neg, Real.sin_neg]
  apply Vec3.ext' <;> dsimp only <;> ring

end Soil
