import Verif.Spec.Ball
import Verif.Proof.RotFlt

/-! # Carried soil stays inside the grid if the body has room to rotate -/

set_option linter.unusedSectionVars false
set_option linter.unusedVariables false

namespace Soil

open FOps

variable {R : Rounding} {prec : ℕ} {u : ℚ}

section

variable (A : Accurate R prec u)

include A

theorem PoseSetup.fine {B H : ℤ} {g : Grid (Flt R)} {p : SimParam (Flt R)} (P : PoseSetup prec u B H g p) : u ≤ 1 / 500 := by
  have u0 := A.pos
  have h := P.small.room
  have hB : (4 : ℚ) ≤ B := by
    have h1 := P.halfX
    have h2 := P.halfX'
    have : (4 : ℤ) ≤ B := by omega
    exact_mod_cast this
  have : (4 + 3) * (4 + 9) * u ≤ ((B : ℚ) + 3) * (B + 9) * u := mul_le_mul_of_nonneg_right (by nlinarith) u0
  linarith

theorem Accurate.grow (x : ℚ) : R.rnd x ^ 2 ≤ (1 + u) ^ 2 * x ^ 2 := by
  have h := A.rel x
  have u0 := A.pos
  have : |R.rnd x| ≤ (1 + u) * |x| := by
    have e : R.rnd x = (R.rnd x - x) + x := by ring
    rw [e]
    have := abs_add_le (R.rnd x - x) x
    linarith
  have h2 := pow_le_pow_left₀ (abs_nonneg _) this 2
  rwa [sq_abs, mul_pow, sq_abs] at h2

/-- The column of a point -/
theorem column_flt {B : ℤ} (hB : Small prec u B) {c : Flt R} (hc : 0 < c.val) {half : ℤ} (h2 : 2 ≤ half) (hh : 2 * half ≤ B)
    {pos m : Flt R} {ρ : ℚ} (hm : m.val ^ 2 ≤ ρ ^ 2) (hρ : 0 ≤ ρ) (hx : |pos.val| + ρ ≤ (half - 2 : ℚ) * c.val) :
    ∃ i : ℤ, castInt (FOps.round (FOps.add (FOps.div (FOps.add m pos) c) (FOps.ofInt half))) = .ok i ∧ 1 ≤ i ∧ i ≤ 2 * half - 1 := by
  have u0 := A.pos
  have hdig := hB.digits
  have tiny := hB.tiny u0
  have hq : (2 : ℚ) ≤ half := by exact_mod_cast h2
  have hq' : 2 * (half : ℚ) ≤ B := by exact_mod_cast hh
  have hma : |m.val| ≤ ρ := abs_le_of_sq_le_sq hm hρ
  have hs : |m.val + pos.val| ≤ (half - 2 : ℚ) * c.val := (abs_add_le _ _).trans (by linarith)
  have hr : |R.rnd (m.val + pos.val)| ≤ (half - 1 : ℚ) * c.val := by
    have h := A.rel (m.val + pos.val)
    have e : R.rnd (m.val + pos.val) = (R.rnd (m.val + pos.val) - (m.val + pos.val)) + (m.val + pos.val) := by ring
    rw [e]
    have h1 := abs_add_le (R.rnd (m.val + pos.val) - (m.val + pos.val)) (m.val + pos.val)
    have h3 : u * |m.val + pos.val| ≤ u * ((half - 2 : ℚ) * c.val) := mul_le_mul_of_nonneg_left hs u0
    have h4 : u * ((half - 2 : ℚ) * c.val) ≤ 1 * c.val := by
      rw [← mul_assoc]
      refine mul_le_mul_of_nonneg_right ?_ hc.le
      nlinarith
    linarith
  have a0 : |R.rnd (m.val + pos.val) / c.val| ≤ (half : ℚ) - 1 := by
    rw [abs_div, abs_of_pos hc, div_le_iff₀ hc]; exact hr
  obtain ⟨l, r⟩ := abs_le.mp a0
  have r1 := A.rle (half - 1) (x := R.rnd (m.val + pos.val) / c.val) (by rw [abs_le]; constructor <;> omega) (by push_cast; exact r)
  have r2 := A.rge (-(half - 1)) (x := R.rnd (m.val + pos.val) / c.val) (by rw [abs_le]; constructor <;> omega) (by push_cast; linarith)
  push_cast at r1 r2
  have e0 := A.binary.nat half (by rw [abs_le]; constructor <;> omega)
  set y := R.rnd (R.rnd (R.rnd (m.val + pos.val) / c.val) + R.rnd half) with hy
  have y1 : (1 : ℚ) ≤ y := by
    have := A.rge 1 (x := R.rnd (R.rnd (m.val + pos.val) / c.val) + R.rnd half) (by rw [abs_le]; constructor <;> omega) (by rw [e0]; push_cast; linarith)
    exact_mod_cast this
  have y2 : y ≤ 2 * half - 1 := by
    have := A.rle (2 * half - 1) (x := R.rnd (R.rnd (m.val + pos.val) / c.val) + R.rnd half) (by rw [abs_le]; constructor <;> omega) (by rw [e0]; push_cast; linarith)
    push_cast at this
    exact this
  have ra1 : 1 ≤ roundAway y := le_roundAway_of_le (by exact_mod_cast y1)
  have ra2 : roundAway y ≤ 2 * half - 1 := roundAway_le_of_le (by push_cast; exact y2)
  have hint := hB.int
  refine ⟨roundAway y, ?_, ra1, ra2⟩
  show castInt (F := Flt R) (((roundAway y : ℤ) : ℚ) : Flt R) = .ok (roundAway y)
  exact castInt_int _ (by rw [abs_lt]; constructor <;> omega)

/-- A point of the body that is near its position is inside the grid at a pose with enough room. -/
theorem lands_flt {B H : ℤ} {g : Grid (Flt R)} {p : SimParam (Flt R)} (P : PoseSetup prec u B H g p) {D2 ρ : ℚ} (hρ : 0 ≤ ρ)
    (hD : (1 + 160 * u) * D2 ≤ ρ ^ 2) {body : Body (Flt R)} {q q' : Vec3 (Flt R) × Quat (Flt R)}
    (h0 : 0 < q.2.q0.val ^ 2 + q.2.q1.val ^ 2 + q.2.q2.val ^ 2 + q.2.q3.val ^ 2) (h' : PoseClear g ρ q') {i j : ℤ} {z : Flt R}
    (hn : ((g.vectX i).val - q.1.x.val) ^ 2 + ((g.vectY j).val - q.1.y.val) ^ 2 + (z.val - q.1.z.val) ^ 2 ≤ D2) :
    LandsInside g q' (calcBodyFramePos i j z g { body with pos := q.1, ori := q.2 }) := by
  have u0 := A.pos
  have hu := P.fine A
  set v0 : Vec3 (Flt R) := ⟨R.rnd ((g.vectX i).val - q.1.x.val), R.rnd ((g.vectY j).val - q.1.y.val), R.rnd (z.val - q.1.z.val)⟩ with hv0
  have n0 : vn v0 ≤ (1 + u) ^ 2 * D2 := by
    have a := A.grow ((g.vectX i).val - q.1.x.val)
    have b := A.grow ((g.vectY j).val - q.1.y.val)
    have c := A.grow (z.val - q.1.z.val)
    have e : vn v0 = R.rnd ((g.vectX i).val - q.1.x.val) ^ 2 + R.rnd ((g.vectY j).val - q.1.y.val) ^ 2 + R.rnd (z.val - q.1.z.val) ^ 2 := rfl
    rw [e]
    have := mul_le_mul_of_nonneg_left hn (by positivity : 0 ≤ (1 + u) ^ 2)
    linarith
  set inv : Quat (Flt R) := ⟨q.2.q0, FOps.neg q.2.q1, FOps.neg q.2.q2, FOps.neg q.2.q3⟩ with hinv
  have hi : 0 < qn inv := by
    have e : qn inv = q.2.q0.val ^ 2 + (-q.2.q1.val) ^ 2 + (-q.2.q2.val) ^ 2 + (-q.2.q3.val) ^ 2 := rfl
    rw [e]
    simpa using h0
  have n1 := rot_norm A hu inv hi v0
  have n2 := rot_norm A hu q'.2 h'.oriented (calcRotationQuaternion inv v0)
  have hf : calcBodyFramePos i j z g { body with pos := q.1, ori := q.2 } = calcRotationQuaternion inv v0 := rfl
  rw [hf]
  set m := calcRotationQuaternion q'.2 (calcRotationQuaternion inv v0) with hm
  have D0 : 0 ≤ D2 := le_trans (by positivity) hn
  have total : vn m ≤ ρ ^ 2 := by
    refine le_trans ?_ hD
    have k : (1 + 70 * u) * ((1 + 70 * u) * (1 + u) ^ 2) ≤ 1 + 160 * u := by
      nlinarith [mul_nonneg u0 u0, mul_nonneg u0 (sub_nonneg.mpr hu), mul_nonneg (mul_nonneg u0 u0) (sub_nonneg.mpr hu),
        mul_nonneg (mul_nonneg u0 u0) u0, mul_nonneg (mul_nonneg (mul_nonneg u0 u0) u0) (sub_nonneg.mpr hu)]
    have g70 : 0 ≤ 1 + 70 * u := by linarith
    have s1 : vn m ≤ (1 + 70 * u) * ((1 + 70 * u) * ((1 + u) ^ 2 * D2)) :=
      n2.trans (mul_le_mul_of_nonneg_left (n1.trans (mul_le_mul_of_nonneg_left n0 g70)) g70)
    have := mul_le_mul_of_nonneg_right k D0
    linarith
  have mx : m.x.val ^ 2 ≤ ρ ^ 2 := le_trans (by unfold vn; nlinarith [sq_nonneg m.y.val, sq_nonneg m.z.val]) total
  have my : m.y.val ^ 2 ≤ ρ ^ 2 := le_trans (by unfold vn; nlinarith [sq_nonneg m.x.val, sq_nonneg m.z.val]) total
  obtain ⟨a, a1, a2, a3⟩ := column_flt A P.small P.cellXY P.halfX P.halfX' mx hρ h'.x
  obtain ⟨b, b1, b2, b3⟩ := column_flt A P.small P.cellXY P.halfY P.halfY' my hρ h'.y
  exact ⟨a, b, a1, b1, a2, a3, b2, b3⟩

end

end Soil
