import Verif.Proof.CornerDir
import Verif.Proof.PoseFlt

/-! # The movement check in rounded arithmetic: lemmas for C72 -/

namespace Soil

open FOps

theorem vdist2_comm (a b : Vec3 ℚ) : vdist2 a b = vdist2 b a := by
  simp only [vdist2, dot, vsub]; ring

/-- the middle of two points -/
def midpt (a b : Vec3 ℚ) : Vec3 ℚ := ⟨(a.x + b.x) / 2, (a.y + b.y) / 2, (a.z + b.z) / 2⟩

theorem mid_move {a b a' b' : Vec3 ℚ} {d : ℚ} (h1 : vdist2 a a' ≤ d ^ 2) (h2 : vdist2 b b' ≤ d ^ 2) :
    vdist2 (midpt a b) (midpt a' b') ≤ d ^ 2 := by
  simp only [vdist2, dot, vsub, midpt] at *
  nlinarith [sq_nonneg ((a.x - a'.x) - (b.x - b'.x)), sq_nonneg ((a.y - a'.y) - (b.y - b'.y)), sq_nonneg ((a.z - a'.z) - (b.z - b'.z))]

theorem of_coords {a b : Vec3 ℚ} {t : ℚ} (h1 : |a.x - b.x| ≤ t) (h2 : |a.y - b.y| ≤ t) (h3 : |a.z - b.z| ≤ t) :
    vdist2 a b ≤ (2 * t) ^ 2 := by
  have k1 := pow_le_pow_left₀ (abs_nonneg _) h1 2
  have k2 := pow_le_pow_left₀ (abs_nonneg _) h2 2
  have k3 := pow_le_pow_left₀ (abs_nonneg _) h3 2
  rw [sq_abs] at k1 k2 k3
  simp only [vdist2, dot, vsub]
  linarith [sq_nonneg t]

section Rounded

variable {R : Rounding} {prec : ℕ} {u : ℚ}

variable (A : Accurate R prec u)

include A

/-- the computed distance of two computed corners -/
theorem dist_err (f n : Vec3 (Flt R)) :
    0 ≤ (cornerDist f n).val ∧ vdist2 f.exact n.exact * (1 - 7 * u) ≤ (cornerDist f n).val ^ 2 ∧
      (cornerDist f n).val ^ 2 ≤ vdist2 f.exact n.exact * (1 + u) ^ 7 := by
  have u0 := A.pos
  have u1 := A.small
  obtain ⟨a, b, c⟩ := A.norm3 (R.rnd (f.x.val - n.x.val)) (R.rnd (f.y.val - n.y.val)) (R.rnd (f.z.val - n.z.val))
  obtain ⟨v1, v2⟩ := A.vec (f.x.val - n.x.val) (f.y.val - n.y.val) (f.z.val - n.z.val)
  have e : vdist2 f.exact n.exact = (f.x.val - n.x.val) ^ 2 + (f.y.val - n.y.val) ^ 2 + (f.z.val - n.z.val) ^ 2 := by
    simp only [vdist2, dot, vsub, Vec3.exact]; ring
  rw [← e] at v1 v2
  have D0 : 0 ≤ vdist2 f.exact n.exact := by rw [e]; positivity
  refine ⟨c, le_trans ?_ a, b.trans ?_⟩
  · have h7 : 1 - 7 * u ≤ (1 - u) ^ 7 := by
      have := one_add_mul_le_pow (a := -u) (by linarith) 7
      norm_num at this
      rw [show (1 : ℚ) - u = 1 + -u by ring]
      linarith
    calc _ ≤ vdist2 f.exact n.exact * (1 - u) ^ 7 := mul_le_mul_of_nonneg_left h7 D0
      _ = ((1 - u) ^ 2 * vdist2 f.exact n.exact) * (1 - u) ^ 5 := by ring
      _ ≤ _ := mul_le_mul_of_nonneg_right v1 (pow_nonneg (by linarith) 5)
  · calc _ ≤ ((1 + u) ^ 2 * vdist2 f.exact n.exact) * (1 + u) ^ 5 := mul_le_mul_of_nonneg_right v2 (pow_nonneg (by linarith) 5)
      _ = _ := by ring

/-- A corner whose computed distance is at most the computed threshold has moved by at most `(1 + 6 u) c / 2`. -/
theorem below_half (hu : u ≤ 1 / 500) {c : ℚ} (hc : 0 < c) (f n : Vec3 (Flt R)) (h : (cornerDist f n).val ≤ R.rnd (R.rnd (1 / 2) * c)) :
    vdist2 f.exact n.exact ≤ (c / 2 * (1 + 6 * u)) ^ 2 := by
  have u0 := A.pos
  obtain ⟨d0, d1, -⟩ := dist_err A f n
  rw [A.halves] at h
  have t := A.hi (x := 1 / 2 * c) (by positivity)
  have h2 : (cornerDist f n).val ^ 2 ≤ (1 / 2 * c * (1 + u)) ^ 2 := pow_le_pow_left₀ d0 (h.trans t) 2
  have h3 := d1.trans h2
  have k : (1 + u) ^ 2 ≤ (1 + 6 * u) ^ 2 * (1 - 7 * u) := by
    have c2 : u ^ 2 ≤ u / 500 := by nlinarith
    have c3 : u ^ 3 ≤ u / 500 := by nlinarith [mul_nonneg u0 u0]
    nlinarith
  have pos : 0 < 1 - 7 * u := by linarith
  refine le_of_mul_le_mul_right (h3.trans ?_) pos
  calc (1 / 2 * c * (1 + u)) ^ 2 = (c / 2) ^ 2 * (1 + u) ^ 2 := by ring
    _ ≤ (c / 2) ^ 2 * ((1 + 6 * u) ^ 2 * (1 - 7 * u)) := mul_le_mul_of_nonneg_left k (sq_nonneg _)
    _ = _ := by ring

/-- A corner that has moved by at most `(1 - 6 u) c / 2` is below the computed threshold. -/
theorem half_below (hu : u ≤ 1 / 500) (u0 : 0 < u) {c : ℚ} (hc : 0 < c) (f n : Vec3 (Flt R))
    (h : vdist2 f.exact n.exact ≤ (c / 2 * (1 - 6 * u)) ^ 2) :
    (cornerDist f n).val < R.rnd (R.rnd (1 / 2) * c) := by
  obtain ⟨d0, -, d2⟩ := dist_err A f n
  rw [A.halves]
  have t := A.lo (x := 1 / 2 * c) (by positivity)
  refine lt_of_lt_of_le ?_ t
  have k : (1 + u) ^ 7 * (1 - 6 * u) ^ 2 < (1 - u) ^ 2 := by
    have h4 := four_le u0.le hu
    have p4 : (1 + u) ^ 4 ≤ 1 + 21 / 5 * u := by
      have e : (1 + u) ^ 4 = (1 + u) ^ 2 * (1 + u) ^ 2 := by ring
      rw [e]; exact h4
    have p0 : 0 ≤ (1 + u) ^ 4 := by positivity
    have p8 : (1 + u) ^ 8 ≤ (1 + 21 / 5 * u) ^ 2 := by
      have := pow_le_pow_left₀ p0 p4 2
      rw [← pow_mul] at this
      exact this
    have p7 : (1 + u) ^ 7 ≤ (1 + 21 / 5 * u) ^ 2 := le_trans (pow_le_pow_right₀ (by linarith) (by norm_num)) p8
    have q : (1 + 21 / 5 * u) * (1 - 6 * u) < 1 - u := by nlinarith [mul_pos u0 u0]
    calc (1 + u) ^ 7 * (1 - 6 * u) ^ 2 ≤ (1 + 21 / 5 * u) ^ 2 * (1 - 6 * u) ^ 2 := mul_le_mul_of_nonneg_right p7 (sq_nonneg _)
      _ = ((1 + 21 / 5 * u) * (1 - 6 * u)) ^ 2 := by ring
      _ < _ := pow_lt_pow_left₀ q (mul_nonneg (by linarith) (by linarith)) two_ne_zero
  have h2 : (cornerDist f n).val ^ 2 < (1 / 2 * c * (1 - u)) ^ 2 := by
    refine lt_of_le_of_lt (d2.trans (mul_le_mul_of_nonneg_right h (by positivity))) ?_
    calc (c / 2 * (1 - 6 * u)) ^ 2 * (1 + u) ^ 7 = (c / 2) ^ 2 * ((1 + u) ^ 7 * (1 - 6 * u) ^ 2) := by ring
      _ < (c / 2) ^ 2 * (1 - u) ^ 2 := mul_lt_mul_of_pos_left k (by positivity)
      _ = _ := by ring
  exact lt_of_pow_lt_pow_left₀ 2 (mul_nonneg (by positivity) (by linarith)) h2

/-- one coordinate of a corner at two positions with the same orientation -/
theorem slide_err (hu : u ≤ 1 / 500) {m m0 p p' o r w L : ℚ} (hr : 0 ≤ r) (hw : 0 ≤ w) (hm : |m - m0| ≤ 29 * u * r)
    (ho : o ^ 2 ≤ (1 + 13 * u) * (w ^ 2 / 4)) (h : |m0 + p| ≤ L) (h' : |m0 + p'| ≤ L) :
    |(R.rnd (R.rnd (m + p) + o) - R.rnd (R.rnd (m + p') + o)) - (p - p')| ≤ u * (3 * r + 9 / 2 * L + 3 / 2 * w) ∧
    |(R.rnd (R.rnd (m + p) - o) - R.rnd (R.rnd (m + p') - o)) - (p - p')| ≤ u * (3 * r + 9 / 2 * L + 3 / 2 * w) := by
  have u0 := A.pos
  have ow : |o| ≤ 51 / 100 * w := by
    refine abs_le_of_sq_le_sq ?_ (by positivity)
    have : u * w ^ 2 ≤ 1 / 500 * w ^ 2 := mul_le_mul_of_nonneg_right hu (sq_nonneg w)
    nlinarith [sq_nonneg w]
  have L0 : 0 ≤ L := (abs_nonneg _).trans h
  have ur : u * r ≤ 1 / 500 * r := mul_le_mul_of_nonneg_right hu hr
  have one : ∀ p : ℚ, |m0 + p| ≤ L →
      |R.rnd (R.rnd (m + p) + o) - (m + p + o)| ≤ u * (3 / 2 * r + 9 / 4 * L + 3 / 4 * w) ∧
      |R.rnd (R.rnd (m + p) - o) - (m + p - o)| ≤ u * (3 / 2 * r + 9 / 4 * L + 3 / 4 * w) := by
    intro p h
    have a : |m + p| ≤ L + 1 / 10 * r := by
      have := abs_add_le (m - m0) (m0 + p)
      rw [show m - m0 + (m0 + p) = m + p by ring] at this
      linarith
    have b := A.rel (m + p)
    have b' := mul_le_mul_of_nonneg_left a u0
    have uL : u * (L + 1 / 10 * r) ≤ 1 / 500 * (L + 1 / 10 * r) := mul_le_mul_of_nonneg_right hu (by positivity)
    have c : |R.rnd (m + p)| ≤ 11 / 10 * L + 2 / 10 * r := by
      have := abs_add_le (R.rnd (m + p) - (m + p)) (m + p)
      rw [sub_add_cancel] at this
      linarith
    have v1 := mul_nonneg u0 hr
    have v2 := mul_nonneg u0 hw
    have v3 := mul_nonneg u0 L0
    constructor
    · have d := A.rel (R.rnd (m + p) + o)
      have d' := mul_le_mul_of_nonneg_left ((abs_add_le (R.rnd (m + p)) o).trans (add_le_add c ow)) u0
      have := abs_add_le (R.rnd (R.rnd (m + p) + o) - (R.rnd (m + p) + o)) (R.rnd (m + p) - (m + p))
      rw [show R.rnd (R.rnd (m + p) + o) - (R.rnd (m + p) + o) + (R.rnd (m + p) - (m + p)) = R.rnd (R.rnd (m + p) + o) - (m + p + o) by ring] at this
      linarith
    · have d := A.rel (R.rnd (m + p) - o)
      have d' := mul_le_mul_of_nonneg_left ((abs_sub (R.rnd (m + p)) o).trans (add_le_add c ow)) u0
      have := abs_add_le (R.rnd (R.rnd (m + p) - o) - (R.rnd (m + p) - o)) (R.rnd (m + p) - (m + p))
      rw [show R.rnd (R.rnd (m + p) - o) - (R.rnd (m + p) - o) + (R.rnd (m + p) - (m + p)) = R.rnd (R.rnd (m + p) - o) - (m + p - o) by ring] at this
      linarith
  obtain ⟨a1, a2⟩ := one p h
  obtain ⟨b1, b2⟩ := one p' h'
  constructor
  · have := abs_sub (R.rnd (R.rnd (m + p) + o) - (m + p + o)) (R.rnd (R.rnd (m + p') + o) - (m + p' + o))
    rw [show R.rnd (R.rnd (m + p) + o) - (m + p + o) - (R.rnd (R.rnd (m + p') + o) - (m + p' + o)) =
      (R.rnd (R.rnd (m + p) + o) - R.rnd (R.rnd (m + p') + o)) - (p - p') by ring] at this
    linarith
  · have := abs_sub (R.rnd (R.rnd (m + p) - o) - (m + p - o)) (R.rnd (R.rnd (m + p') - o) - (m + p' - o))
    rw [show R.rnd (R.rnd (m + p) - o) - (m + p - o) - (R.rnd (R.rnd (m + p') - o) - (m + p' - o)) =
      (R.rnd (R.rnd (m + p) - o) - R.rnd (R.rnd (m + p') - o)) - (p - p') by ring] at this
    linarith

/-- both corners of a reference point at two positions with the same orientation -/
theorem slide (hu : u ≤ 1 / 500) {r w L d : ℚ} (hr : 0 ≤ r) (hw : 0 < w) (hd : 0 ≤ d) (q : Quat (Flt R)) (p p' : Vec3 (Flt R))
    (hq : 0 < qnormSq q.exact) (V o : Vec3 (Flt R)) (hV : dot V.exact V.exact ≤ r ^ 2)
    (o2 : o.x.val ^ 2 + o.y.val ^ 2 + o.z.val ^ 2 ≤ (1 + 13 * u) * (w ^ 2 / 4))
    (hE : ∀ t ∈ [p, p'], let E := vadd (calcRotationQuaternion q.exact V.exact) t.exact; |E.x| ≤ L ∧ |E.y| ≤ L ∧ |E.z| ≤ L)
    (h : vdist2 p.exact p'.exact ≤ d ^ 2) :
    vdist2 (((calcRotationQuaternion q V).addF p).addF o).exact (((calcRotationQuaternion q V).addF p').addF o).exact ≤
        (d + u * (6 * r + 9 * L + 3 * w)) ^ 2 ∧
      vdist2 (((calcRotationQuaternion q V).addF p).subF o).exact (((calcRotationQuaternion q V).addF p').subF o).exact ≤
        (d + u * (6 * r + 9 * L + 3 * w)) ^ 2 := by
  have u0 := A.pos
  have near : |(calcRotationQuaternion q V).x.val - (calcRotationQuaternion q.exact V.exact).x| ≤ 29 * u * r ∧
      |(calcRotationQuaternion q V).y.val - (calcRotationQuaternion q.exact V.exact).y| ≤ 29 * u * r ∧
      |(calcRotationQuaternion q V).z.val - (calcRotationQuaternion q.exact V.exact).z| ≤ 29 * u * r := by
    refine coords_within (a := (calcRotationQuaternion q V).exact) (by positivity) ?_
    refine (rot_err A hu q hq V).trans ?_
    rw [mul_pow (29 * u) r]
    exact mul_le_mul_of_nonneg_left hV (sq_nonneg _)
  obtain ⟨nx, ny, nz⟩ := near
  obtain ⟨e1, e2, e3⟩ := hE p (by simp)
  obtain ⟨f1, f2, f3⟩ := hE p' (by simp)
  have L0 : 0 ≤ L := (abs_nonneg _).trans e1
  have qx := sq_nonneg o.x.val
  have qy := sq_nonneg o.y.val
  have qz := sq_nonneg o.z.val
  obtain ⟨x1, x2⟩ := slide_err A (p := p.x.val) (p' := p'.x.val) (o := o.x.val) hu hr hw.le nx (by linarith) e1 f1
  obtain ⟨y1, y2⟩ := slide_err A (p := p.y.val) (p' := p'.y.val) (o := o.y.val) hu hr hw.le ny (by linarith) e2 f2
  obtain ⟨z1, z2⟩ := slide_err A (p := p.z.val) (p' := p'.z.val) (o := o.z.val) hu hr hw.le nz (by linarith) e3 f3
  have fin : ∀ a b : Vec3 ℚ, |a.x - b.x - (p.x.val - p'.x.val)| ≤ u * (3 * r + 9 / 2 * L + 3 / 2 * w) →
      |a.y - b.y - (p.y.val - p'.y.val)| ≤ u * (3 * r + 9 / 2 * L + 3 / 2 * w) →
      |a.z - b.z - (p.z.val - p'.z.val)| ≤ u * (3 * r + 9 / 2 * L + 3 / 2 * w) → vdist2 a b ≤ (d + u * (6 * r + 9 * L + 3 * w)) ^ 2 := by
    intro a b hx hy hz
    have k := of_coords (a := vsub a b) (b := vsub p.exact p'.exact) hx hy hz
    have := dot_tri (M := 1) (α := 2 * (u * (3 * r + 9 / 2 * L + 3 / 2 * w))) (β := d) (by positivity) hd zero_le_one (by rw [mul_one]; exact k) (by rw [mul_one]; exact h)
    change dot (vsub a b) (vsub a b) ≤ _
    refine this.trans (le_of_eq ?_)
    ring
  exact ⟨fin _ _ x1 y1 z1, fin _ _ x2 y2 z2⟩

end Rounded

end Soil
