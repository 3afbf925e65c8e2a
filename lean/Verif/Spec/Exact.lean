import Verif.Spec.Geom
import Verif.Spec.Rounded

/-! # Exact values of rounded vectors -/

namespace Soil

variable {R : Rounding}

/-- The vector of rational numbers a rounded vector stands for -/
def Vec3.exact (v : Vec3 (Flt R)) : Vec3 ℚ := ⟨v.x.val, v.y.val, v.z.val⟩

/-- The quaternion of rational numbers a rounded quaternion stands for -/
def Quat.exact (q : Quat (Flt R)) : Quat ℚ := ⟨q.q0.val, q.q1.val, q.q2.val, q.q3.val⟩

/-- Squared distance of two points -/
def vdist2 (a b : Vec3 ℚ) : ℚ := dot (vsub a b) (vsub a b)

/-- Where a point `p` fixed to the body is when the body goes from the pose `q` to the pose `q'`, in exact
arithmetic: the point whose position relative to the body, in the frame of the body, is the same as before. -/
def movedWith (q q' : Vec3 ℚ × Quat ℚ) (p : Vec3 ℚ) : Vec3 ℚ :=
  vadd (calcRotationQuaternion q'.2 (calcRotationQuaternion (qconj q.2) (vsub p q.1))) q'.1

/-- The point `p` of the body at the pose `q` is at a distance of at most `r` from the position of the body, the pose `q'` takes
it to a place inside the grid, and `r` and the size of the grid are small compared to the precision: the
rounding errors are at most a sixteenth of a cell. -/
structure CarriedWithin (u r : ℚ) (g : Grid (Flt R)) (q q' : Vec3 (Flt R) × Quat (Flt R)) (p : Vec3 (Flt R)) : Prop where
  radius : 0 ≤ r
  near : vdist2 p.exact q.1.exact ≤ r ^ 2
  x : |(movedWith (q.1.exact, q.2.exact) (q'.1.exact, q'.2.exact) p.exact).x| ≤ g.halfX * g.cellXY.val
  y : |(movedWith (q.1.exact, q.2.exact) (q'.1.exact, q'.2.exact) p.exact).y| ≤ g.halfY * g.cellXY.val
  fine : u * (63 * r + g.halfX * g.cellXY.val) ≤ g.cellXY.val / 16 ∧ u * (63 * r + g.halfY * g.cellXY.val) ≤ g.cellXY.val / 16

end Soil
