import Verif.Spec.Fits

/-! # Poses between which the soil on the body can be carried -/

namespace Soil

variable {F : Type} [FOps F]

/-- A point of the body is, for the given pose and as computed by `UpdateBodySoil` (body_soil.cpp 67-89), in a column
off the border of the grid. -/
def LandsInside (g : Grid F) (q : Vec3 F × Quat F) (v : Vec3 F) : Prop :=
  ∃ i j : ℤ,
    castInt (FOps.round (FOps.add (FOps.div ((calcRotationQuaternion q.2 v).addF q.1).x g.cellXY) (FOps.ofInt g.halfX))) = .ok i ∧
    castInt (FOps.round (FOps.add (FOps.div ((calcRotationQuaternion q.2 v).addF q.1).y g.cellXY) (FOps.ofInt g.halfY))) = .ok j ∧
    1 ≤ i ∧ i ≤ 2 * g.halfX - 1 ∧ 1 ≤ j ∧ j ≤ 2 * g.halfY - 1

/-- The cells of the body are found, all of them inside `body_area_`, which is off the border of the grid. -/
def PosePlaced (fuel : ℕ) (g : Grid F) (p : SimParam F) (tol : F) (body : Body F) (q : Vec3 F × Quat F) : Prop :=
  ∃ area walls, bodyFootprint fuel g p tol body q = .ok (area, walls) ∧
    (1 ≤ area.minX ∧ area.maxX ≤ 2 * g.halfX ∧ 1 ≤ area.minY ∧ area.maxY ≤ 2 * g.halfY) ∧
    ∀ w ∈ walls, w ≠ [] ∧ ∀ t ∈ w, ((area.minX ≤ t.1 ∧ t.1 < area.maxX) ∧ area.minY ≤ t.2.1 ∧ t.2.1 < area.maxY) ∧
      0 ≤ t.2.2 ∧ t.2.2 ≤ 2 * g.halfZ

/-- The top of every cell of the body at the pose `q` is, when it moves with the body to the pose `q'`, in a column off the
border of the grid. -/
def CarryFits (fuel : ℕ) (g : Grid F) (p : SimParam F) (tol : F) (body : Body F) (q q' : Vec3 F × Quat F) : Prop :=
  ∀ area walls, bodyFootprint fuel g p tol body q = .ok (area, walls) → ∀ w ∈ walls, ∀ t ∈ w,
    LandsInside g q' (calcBodyFramePos t.1 t.2.1 (g.vectZ t.2.2) g { body with pos := q.1, ori := q.2 })

end Soil
