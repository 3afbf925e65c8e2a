import Verif.Model.BodyPos

/-!
# The columns found when the body is placed

In exact arithmetic the columns of the body are inside `body_area_` (C44).  For an arithmetic about
which nothing is known away from whole numbers of cells this is a condition on the pose.
-/

namespace Soil

variable {F : Type} [FOps F]

/-- `body_area_` and the cells of the four walls for the given pose: the part of `CalcBodyPos` that
does not involve the state (body_pos.cpp 40-108 and 146-258) -/
def bodyFootprint (fuel : ℕ) (g : Grid F) (p : SimParam F) (tol : F) (body : Body F)
    (q : Vec3 F × Quat F) : M (Area × List (List Cell3)) := do
  let c := calcBodyCornerPos q.1 q.2 body
  match body.kind with
  | .bucket =>
    let c := nudge tol c
    let area ← bodyAreaOf g p c.jr [c.jl, c.br, c.bl, c.tr, c.tl]
    let walls ← bucketWalls fuel g tol c
    return (area, walls)
  | .blade =>
    let back := nudge tol (bladeBack g c)
    let c := nudge tol c
    let area ← bodyAreaOf g p c.jr ([c.jl, c.br, c.bl, c.tr, c.tl] ++ back.toList)
    let walls ← bladeWalls fuel g tol c back
    return (area, walls)

/-- If the columns of the body are found, then they are inside `body_area_`, which is off the border of
the grid. -/
def PoseFits (fuel : ℕ) (g : Grid F) (p : SimParam F) (tol : F) (body : Body F)
    (q : Vec3 F × Quat F) : Prop :=
  ∀ area walls, bodyFootprint fuel g p tol body q = .ok (area, walls) →
    (1 ≤ area.minX ∧ area.maxX ≤ 2 * g.halfX ∧ 1 ≤ area.minY ∧ area.maxY ≤ 2 * g.halfY) ∧
    ∀ w ∈ walls, ∀ x ∈ w, (area.minX ≤ x.1 ∧ x.1 < area.maxX) ∧ area.minY ≤ x.2.1 ∧ x.2.1 < area.maxY

end Soil
