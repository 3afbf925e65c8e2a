import Verif.Spec.History
import Verif.Spec.Geom

/-! # How far the body and its soil reach -/

namespace Soil

/-- Euclidean length -/
noncomputable def len (v : Vec3 ℝ) : ℝ := Real.sqrt (dot v v)

/-- The columns of the grid are where the index coordinates say, up to half a cell (the constructor of
the grid rounds the number of cells). -/
structure Centred (g : Grid ℝ) : Prop where
  x : ∀ i : ℤ, 0 ≤ i → |g.vectX i - (i - g.halfX) * g.cellXY| ≤ g.cellXY / 2
  y : ∀ i : ℤ, 0 ≤ i → |g.vectY i - (i - g.halfY) * g.cellXY| ≤ g.cellXY / 2
  z : |g.vectZ 0 - (1 - g.halfZ) * g.cellZ| ≤ g.cellZ / 2

/-- No point of the body is farther than `R` from the reference point of the body, and no point of the
rasterised body is farther than `D`. -/
structure Reach (g : Grid ℝ) (body : Body ℝ) (R D : ℝ) : Prop where
  width : 0 ≤ body.width
  joint : len body.jInit + body.width / 2 + g.cellXY ≤ R
  base : len body.bInit + body.width / 2 + g.cellXY ≤ R
  teeth : len body.tInit + body.width / 2 + g.cellXY ≤ R
  nonneg : 0 ≤ D
  grown : 2 * (R + 2 * g.cellXY) ^ 2 + (R + 3 * g.cellZ) ^ 2 ≤ D ^ 2

/-- A pose that keeps the reference point of the body away from the sides of the grid by more than `D`
and from its bottom and top by more than `R`, with a valid orientation -/
structure Deep (g : Grid ℝ) (R D : ℝ) (q : Vec3 ℝ × Quat ℝ) : Prop where
  ori : qnormSq q.2 ≠ 0
  x : |q.1.x| + D < (g.halfX - 3 / 2) * g.cellXY
  y : |q.1.y| + D < (g.halfY - 3 / 2) * g.cellXY
  z : |q.1.z| + R < (g.halfZ - 1) * g.cellZ

/-- How far the rasterised body can be from the body -/
noncomputable def margin (g : Grid ℝ) : ℝ := 3 * g.cellXY + 4 * g.cellZ

/-- A pose with a valid orientation that keeps every vertex of the body away from the sides of the grid
by more than the margin and half a cell, and inside the grid vertically -/
structure Clear (g : Grid ℝ) (body : Body ℝ) (q : Vec3 ℝ × Quat ℝ) : Prop where
  ori : qnormSq q.2 ≠ 0
  x : ∀ v ∈ bodyVertices g q.1 q.2 body, |v.x| + margin g < (g.halfX - 1 / 2) * g.cellXY
  y : ∀ v ∈ bodyVertices g q.1 q.2 body, |v.y| + margin g < (g.halfY - 1 / 2) * g.cellXY
  z : ∀ v ∈ bodyVertices g q.1 q.2 body, |v.z| < (g.halfZ - 1) * g.cellZ

end Soil
