import Verif.Spec.Shape
import Verif.Spec.Reach

/-! # Exact grids and poses in general position -/

namespace Soil

/-- The columns and levels of the grid are exactly where the index coordinates say. This is so if the
extents of the grid are multiples of the cell sizes. -/
structure Aligned (g : Grid ℝ) : Prop where
  x : ∀ i : ℤ, 0 ≤ i → g.vectX i = (i - g.halfX) * g.cellXY
  y : ∀ i : ℤ, 0 ≤ i → g.vectY i = (i - g.halfY) * g.cellXY
  z : g.vectZ 0 = (1 - g.halfZ) * g.cellZ

/-- All sides of the body start in general position with respect to the cells (C16). -/
def General (g : Grid ℝ) (tol : ℝ) (body : Body ℝ) (q : Vec3 ℝ × Quat ℝ) : Prop :=
  ∀ f ∈ bodyFaces g tol q.1 q.2 body, ∀ e ∈ f.edges, StartGeneric (idx g e.1) (idx g e.2)

/-- Conditions under which soil carried by the body always finds the body again: the columns are where
the index coordinates say, the tolerance is small compared with the resolution, cells are at most half
as high as wide, and the height of the grid in metres, with the margin, is less than the number of its
levels above the middle (the source compares a distance in metres with a number of cells,
body_soil.cpp 120, 154, 180, 191). -/
structure CarryOK (g : Grid ℝ) (tol : ℝ) : Prop where
  aligned : Aligned g
  small : 18 * tol * ((g.halfX + g.halfY) * g.cellXY + g.halfZ * g.cellZ) ≤ g.cellZ
  fine : 400 * tol * (g.halfX + g.halfY) ≤ 1
  flat : 2 * g.cellZ ≤ g.cellXY
  units : g.halfZ * g.cellZ + margin g < g.halfZ

end Soil
