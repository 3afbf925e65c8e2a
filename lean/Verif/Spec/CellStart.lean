import Verif.Spec.Cells
import Verif.Spec.State
import Verif.Spec.Fits
import Verif.Model.SoilDynamics

/-!
# Histories in an arithmetic that is exact on whole numbers of cells
-/

namespace Soil

variable {F : Type} [FOps F] {cell tol : F} {N C : ℤ}

/-- The vertical layout of the grid and the maximum slope in whole numbers of cells: `lo` and `hi`
enclose the grid, `vol` bounds the soil above `lo`, and `H` bounds heights. -/
structure CellSetup (A : CellArith F cell tol N C) (lo hi vol H : ℤ) (g : Grid F) (p : SimParam F) :
    Prop where
  cellZ : g.cellZ = cell
  /-- consecutive heights of the grid -/
  heights : ∃ z0, ∀ k, 0 ≤ k → k ≤ 2 * g.halfZ →
    g.vectZ k = A.emb (z0 + k) ∧ lo ≤ z0 + k - 1 ∧ z0 + k ≤ hi
  /-- the largest height difference that is at rest -/
  slope : ∃ n, dhMax g p = A.emb n ∧ 0 ≤ n ∧ n ≤ H
  buffer : 2 ≤ p.cellBuffer
  lo_le : lo ≤ 0
  hi_ge : 0 ≤ hi
  vol_ge : 0 ≤ vol
  bound : 2 * vol + hi - lo ≤ H
  /-- the arithmetic is exact on the heights needed -/
  exact : 16 * H ≤ N

/-- A start with terrain `T i j` cells high, no body and no body soil -/
structure CellStart (A : CellArith F cell tol N C) (lo vol : ℤ) (g : Grid F) (T : ℤ → ℤ → ℤ)
    (s : SimOut F) : Prop where
  terrain : ∀ i j, s.InGrid i j → s.terrain i j = A.emb (T i j) ∧ lo ≤ T i j
  body : ∀ k i j, s.InGrid i j → k < 4 → s.body k i j = FOps.zero
  bodySoil : ∀ k i j, s.InGrid i j → k < 4 → s.bodySoil k i j = FOps.zero
  noEntry : s.bodySoilPos = []
  area : AreaInside s.bodyArea s
  relax : AreaInside s.relaxArea s
  lenX : s.lenX = 2 * g.halfX + 1
  lenY : s.lenY = 2 * g.halfY + 1
  volume : ∑ p ∈ gridCols s, (T p.1 p.2 - lo) ≤ vol

/-- The amounts reported by the warnings about removed soil -/
def removals (l : List (Warn F)) : List F :=
  l.filterMap fun x => match x with | .soilRemoved h => some h | _ => none

/-- Every height stored in the state is a whole number of cells -/
structure CellHeights (A : CellArith F cell tol N C) (s : SimOut F) : Prop where
  terrain : ∀ i j, s.InGrid i j → ∃ n, s.terrain i j = A.emb n
  body : ∀ k i j, s.InGrid i j → k < 4 → ∃ n, s.body k i j = A.emb n
  bodySoil : ∀ k i j, s.InGrid i j → k < 4 → ∃ n, s.bodySoil k i j = A.emb n
  entry : ∀ e ∈ s.bodySoilPos, ∃ n, 0 ≤ n ∧ e.h = A.emb n

end Soil
