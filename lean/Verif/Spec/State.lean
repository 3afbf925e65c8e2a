import Verif.Model.Types
import Mathlib.Algebra.BigOperators.Group.Finset.Basic
import Mathlib.Order.Interval.Finset.Basic
import Mathlib.Data.Int.Interval

/-!
# Specification vocabulary for simulation states

These definitions only mention the data of a state (`SimOut`), never the functions of the model.
-/

namespace Soil

variable {K : Type}

/-- Sum of the amounts recorded in the bookkeeping list for layer `k` of column `(i, j)` -/
def entrySum [Zero K] [Add K] (l : List (BodySoil K)) (k : ℕ) (i j : ℤ) : K :=
  ((l.filter fun e => e.ind = k ∧ e.ii = i ∧ e.jj = j).map fun e => e.h).sum

/-- Amount of soil resting on body layer `k` (0 or 2) of column `(i, j)` -/
def layerSoil [Sub K] (s : SimOut K) (k : ℕ) (i j : ℤ) : K :=
  s.bodySoil (k + 1) i j - s.bodySoil k i j

/-- Height of soil in column `(i, j)`: terrain plus the soil resting on both body layers -/
def columnSoil [Add K] [Sub K] (s : SimOut K) (i j : ℤ) : K :=
  s.terrain i j + layerSoil s 0 i j + layerSoil s 2 i j

/-- The columns of the grid -/
def gridCols (s : SimOut K) : Finset (ℤ × ℤ) := Finset.Ico 0 s.lenX ×ˢ Finset.Ico 0 s.lenY

/-- Total height of soil over the whole grid (the soil volume divided by the cell area) -/
def totalSoil [AddCommGroup K] (s : SimOut K) : K := ∑ p ∈ gridCols s, columnSoil s p.1 p.2

/-- Total height of soil resting on the body -/
def carriedSoil [AddCommGroup K] (s : SimOut K) : K :=
  ∑ p ∈ gridCols s, (layerSoil s 0 p.1 p.2 + layerSoil s 2 p.1 p.2)

/-- The bookkeeping equals the amount resting on each body layer -/
def Booked [AddCommGroup K] (s : SimOut K) : Prop :=
  ∀ i j, s.InGrid i j → ∀ k, k = 0 ∨ k = 2 → layerSoil s k i j = entrySum s.bodySoilPos k i j

/-- Every bookkeeping entry refers to a column of the grid and to one of the two layers -/
def EntriesInGrid (s : SimOut K) : Prop :=
  ∀ e ∈ s.bodySoilPos, s.InGrid e.ii e.jj ∧ (e.ind = 0 ∨ e.ind = 2)

/-- Body layers, body area and array sizes are the same in both states -/
def SameBody (s s' : SimOut K) : Prop :=
  s'.body = s.body ∧ s'.bodyArea = s.bodyArea ∧ s'.lenX = s.lenX ∧ s'.lenY = s.lenY

/-- An area lies inside the grid leaving out the first and last row and column -/
def AreaInside (a : Area) (s : SimOut K) : Prop :=
  1 ≤ a.minX ∧ a.maxX ≤ s.lenX - 1 ∧ 1 ≤ a.minY ∧ a.maxY ≤ s.lenY - 1

/-- a column of the outermost ring of the grid -/
def OnBorder (s : SimOut K) (i j : ℤ) : Prop :=
  i = 0 ∨ i = s.lenX - 1 ∨ j = 0 ∨ j = s.lenY - 1

/-- Total of the amounts for which a removal warning was issued -/
def removedSoil [Zero K] [Add K] (l : List (Warn K)) : K :=
  (l.map fun x => match x with | .soilRemoved h => h | _ => 0).sum

end Soil
