import Verif.Proof.Checks
import Verif.Proof.Example

/-! # Properties C38, C39: the two consistency checks -/

set_option linter.unusedSectionVars false

namespace Soil

/-- **C38** (any arithmetic). When the active area lies in the grid, `CheckSoil` returns, and it
returns true exactly when every column of the active area satisfies the documented conventions. -/
theorem C38_checkSoil_iff {F : Type} [FOps F] (s : SimOut F) (tol : F)
    (ha : AreaInside s.bodyArea s) :
    ∃ b, checkSoil s tol = .ok b ∧
      (b = true ↔ ∀ i j, s.bodyArea.minX ≤ i → i < s.bodyArea.maxX → s.bodyArea.minY ≤ j →
        j < s.bodyArea.maxY → ColumnConv s tol i j) := by
  obtain ⟨h1, h2, h3, h4⟩ := ha
  obtain ⟨b, hb, hb'⟩ := checkSoilCells_iff s tol s.bodyArea.cells (by
    intro p hp
    obtain ⟨a1, a2, a3, a4⟩ := Area.mem_cells.mp hp
    exact ⟨by omega, by omega, by omega, by omega⟩)
  refine ⟨b, hb, hb'.trans ?_⟩
  constructor
  · intro h i j a1 a2 a3 a4
    exact h (i, j) (Area.mem_cells.mpr ⟨a1, a2, a3, a4⟩)
  · intro h p hp
    obtain ⟨a1, a2, a3, a4⟩ := Area.mem_cells.mp hp
    exact h p.1 p.2 a1 a2 a3 a4

variable {K : Type} [Field K] [LinearOrder K] [FloorRing K] [Transc K] [IsStrictOrderedRing K]

/-- **C38** (exact arithmetic). As above, with the conventions written as inequalities. -/
theorem C38_checkSoil_iff_exact (s : SimOut K) (tol : K) (ha : AreaInside s.bodyArea s) :
    ∃ b, checkSoil s tol = .ok b ∧
      (b = true ↔ ∀ i j, s.bodyArea.minX ≤ i → i < s.bodyArea.maxX → s.bodyArea.minY ≤ j →
        j < s.bodyArea.maxY → ColumnConvEx s tol i j) := by
  obtain ⟨b, hb, hb'⟩ := C38_checkSoil_iff s tol ha
  refine ⟨b, hb, hb'.trans ?_⟩
  simp only [columnConv_iff_ex]

/-- **C39**. `CheckVolume` returns true exactly when on each body layer of each column the amount
resting there equals the sum of the bookkeeping entries within the tolerance, and the grid contains
the given number of soil cells. -/
theorem C39_checkVolume_iff (s : SimOut K) (v : ℤ) (g : Grid K) (tol : K) (he : EntriesInGrid s) :
    ∃ b, checkVolume s v g tol = .ok b ∧
      (b = true ↔ (∀ i j, s.InGrid i j → ∀ k, k = 0 ∨ k = 2 →
          |layerSoil s k i j - entrySum s.bodySoilPos k i j| ≤ tol) ∧
        totalCells s g.cellZ = v) :=
  checkVolume_iff s v g tol he

/-! ## Concrete cases -/

/-- C38: the example passes, the state in which soil intersects the body does not. -/
example : AreaInside exState.bodyArea exState ∧ AreaInside exState2.bodyArea exState2 ∧
    checkSoil exState (1 / 100) = .ok true ∧ checkSoil exState2 (1 / 100) = .ok false := by
  refine ⟨?_, ?_, by decide +kernel, by decide +kernel⟩ <;> (unfold AreaInside; decide)

/-- C39: the example holds five cells of soil, three of them on the body. -/
example : EntriesInGrid exState ∧ checkVolume exState 5 exGrid (1 / 100) = .ok true ∧
    checkVolume exState 6 exGrid (1 / 100) = .ok false ∧
    checkVolume { exState with bodySoilPos := [] } 5 exGrid (1 / 100) = .ok false := by
  refine ⟨?_, by decide +kernel, by decide +kernel, by decide +kernel⟩
  exact exState_wf.soilOK.entries

end Soil
