import Verif.Proof.LeftBehind
import Verif.Proof.Example

/-! # Property C70: which soil is left behind when the body moves

The search of `UpdateBodySoil` starts from a distance of `2 * grid.half_length_z_` (body_soil.cpp
120), a number of cells, and compares it with heights in metres. -/

set_option linter.unusedSectionVars false

namespace Soil

variable {K : Type} [Field K] [LinearOrder K] [FloorRing K] [Transc K] [IsStrictOrderedRing K]

/-- **C70**. After the transport the terrain of every column is the terrain before plus the soil, in
whole cells, of the records that have no place on the body around this column; one warning is issued
for each of these records and none for any other, and all other records with at least nine tenths of
a cell are on the body. This holds in every state, sound or not. -/
theorem C70_terrain (pos : Vec3 K) (ori : Quat K) (g : Grid K) (body : Body K) (tol : K) (w w' : World K)
    (body' : Body K) (h : updateBodySoil pos ori g body tol w = .ok (w', body')) :
    (∀ i j, w'.out.terrain i j = w.out.terrain i j + lostAt g tol w.out pos ori w.out.bodySoilPos i j) ∧
    w'.log = w.log ++ List.replicate (lostOf g tol w.out pos ori w.out.bodySoilPos).length .soilToTerrain ∧
    w'.out.bodySoilPos.length + (lostOf g tol w.out pos ori w.out.bodySoilPos).length =
      (w.out.bodySoilPos.filter fun e => decide (9 / 10 * g.cellZ ≤ e.h)).length := by
  have key : Post (updateBodySoil pos ori g body tol w) fun r =>
      (∀ i j, r.1.out.terrain i j = w.out.terrain i j + lostAt g tol w.out pos ori w.out.bodySoilPos i j) ∧
      r.1.log = w.log ++ List.replicate (lostOf g tol w.out pos ori w.out.bodySoilPos).length .soilToTerrain ∧
      r.1.out.bodySoilPos.length + (lostOf g tol w.out pos ori w.out.bodySoilPos).length =
        (w.out.bodySoilPos.filter fun e => decide (9 / 10 * g.cellZ ≤ e.h)).length := by
    unfold updateBodySoil
    refine Post.bind (resetBodySoil_left _ _) ?_
    rintro s ⟨b0, t0⟩
    dsimp only
    refine Post.bind (updateEntries_left pos ori g body tol w.out.bodySoilPos
      { w with out := { s with bodySoilPos := [] } }) ?_
    rintro w1 ⟨-, t1, l1, c1⟩
    have b0' : ({ s with bodySoilPos := [] } : SimOut K).body = w.out.body := b0
    dsimp only at t1 l1 c1
    rw [lostOf_same b0'] at l1 c1
    simp only [lostAt_same b0'] at t1
    refine Post.ok ⟨fun i j => ?_, l1, ?_⟩
    · rw [t1 i j, t0]
    · simpa using c1
  exact key _ h

/-- **C70**. If the grid has at most as many cells in height as a cell is metres high, the second
choice of the search (the closest layer) is never used: soil is lost as soon as no layer is within a
cell, however close the next one is. -/
theorem C70_units (g : Grid K) (tol : K) (ht : 0 ≤ tol) (hu : 2 * (g.halfZ : K) ≤ g.cellZ) (s : SimOut K)
    (q : Vec3 K) : NoPlace g tol s q ↔
      ∀ k i j, k = 0 ∨ k = 2 → colX g q - 1 ≤ i → i ≤ colX g q + 1 → colY g q - 1 ≤ j →
        j ≤ colY g q + 1 → HasBody s k i j → g.cellZ + tol ≤ |q.z - s.body (k + 1) i j| := by
  constructor
  · intro h k i j hk h1 h2 h3 h4 hb
    exact (h k i j hk h1 h2 h3 h4 hb).1
  · intro h k i j hk h1 h2 h3 h4 hb
    have := h k i j hk h1 h2 h3 h4 hb
    exact ⟨this, by linarith⟩

/-- **C70**. If instead the layers and the place are within the height of the grid and a cell is lower
than one metre, soil is lost only if none of the nine columns has a layer. -/
theorem C70_kept (g : Grid K) (tol : K) (hu : g.cellZ < 1) (hz : 0 < g.halfZ) (s : SimOut K) (q : Vec3 K)
    (hn : NoPlace g tol s q) (k : ℕ) (i j : ℤ) (hk : k = 0 ∨ k = 2) (h1 : colX g q - 1 ≤ i)
    (h2 : i ≤ colX g q + 1) (h3 : colY g q - 1 ≤ j) (h4 : j ≤ colY g q + 1)
    (hq : |q.z - s.body (k + 1) i j| ≤ 2 * g.halfZ * g.cellZ) : ¬ HasBody s k i j := by
  intro hb
  have h5 := (hn k i j hk h1 h2 h3 h4 hb).2
  have h6 : (0 : K) < g.halfZ := by exact_mod_cast hz
  nlinarith

/-! ## Examples -/

/-- cells eight metres high, four of them from bottom to top -/
def tallGrid : Grid ℚ :=
  { halfX := 2, halfY := 2, halfZ := 2, cellXY := 8, cellZ := 8, cellArea := 64, cellVolume := 512,
    vectX := fun i => -16 + 8 * i, vectY := fun i => -16 + 8 * i, vectZ := fun i => -8 + 8 * i }

/-- a layer over the column (2, 2), and a record of one cell of soil that rested on it -/
def tallWorld : World ℚ :=
  { exWorld with out := { exState with
      terrain := fun _ _ => 0
      body := fun k i j => if i = 2 ∧ j = 2 then (if k = 0 then 8 else if k = 1 then 16 else 0) else 0
      bodySoil := fun k i j => if i = 2 ∧ j = 2 then (if k = 0 then 16 else if k = 1 then 24 else 0) else 0
      bodySoilPos := [⟨0, 2, 2, 0, 0, 0, 8⟩] } }

/-- the layer is two cells above the new place of the soil, in the same column, and yet the soil is put on the
terrain -/
example : (match updateBodySoil ⟨0, 0, 0⟩ ⟨1, 0, 0, 0⟩ tallGrid exBody (1 / 100) tallWorld with
    | .ok (w', _) => decide (w'.log = [.soilToTerrain] ∧ w'.out.terrain 2 2 = 8 ∧ w'.out.bodySoilPos = [])
    | .error _ => false) = true := by decide +kernel

example : 2 * (tallGrid.halfZ : ℚ) ≤ tallGrid.cellZ := by norm_num [tallGrid]

/-- an ordinary grid: the soil is taken along -/
example : (match updateBodySoil ⟨0, 1, 2⟩ ⟨1, 0, 0, 0⟩ exGrid exBody (1 / 100) exWorld with
    | .ok (w', _) => decide (w'.log = [] ∧ w'.out.bodySoilPos.length = 2)
    | .error _ => false) = true := by decide +kernel

/-- no layer at all around the new place: both records are put on the terrain -/
example : (match updateBodySoil ⟨-1, -1, 0⟩ ⟨1, 0, 0, 0⟩ exGrid exBody (1 / 100)
      { exWorld with out := { exState with body := fun _ _ _ => 0 } } with
    | .ok (w', _) => decide (w'.log = [.soilToTerrain, .soilToTerrain] ∧ w'.out.terrain 1 1 = 7 ∧ w'.out.bodySoilPos = [])
    | .error _ => false) = true := by decide +kernel

end Soil
