import Verif.Spec.Stability

/-!
# Well-formed simulation states

The conditions the simulator maintains between steps, in exact arithmetic, for a vertical cell size
`c`.  Only the data of the state is mentioned.
-/

namespace Soil

variable {K : Type} [Field K] [LinearOrder K]

/-- a whole number of cells -/
def Al (c x : K) : Prop := ∃ n : ℤ, x = n * c

/-- The other body layer -/
def otherLayer (k : ℕ) : ℕ := if k = 0 then 2 else 0

/-- Conditions on the body alone: heights are whole numbers of cells, a layer that exists has its
minimum below its maximum, two layers are separated, and there is no body on the border. -/
structure BodyOK (c : K) (s : SimOut K) : Prop where
  al : ∀ k i j, s.InGrid i j → Al c (s.body k i j)
  order : ∀ k i j, s.InGrid i j → k = 0 ∨ k = 2 → HasBody s k i j → s.body k i j < s.body (k + 1) i j
  apart : ∀ i j, s.InGrid i j → HasBody s 0 i j → HasBody s 2 i j →
    s.body 1 i j < s.body 2 i j ∨ s.body 3 i j < s.body 0 i j
  border : ∀ k i j, s.InGrid i j → OnBorder s i j → k = 0 ∨ k = 2 → ¬ HasBody s k i j

/-- Conditions on the soil resting on the body and its bookkeeping -/
structure SoilOK (c : K) (s : SimOut K) : Prop where
  terrain_al : ∀ i j, s.InGrid i j → Al c (s.terrain i j)
  soil_al : ∀ k i j, s.InGrid i j → Al c (s.bodySoil k i j)
  /-- soil rests directly on a body layer and has a non-negative thickness -/
  rest : ∀ k i j, s.InGrid i j → k = 0 ∨ k = 2 → HasSoil s k i j →
    HasBody s k i j ∧ s.bodySoil k i j = s.body (k + 1) i j ∧
      s.bodySoil k i j ≤ s.bodySoil (k + 1) i j
  entries : EntriesInGrid s
  entry_al : ∀ e ∈ s.bodySoilPos, Al c e.h
  entry_nonneg : ∀ e ∈ s.bodySoilPos, 0 ≤ e.h
  booked : Booked s
  /-- every column with soil on a layer is known to the bookkeeping -/
  listed : ∀ k i j, s.InGrid i j → k = 0 ∨ k = 2 → HasSoil s k i j →
    ∃ e ∈ s.bodySoilPos, e.ind = k ∧ e.ii = i ∧ e.jj = j

/-- Terrain does not reach into the body -/
def TerrainFree (s : SimOut K) : Prop :=
  ∀ k i j, s.InGrid i j → k = 0 ∨ k = 2 → HasBody s k i j → s.terrain i j ≤ s.body k i j

/-- Body soil does not reach into the body layer above it -/
def SoilFree (s : SimOut K) : Prop :=
  ∀ k i j, s.InGrid i j → k = 0 ∨ k = 2 → HasSoil s k i j → HasBody s (otherLayer k) i j →
    s.body k i j < s.body (otherLayer k) i j → s.bodySoil (k + 1) i j ≤ s.body (otherLayer k) i j

/-- A well-formed state -/
structure WellFormed (c : K) (s : SimOut K) : Prop where
  bodyOK : BodyOK c s
  soilOK : SoilOK c s
  terrainFree : TerrainFree s
  soilFree : SoilFree s

end Soil
