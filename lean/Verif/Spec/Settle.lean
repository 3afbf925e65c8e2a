import Verif.Spec.State

/-! # Rounds of relaxation that move soil -/

namespace Soil

variable {K : Type} [Sub K]

/-- The same amounts of soil lie on the terrain and on both layers of the body in every column. -/
structure SameSoil (s r : SimOut K) : Prop where
  terrain : r.terrain = s.terrain
  layer : ∀ k i j, k = 0 ∨ k = 2 → layerSoil r k i j = layerSoil s k i j

end Soil
