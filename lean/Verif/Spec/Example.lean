import Verif.Spec.Reach

/-! # Conditions on the trajectories of the example program -/

namespace Soil

/-- The trajectory is sampled finely enough for the body and the grid, and the body is not too slow. `D` is the
horizontal distance from the start to the deepest point, `Z` the difference in height, `n` the number of
intervals of the trajectory, `m` the smaller cell size and `R` the largest distance of a corner of the body from the
axis about which the body is turned, the Y axis through its reference point. -/
structure Paced (body : Body ℝ) (m D Z R : ℝ) (n : ℕ) : Prop where
  reach : 0 ≤ R
  radius : ∀ f ∈ cornerFns, (f (calcBodyCornerPos ⟨0, 0, 0⟩ ⟨1, 0, 0, 0⟩ body)).x ^ 2 +
    (f (calcBodyCornerPos ⟨0, 0, 0⟩ ⟨1, 0, 0, 0⟩ body)).z ^ 2 ≤ R ^ 2
  dist : 0 < D
  depth : 0 ≤ Z
  size : 0 < m
  many : 160 ≤ n
  turn : 4 * Z ≤ D * n
  fine : 15 * (Real.sqrt ((2 * D) ^ 2 + (4 * Z) ^ 2) + 4 * R * Z / D +
    (8 * Z + 64 * R * Z ^ 2 / D ^ 2) / n) ≤ 4 * m * n
  quick : 64 * m ≤ 2 * D - 8 * len body.jInit * Z / D

/-- The trajectory is also smooth on the scale of a cell. `V` bounds the speed of the reference point and `κ` the
second differences of the vertices between consecutive samples; `B` is the largest number of samples per time step. -/
structure Gentle (body : Body ℝ) (m D Z R V B κ : ℝ) (n : ℕ) : Prop extends Paced body m D Z R n where
  samples : 1600 ≤ n
  pos : 0 ≤ V ∧ 0 ≤ B
  speed : (2 * D) ^ 2 + (4 * Z) ^ 2 ≤ V ^ 2
  bend : 8 * Z + 64 * R * Z ^ 2 / D ^ 2 ≤ κ * n ^ 2
  slow : 85 * ((V + 4 * R * Z / D) / n + κ) ≤ 8 * m
  far : 8 * m * n ≤ 5 * B * (2 * D - 8 * len body.jInit * Z / D)
  smooth : (B * (B / 2 + 2) + (B + 1) ^ 2 / 2 + (B + 1) + 1) * κ ≤ m / 13
  start : (B * (n / 160 + 2) + (B + 1) ^ 2 / 2 + (B + 1) + 1) * κ ≤ 3 * m / 20

end Soil
