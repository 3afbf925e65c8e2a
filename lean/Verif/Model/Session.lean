import Verif.Model.Output
import Verif.Model.Example

/-!
# Outputs written one after the other (`soil_simulator/soil_dynamics.cpp` 137-146,
`test/example/soil_evolution.cpp`)

The results directory is a map from the names of the files to their lines. Opening a file for writing replaces
its contents. Not modelled: other processes, and failures when opening a file.
-/

namespace Soil

open FOps

variable {F : Type} [FOps F]

/-- The results directory: the lines after the header of each file that exists -/
abbrev Dir (F : Type) := String → Option (List (Vec3 F))

/-- `std::ifstream infile(name); infile.good()` (utils.cpp 514-515) -/
def Dir.has (d : Dir F) (x : String) : Bool := (d x).isSome

/-- `std::ofstream file; file.open(name); ... file.close()` (utils.cpp 521-528) -/
def Dir.put (d : Dir F) (f : OutFile F) : Dir F := fun x => if x = f.name then some f.rows else d x

/-- `SoilDynamics::WriteOutputs` (soil_dynamics.cpp 137-146): the soil files are written before the
directory is looked up for the body file. -/
def writeInto (d : Dir F) (s : SimOut F) (g : Grid F) (body : Body F) : Dir F :=
  let d := (writeSoil d.has s g).foldl Dir.put d
  d.put (writeBody d.has body)

/-- Simulation loop with `write_outputs` and without `check_outputs` (soil_evolution.cpp 317-332) -/
def simulateWrite (fuel : ℕ) (g : Grid F) (p : SimParam F) (tol : F) :
    List (Vec3 F × Quat F) → Body F → World F → Dir F → M (Dir F × Body F × World F)
  | [], body, w, d => .ok (d, body, w)
  | (pos, ori) :: l, body, w, d => do
    let r ← step fuel pos ori g body p tol w
    simulateWrite fuel g p tol l r.body r.world (writeInto d r.world.out g r.body)

/-- `SoilEvolution` (soil_evolution.cpp 33-335) for a given trajectory, with `write_outputs` and without
`check_outputs`; the results directory is `d` when it is called. -/
def soilEvolutionWrite (fuel : ℕ) (body : Body F) (traj : List (Vec3 F × Vec3 F)) (rng : Rng) (d : Dir F) :
    M (Dir F × Body F × World F) := do
  let g ← mkGrid (ofRat 4) (ofRat 4) (ofRat 4) (ofRat (1 / 20)) (ofRat (1 / 100))
  let p ← mkSimParam (ofRat (17 / 20)) 3 4
  let (times, poses) ← evolution fuel g body traj
  let w ← init g (ofRat 32) ⟨mkSimOut g, rng, []⟩
  let qs ← (List.range times.length).mapM fun ii : ℕ => nodeAt poses (ii : ℤ)
  simulateWrite fuel g p (ofRat (1 / 100000)) qs body w d

end Soil
