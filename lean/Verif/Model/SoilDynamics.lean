import Verif.Model.BodyPos
import Verif.Model.BodySoilUpd

/-!
# Main functions of the simulator (`soil_simulator/soil_dynamics.cpp`)
-/

namespace Soil

open FOps

variable {F : Type} [FOps F]

/-- Permutation table (soil_dynamics.cpp 22-33) -/
def permTable (r : Rng) : List ℤ × Rng := shuffle ((List.range 256).map fun n : ℕ => (n : ℤ)) r

/-- Value written by `Init` at `(ii, jj)` (soil_dynamics.cpp 39-56) -/
def initHeight (g : Grid F) (amp : F) (perm : List ℤ) (ii jj : ℤ) : M F := do
  let x := (g.vectX 0 -ᶠ g.vectX ii) /ᶠ (ofRat 2 *ᶠ g.vectX 0)
  let y := (g.vectY 0 -ᶠ g.vectY jj) /ᶠ (ofRat 2 *ᶠ g.vectY 0)
  let n1 ← simplexNoise (ofRat 1 *ᶠ x) (ofRat 1 *ᶠ y) perm
  let n2 ← simplexNoise (ofRat 2 *ᶠ x) (ofRat 2 *ᶠ y) perm
  let n4 ← simplexNoise (ofRat 4 *ᶠ x) (ofRat 4 *ᶠ y) perm
  let n8 ← simplexNoise (ofRat 8 *ᶠ x) (ofRat 8 *ᶠ y) perm
  let v := amp *ᶠ (ofRat (1 / 2) *ᶠ n1 +ᶠ ofRat (1 / 4) *ᶠ n2 +ᶠ ofRat (1 / 8) *ᶠ n4 +ᶠ
    ofRat (1 / 16) *ᶠ n8)
  return g.cellZ *ᶠ FOps.round (v /ᶠ g.cellZ)

/-- Loop of `Init` over the cells (soil_dynamics.cpp 36-58) -/
def initCells (g : Grid F) (amp : F) (perm : List ℤ) : List (ℤ × ℤ) → SimOut F → M (SimOut F)
  | [], s => .ok s
  | p :: l, s => do
    guardOob (s.InGrid p.1 p.2 ∧ p.1 < 2 * g.halfX + 1 ∧ p.2 < 2 * g.halfY + 1)
    let h ← initHeight g amp perm p.1 p.2
    initCells g amp perm l (s.setT p.1 p.2 h)

/-- `SoilDynamics::Init` (soil_dynamics.cpp 18-59) -/
def init (g : Grid F) (amp : F) (w : World F) : M (World F) := do
  let (perm, r) := permTable w.rng
  let s ← initCells g amp perm w.out.allCells w.out
  return { w with out := s, rng := r }

/-- Update of `impact_area_` (soil_dynamics.cpp 93-100) -/
def impactOf (s : SimOut F) : Area :=
  { minX := Min.min s.bodyArea.minX s.relaxArea.minX
    maxX := Max.max s.bodyArea.maxX s.relaxArea.maxX
    minY := Min.min s.bodyArea.minY s.relaxArea.minY
    maxY := Max.max s.bodyArea.maxY s.relaxArea.maxY }

/-- `std::swap` shuffle of `body_soil_pos_` (soil_dynamics.cpp 108-112) -/
def shuffleEntries (w : World F) : World F :=
  let (l, r) := shuffle w.out.bodySoilPos w.rng
  { w with out := { w.out with bodySoilPos := l }, rng := r }

/-- One iteration of the relaxation loop (soil_dynamics.cpp 90-115) -/
def relaxOnce (g : Grid F) (body : Body F) (p : SimParam F) (tol : F) (w : World F) :
    M (World F) := do
  let w := w.mapOut fun s => { s with impactArea := impactOf s }
  let w ← relaxTerrain g body p tol w
  relaxBodySoil g body p tol (shuffleEntries w)

/-- `while (!equilibrium_ && it < max_iterations_)` (soil_dynamics.cpp 89-116): the final state and
the value of `it`. -/
def relaxLoop (g : Grid F) (body : Body F) (p : SimParam F) (tol : F) :
    ℕ → ℤ → World F → M (World F × ℤ)
  | fuel, it, w =>
    if !w.out.equilibrium && decide (it < p.maxIterations) then
      match fuel with
      | 0 => .error .fuel
      | fuel + 1 => do
        let w ← relaxOnce g body p tol w
        relaxLoop g body p tol fuel (it + 1) w
    else .ok (w, it)

/-- Result of `Step`: the returned flag, the simulation state, the body, and the number of
relaxation passes made (not returned by the C++ code). -/
structure StepResult (F : Type) where
  updated : Bool
  world : World F
  body : Body F
  passes : ℤ

/-- `SoilDynamics::Step` (soil_dynamics.cpp 61-119) -/
def step (fuel : ℕ) (pos : Vec3 F) (ori : Quat F) (g : Grid F) (body : Body F) (p : SimParam F)
    (tol : F) (w : World F) : M (StepResult F) := do
  let (moved, warns) := checkBodyMovement pos ori g body
  let w := { w with log := w.log ++ warns }
  if !moved then return ⟨false, w, body, 0⟩
  let s ← calcBodyPos fuel w.out pos ori g body p tol
  let (w, body) ← updateBodySoil pos ori g body tol { w with out := s }
  let w ← moveIntersectingCells fuel g body tol w
  let w := w.mapOut fun s => { s with equilibrium := false }
  let (w, it) ← relaxLoop g body p tol fuel 0 w
  return ⟨true, w, body, it⟩

/-- `SoilDynamics::Check` (soil_dynamics.cpp 127-135): the results of the two checks, which the
code reports through warnings only. -/
def check (s : SimOut F) (initVolume : ℤ) (g : Grid F) (tol : F) : M (Bool × Bool) := do
  let v ← checkVolume s initVolume g tol
  let c ← checkSoil s tol
  return (v, c)

/-- A sequence of `Step` calls with the given poses -/
def run (fuel : ℕ) (g : Grid F) (p : SimParam F) (tol : F) :
    List (Vec3 F × Quat F) → Body F → World F → M (Body F × World F)
  | [], body, w => .ok (body, w)
  | (pos, ori) :: l, body, w => do
    let r ← step fuel pos ori g body p tol w
    run fuel g p tol l r.body r.world

end Soil
