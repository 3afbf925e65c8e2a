import Verif.Model.SoilDynamics
import Verif.Model.Real
import Mathlib.Analysis.SpecialFunctions.Trigonometric.Arctan
import Mathlib.Analysis.SpecialFunctions.Complex.Arg

/-!
# The example program (`test/example/soil_evolution.cpp`, `test/example/main.cpp`)
-/

namespace Soil

open FOps

/-- The two further functions used by the example. No laws are assumed. -/
class ATan (F : Type) where
  /-- `std::atan` -/
  atan : F → F
  /-- `std::atan2` -/
  atan2 : F → F → F

/-- The real functions -/
noncomputable instance : ATan ℝ := ⟨Real.arctan, fun y x => Complex.arg ⟨x, y⟩⟩

/-- NaN is propagated. -/
instance {K : Type} [ATan K] : ATan (NaNable K) :=
  ⟨NaNable.map₁ ATan.atan, NaNable.map₂ fun y x => .num (ATan.atan2 y x)⟩

variable {F : Type} [FOps F]

/-! ## `CalcTrajectory` -/

/-- The factors `a`, `b`, `c` of the parabola (soil_evolution.cpp 372-384) -/
def parabola (xi zi xmin zmin : F) : F × F × F :=
  if FOps.eq xmin zero then ((zi -ᶠ zmin) /ᶠ (xi *ᶠ xi), zero, zmin)
  else
    let b := ofRat 2 *ᶠ xmin *ᶠ (zmin -ᶠ zi) /ᶠ ((xi -ᶠ xmin) *ᶠ (xi -ᶠ xmin))
    let a := FOps.neg b /ᶠ (ofRat 2 *ᶠ xmin)
    (a, b, zmin +ᶠ b *ᶠ b /ᶠ (ofRat 4 *ᶠ a))

/-- `x_vec[ii]` (soil_evolution.cpp 367-370) -/
def trajX (xi xmin : F) (nn ii : ℕ) : F :=
  xi +ᶠ ofInt ii *ᶠ (ofRat 2 *ᶠ (xmin -ᶠ xi) /ᶠ ofInt (nn - 1))

/-- Position and angles of the body on the parabola at `x` (soil_evolution.cpp 393-398) -/
def trajNode [ATan F] (abc : F × F × F) (originAngle x : F) : Vec3 F × Vec3 F :=
  (⟨x, zero, abc.1 *ᶠ x *ᶠ x +ᶠ abc.2.1 *ᶠ x +ᶠ abc.2.2⟩,
    ⟨zero, FOps.neg originAngle +ᶠ ATan.atan (ofRat 2 *ᶠ abc.1 *ᶠ x +ᶠ abc.2.1), zero⟩)

/-- `CalcTrajectory` (soil_evolution.cpp 361-402): positions and angles. Simplification: `nn` is a
natural number (the allocation fails for a negative one). -/
def calcTrajectory [ATan F] (xi zi xmin zmin originAngle : F) (nn : ℕ) : List (Vec3 F × Vec3 F) :=
  (List.range nn).map fun ii => trajNode (parabola xi zi xmin zmin) originAngle (trajX xi xmin nn ii)

/-! ## `SoilEvolution` -/

/-- `v[k]` of a vector -/
def nodeAt {α : Type} (l : List α) (k : ℤ) : M α :=
  if 0 ≤ k then
    match l[k.toNat]? with
    | some v => .ok v
    | none => .error .oob
  else .error .oob

/-- The body corners for one pose of the trajectory (soil_evolution.cpp 107-149) -/
def evoCorners (body : Body F) (n : Vec3 F × Vec3 F) : Corners F :=
  let q := angleToQuat n.2
  let j := (calcRotationQuaternion q body.jInit).addF n.1
  let b := (calcRotationQuaternion q body.bInit).addF n.1
  let t := (calcRotationQuaternion q body.tInit).addF n.1
  let m := calcNormal j b t
  let h : Vec3 F := ⟨body.width *ᶠ m.x /ᶠ ofRat 2, body.width *ᶠ m.y /ᶠ ofRat 2, body.width *ᶠ m.z /ᶠ ofRat 2⟩
  ⟨j.addF h, j.subF h, b.addF h, b.subF h, t.addF h, t.subF h⟩

/-- `{u[0] * a + v[0] * b, ...}` -/
def lerp (u v : Vec3 F) (a b : F) : Vec3 F :=
  ⟨u.x *ᶠ a +ᶠ v.x *ᶠ b, u.y *ᶠ a +ᶠ v.y *ᶠ b, u.z *ᶠ a +ᶠ v.z *ᶠ b⟩

/-- Interpolated corners (soil_evolution.cpp 197-220 and 225-248); the factors `a` and `b` are the ones
of the middle time, the `a_plus` etc. computed by the code are not used. -/
def lerpCorners (cs : List (Corners F)) (k : ℤ) (a b : F) : M (Corners F) := do
  let c ← nodeAt cs k
  let d ← nodeAt cs (k + 1)
  return ⟨lerp c.jr d.jr a b, lerp c.jl d.jl a b, lerp c.br d.br a b, lerp c.bl d.bl a b,
    lerp c.tr d.tr a b, lerp c.tl d.tl a b⟩

/-- Velocity of a corner (soil_evolution.cpp 251-274); `std::pow(x, 2)` is modelled as `x * x`. -/
def cornerVel (p m : Vec3 F) (dti : F) : F :=
  FOps.sqrt ((p.x -ᶠ m.x) *ᶠ (p.x -ᶠ m.x) +ᶠ (p.y -ᶠ m.y) *ᶠ (p.y -ᶠ m.y) +ᶠ
    (p.z -ᶠ m.z) *ᶠ (p.z -ᶠ m.z)) /ᶠ dti

/-- `max_body_vel` (soil_evolution.cpp 277-278) -/
def maxBodyVel (p m : Corners F) (dti : F) : F :=
  ofRat (5 / 4) *ᶠ FOps.maxL (cornerVel p.jl m.jl dti) [cornerVel p.jr m.jr dti, cornerVel p.bl m.bl dti,
    cornerVel p.br m.br dti, cornerVel p.tl m.tl dti, cornerVel p.tr m.tr dti]

/-- Index of the trajectory for a time (soil_evolution.cpp 177, 194 and 222) -/
def timeIndex (time dtInt : F) : M ℤ := castInt (FOps.ceil (time /ᶠ dtInt))

/-- One iteration of the time loop (soil_evolution.cpp 172-295): the pose added, and the new values of
`time` and `dt_i` -/
def evoIter (g : Grid F) (traj : List (Vec3 F × Vec3 F)) (cs : List (Corners F)) (dtInt dt : F)
    (time dti : F) : M ((Vec3 F × Quat F) × F × F) := do
  let kk ← timeIndex time dtInt
  let a := (ofInt (kk + 1) *ᶠ dtInt -ᶠ time) /ᶠ dtInt
  let b := (time -ᶠ ofInt kk *ᶠ dtInt) /ᶠ dtInt
  let n ← nodeAt traj kk
  let n' ← nodeAt traj (kk + 1)
  let kp ← timeIndex (time +ᶠ ofRat (1 / 2) *ᶠ dti) dtInt
  let plus ← lerpCorners cs kp a b
  let km ← timeIndex (time -ᶠ ofRat (1 / 2) *ᶠ dti) dtInt
  let minus ← lerpCorners cs km a b
  let vel := maxBodyVel plus minus dti
  let dti := if FOps.ne vel zero then FOps.min g.cellXY g.cellZ /ᶠ vel else dt
  let time := if dt <ᶠ dti then time +ᶠ dt else time +ᶠ dti
  return ((lerp n.1 n'.1 a b, angleToQuat (lerp n.2 n'.2 a b)), time, dti)

/-- The time loop (soil_evolution.cpp 171-296): times and poses added -/
def evoLoop (g : Grid F) (traj : List (Vec3 F × Vec3 F)) (cs : List (Corners F)) (dtInt dt total : F) :
    ℕ → F → F → M (List (F × Vec3 F × Quat F))
  | fuel, time, dti =>
    if time +ᶠ dti <ᶠ total then
      match fuel with
      | 0 => .error .fuel
      | fuel + 1 => do
        let (q, time', dti') ← evoIter g traj cs dtInt dt time dti
        let rest ← evoLoop g traj cs dtInt dt total fuel time' dti'
        return (time, q) :: rest
    else .ok []

/-- `time_vec`, and `pos_vec` with `ori_vec` (soil_evolution.cpp 152-303) -/
def evolution (fuel : ℕ) (g : Grid F) (body : Body F) (traj : List (Vec3 F × Vec3 F)) :
    M (List F × List (Vec3 F × Quat F)) := do
  let total : F := ofRat 8
  let dtInt := total /ᶠ ofInt (traj.length - 1)
  let first ← nodeAt traj 0
  let l ← evoLoop g traj (traj.map (evoCorners body)) dtInt (ofRat (1 / 5)) total fuel (ofRat (1 / 10))
    (ofRat (1 / 10))
  let last ← nodeAt traj (traj.length - 1)
  return (l.map (·.1) ++ [total],
    (first.1, angleToQuat first.2) :: l.map (·.2) ++ [(last.1, angleToQuat last.2)])

/-- Simulation loop (soil_evolution.cpp 317-332) with the results of `Check`; one iteration per element
of `time_vec`. Writing the outputs is modelled in `Model/Output`. -/
def simulate (fuel : ℕ) (g : Grid F) (p : SimParam F) (tol : F) (vol : ℤ) :
    List (Vec3 F × Quat F) → Body F → World F → M (List (Bool × Bool) × Body F × World F)
  | [], body, w => .ok ([], body, w)
  | (pos, ori) :: l, body, w => do
    let r ← step fuel pos ori g body p tol w
    let c ← check r.world.out vol g tol
    let (cs, res) ← simulate fuel g p tol vol l r.body r.world
    return (c :: cs, res)

/-- `SoilEvolution` (soil_evolution.cpp 33-335) for a given trajectory, with `check_outputs`. The count of
`init_volume` (lines 308-314) is the one of `terrain_volume` in `CheckVolume`. -/
def soilEvolutionOn (fuel : ℕ) (body : Body F) (traj : List (Vec3 F × Vec3 F)) (rng : Rng) :
    M (List (Bool × Bool) × Body F × World F) := do
  let g ← mkGrid (ofRat 4) (ofRat 4) (ofRat 4) (ofRat (1 / 20)) (ofRat (1 / 100))
  let p ← mkSimParam (ofRat (17 / 20)) 3 4
  let (times, poses) ← evolution fuel g body traj
  let w ← init g (ofRat 32) ⟨mkSimOut g, rng, []⟩
  let vol ← terrainVolume w.out g
  let qs ← (List.range times.length).mapM fun ii : ℕ => nodeAt poses (ii : ℤ)
  simulate fuel g p (ofRat (1 / 100000)) vol qs body w

/-- `origin_angle` (soil_evolution.cpp 55-57) -/
def originAngle [ATan F] (body : Body F) : F :=
  ATan.atan2 (body.tInit.z -ᶠ body.bInit.z) (body.tInit.x -ᶠ body.bInit.x)

/-- The trajectory of the default case (soil_evolution.cpp 70-74 and 88-92) -/
def defaultTraj [ATan F] (body : Body F) : List (Vec3 F × Vec3 F) :=
  match body.kind with
  | .bucket => calcTrajectory (ofRat (-2)) (ofRat (3 / 2)) (ofRat (1 / 10)) (ofRat (1 / 4))
      (originAngle body) 10000
  | .blade => calcTrajectory (ofRat (-2)) (ofRat (1 / 10)) (ofRat (1 / 10)) zero zero 10000

/-- The trajectory of the random case (soil_evolution.cpp 58-69 and 76-87), for the four numbers drawn
from the uniform distribution. -/
def randomTraj [ATan F] (body : Body F) (u1 u2 u3 u4 : F) : List (Vec3 F × Vec3 F) :=
  match body.kind with
  | .bucket => calcTrajectory (ofRat (-3) +ᶠ ofRat 2 *ᶠ u1) (ofRat (1 / 2) +ᶠ ofRat (3 / 2) *ᶠ u2)
      (ofRat (-1 / 2) *ᶠ u3) (ofRat (-1 / 4) +ᶠ ofRat (1 / 2) *ᶠ u4) (originAngle body) 10000
  | .blade => calcTrajectory (ofRat (-3) +ᶠ ofRat 2 *ᶠ u1) (ofRat (1 / 10) +ᶠ ofRat (1 / 10) *ᶠ u2)
      (ofRat (-1 / 2) *ᶠ u3) (ofRat (1 / 10) +ᶠ ofRat (1 / 10) *ᶠ u4) zero 10000

/-- The body of the example (main.cpp 27-36 and 41-50) -/
def shippedBody : BodyKind → M (Body F)
  | .bucket => mkBody .bucket [zero, zero, zero] [zero, zero, zero] [zero, zero, ofRat (-1 / 2)]
      [ofRat (7 / 10), zero, ofRat (-1 / 2)] (ofRat (1 / 2))
  | .blade => mkBody .blade [zero, zero, zero] [ofRat (9 / 10), zero, ofRat (1 / 5)]
      [ofRat (3 / 4), zero, ofRat (3 / 2)] [ofRat (8 / 5), zero, ofRat (-2 / 5)] (ofRat (9 / 2))

/-- The program as shipped: the bucket with the default trajectory (main.cpp 19-58) -/
def exampleMain [ATan F] (fuel : ℕ) (rng : Rng) : M (List (Bool × Bool) × Body F × World F) := do
  let body ← shippedBody .bucket
  soilEvolutionOn fuel body (defaultTraj body) rng

end Soil
