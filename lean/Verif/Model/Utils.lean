import Verif.Model.Types

/-!
# Geometry, checks and noise (`soil_simulator/utils.cpp`)
-/

namespace Soil

open FOps

variable {F : Type} [FOps F]

/-- `MultiplyQuaternion` (utils.cpp 221-234) -/
def multiplyQuaternion (a b : Quat F) : Quat F :=
  { q0 := a.q0 *ᶠ b.q0 -ᶠ a.q1 *ᶠ b.q1 -ᶠ a.q2 *ᶠ b.q2 -ᶠ a.q3 *ᶠ b.q3
    q1 := a.q0 *ᶠ b.q1 +ᶠ a.q1 *ᶠ b.q0 +ᶠ a.q2 *ᶠ b.q3 -ᶠ a.q3 *ᶠ b.q2
    q2 := a.q0 *ᶠ b.q2 -ᶠ a.q1 *ᶠ b.q3 +ᶠ a.q2 *ᶠ b.q0 +ᶠ a.q3 *ᶠ b.q1
    q3 := a.q0 *ᶠ b.q3 +ᶠ a.q1 *ᶠ b.q2 -ᶠ a.q2 *ᶠ b.q1 +ᶠ a.q3 *ᶠ b.q0 }

/-- `CalcRotationQuaternion` (utils.cpp 167-184) -/
def calcRotationQuaternion (ori : Quat F) (p : Vec3 F) : Vec3 F :=
  let n := ori.q0 *ᶠ ori.q0 +ᶠ ori.q1 *ᶠ ori.q1 +ᶠ ori.q2 *ᶠ ori.q2 +ᶠ ori.q3 *ᶠ ori.q3
  let conj : Quat F :=
    ⟨ori.q0 /ᶠ n, FOps.neg ori.q1 /ᶠ n, FOps.neg ori.q2 /ᶠ n, FOps.neg ori.q3 /ᶠ n⟩
  let q := multiplyQuaternion (multiplyQuaternion conj ⟨zero, p.x, p.y, p.z⟩) ori
  ⟨q.q1, q.q2, q.q3⟩

/-- `AngleToQuat` (utils.cpp 191-217); the three components of `a` are `ori[0..2]`. -/
def angleToQuat (a : Vec3 F) : Quat F :=
  let s0 := FOps.sin (a.x /ᶠ ofRat 2)
  let s1 := FOps.sin (a.y /ᶠ ofRat 2)
  let s2 := FOps.sin (a.z /ᶠ ofRat 2)
  let c0 := FOps.cos (a.x /ᶠ ofRat 2)
  let c1 := FOps.cos (a.y /ᶠ ofRat 2)
  let c2 := FOps.cos (a.z /ᶠ ofRat 2)
  let q0 := c0 *ᶠ c1 *ᶠ c2 +ᶠ s0 *ᶠ s1 *ᶠ s2
  if zero <ᶠ q0 then
    ⟨q0,
     c0 *ᶠ c1 *ᶠ s2 -ᶠ s0 *ᶠ s1 *ᶠ c2,
     c0 *ᶠ s1 *ᶠ c2 +ᶠ s0 *ᶠ c1 *ᶠ s2,
     s0 *ᶠ c1 *ᶠ c2 -ᶠ c0 *ᶠ s1 *ᶠ s2⟩
  else
    ⟨FOps.neg q0,
     FOps.neg c0 *ᶠ c1 *ᶠ s2 +ᶠ s0 *ᶠ s1 *ᶠ c2,
     FOps.neg c0 *ᶠ s1 *ᶠ c2 -ᶠ s0 *ᶠ c1 *ᶠ s2,
     FOps.neg s0 *ᶠ c1 *ᶠ c2 +ᶠ c0 *ᶠ s1 *ᶠ s2⟩

/-- `CalcNormal` (utils.cpp 123-143) -/
def calcNormal (a b c : Vec3 F) : Vec3 F :=
  let x := (b.y -ᶠ a.y) *ᶠ (c.z -ᶠ a.z) -ᶠ (b.z -ᶠ a.z) *ᶠ (c.y -ᶠ a.y)
  let y := (b.z -ᶠ a.z) *ᶠ (c.x -ᶠ a.x) -ᶠ (b.x -ᶠ a.x) *ᶠ (c.z -ᶠ a.z)
  let z := (b.x -ᶠ a.x) *ᶠ (c.y -ᶠ a.y) -ᶠ (b.y -ᶠ a.y) *ᶠ (c.x -ᶠ a.x)
  let n := FOps.sqrt (x *ᶠ x +ᶠ y *ᶠ y +ᶠ z *ᶠ z)
  ⟨x /ᶠ n, y /ᶠ n, z /ᶠ n⟩

/-- The six corners returned by `CalcBodyCornerPos`. -/
structure Corners (F : Type) where
  jr : Vec3 F
  jl : Vec3 F
  br : Vec3 F
  bl : Vec3 F
  tr : Vec3 F
  tl : Vec3 F

/-- component-wise sum of two vectors -/
def Vec3.addF (a b : Vec3 F) : Vec3 F := ⟨a.x +ᶠ b.x, a.y +ᶠ b.y, a.z +ᶠ b.z⟩

/-- component-wise difference of two vectors -/
def Vec3.subF (a b : Vec3 F) : Vec3 F := ⟨a.x -ᶠ b.x, a.y -ᶠ b.y, a.z -ᶠ b.z⟩

/-- scalar multiple of a vector -/
def Vec3.smulF (k : F) (a : Vec3 F) : Vec3 F := ⟨k *ᶠ a.x, k *ᶠ a.y, k *ᶠ a.z⟩

/-- `CalcBodyCornerPos` (utils.cpp 17-58). `0.5 * width_ * normal` associates to the left. -/
def calcBodyCornerPos (pos : Vec3 F) (ori : Quat F) (body : Body F) : Corners F :=
  let j := calcRotationQuaternion ori body.jInit
  let b := calcRotationQuaternion ori body.bInit
  let t := calcRotationQuaternion ori body.tInit
  let n := calcNormal j b t
  let j := j.addF pos
  let b := b.addF pos
  let t := t.addF pos
  let off := Vec3.smulF (ofRat (1 / 2) *ᶠ body.width) n
  ⟨j.addF off, j.subF off, b.addF off, b.subF off, t.addF off, t.subF off⟩

/-- distance expression of utils.cpp 80-103 -/
def cornerDist (f n : Vec3 F) : F :=
  FOps.sqrt ((f.x -ᶠ n.x) *ᶠ (f.x -ᶠ n.x) +ᶠ (f.y -ᶠ n.y) *ᶠ (f.y -ᶠ n.y) +ᶠ
    (f.z -ᶠ n.z) *ᶠ (f.z -ᶠ n.z))

/-- `CheckBodyMovement` (utils.cpp 68-121): the returned flag and the warnings issued. -/
def checkBodyMovement (pos : Vec3 F) (ori : Quat F) (g : Grid F) (body : Body F) :
    Bool × List (Warn F) :=
  let n := calcBodyCornerPos pos ori body
  let f := calcBodyCornerPos body.pos body.ori body
  let maxDist := FOps.maxL (cornerDist f.jr n.jr)
    [cornerDist f.jl n.jl, cornerDist f.br n.br, cornerDist f.bl n.bl, cornerDist f.tr n.tr,
      cornerDist f.tl n.tl]
  let minCell := FOps.min g.cellXY g.cellZ
  if maxDist <ᶠ ofRat (1 / 2) *ᶠ minCell then (false, [])
  else if ofRat 2 *ᶠ minCell <ᶠ maxDist then (true, [.largeMovement])
  else (true, [])

/-- `CalcBodyFramePos` (utils.cpp 145-163). The caller has checked that `(ii, jj)` is in range. -/
def calcBodyFramePos (ii jj : ℤ) (z : F) (g : Grid F) (body : Body F) : Vec3 F :=
  let cell : Vec3 F := ⟨g.vectX ii -ᶠ body.pos.x, g.vectY jj -ᶠ body.pos.y, z -ᶠ body.pos.z⟩
  let inv : Quat F :=
    ⟨body.ori.q0, FOps.neg body.ori.q1, FOps.neg body.ori.q2, FOps.neg body.ori.q3⟩
  calcRotationQuaternion inv cell

/-! ## Checks -/

/-- First loop of `CheckVolume` (utils.cpp 246-254): subtract every entry from a copy of
`body_soil_`. -/
def subtractEntries (s : SimOut F) : List (BodySoil F) → (ℕ → ℤ → ℤ → F) →
    M (ℕ → ℤ → ℤ → F)
  | [], m => .ok m
  | e :: l, m => do
    guardOob (s.InGrid e.ii e.jj ∧ e.ind + 1 < 4)
    subtractEntries s l (upd3 m (e.ind + 1) e.ii e.jj (m (e.ind + 1) e.ii e.jj -ᶠ e.h))

/-- `int += round(double)`: the sum is computed in floating point and converted to `int`. -/
def addRounded (acc : ℤ) (x : F) : M ℤ := castInt (ofInt acc +ᶠ FOps.round x)

/-- `terrain_volume` (utils.cpp 275-279) -/
def terrainVolume (s : SimOut F) (g : Grid F) : M ℤ :=
  s.allCells.foldlM (fun acc p => addRounded acc (s.terrain p.1 p.2 /ᶠ g.cellZ)) 0

/-- body of the loop computing `body_soil_volume` for one layer (utils.cpp 285-300) -/
def addLayerVolume (s : SimOut F) (g : Grid F) (k : ℕ) (p : ℤ × ℤ) (acc : ℤ) : M ℤ :=
  if s.soilPres k p.1 p.2 then
    addRounded acc ((s.bodySoil (k + 1) p.1 p.2 -ᶠ s.bodySoil k p.1 p.2) /ᶠ g.cellZ)
  else .ok acc

/-- `body_soil_volume` (utils.cpp 282-301) -/
def bodySoilVolume (s : SimOut F) (g : Grid F) : M ℤ :=
  s.allCells.foldlM (fun acc p => do addLayerVolume s g 2 p (← addLayerVolume s g 0 p acc)) 0

/-- `CheckVolume` (utils.cpp 239-312). The warnings accompany exactly the result `false` and are
not modelled separately. -/
def checkVolume (s : SimOut F) (initVolume : ℤ) (g : Grid F) (tol : F) : M Bool := do
  let m ← subtractEntries s s.bodySoilPos s.bodySoil
  if s.allCells.any fun p =>
      tol <ᶠ FOps.abs (m 0 p.1 p.2 -ᶠ m 1 p.1 p.2) || tol <ᶠ FOps.abs (m 2 p.1 p.2 -ᶠ m 3 p.1 p.2)
  then return false
  let tv ← terrainVolume s g
  let bv ← bodySoilVolume s g
  return decide (tv + bv = initVolume)

/-- One cell of `CheckSoil` (utils.cpp 336-484): true if no warning is issued. -/
def checkSoilCell (s : SimOut F) (tol : F) (ii jj : ℤ) : Bool :=
  let terrain := s.terrain ii jj
  let b0 := s.body 0 ii jj
  let b1 := s.body 1 ii jj
  let b2 := s.body 2 ii jj
  let b3 := s.body 3 ii jj
  let s0 := s.bodySoil 0 ii jj
  let s1 := s.bodySoil 1 ii jj
  let s2 := s.bodySoil 2 ii jj
  let s3 := s.bodySoil 3 ii jj
  let bp0 := FOps.ne b0 zero || FOps.ne b1 zero
  let bp2 := FOps.ne b2 zero || FOps.ne b3 zero
  let sp0 := FOps.ne s0 zero || FOps.ne s1 zero
  let sp2 := FOps.ne s2 zero || FOps.ne s3 zero
  if bp0 && b0 +ᶠ tol <ᶠ terrain then false
  else if bp2 && b2 +ᶠ tol <ᶠ terrain then false
  else if bp0 && b1 -ᶠ tol <ᶠ b0 then false
  else if bp2 && b3 -ᶠ tol <ᶠ b2 then false
  else if bp0 && bp2 && b2 <ᶠ b1 +ᶠ tol && b0 <ᶠ b3 +ᶠ tol then false
  else if bp0 && sp2 && s2 <ᶠ b1 -ᶠ tol && b0 <ᶠ s3 -ᶠ tol then false
  else if bp2 && sp0 && b2 <ᶠ s1 -ᶠ tol && s0 <ᶠ b3 -ᶠ tol then false
  else if sp0 && s1 +ᶠ tol <ᶠ s0 then false
  else if sp2 && s3 +ᶠ tol <ᶠ s2 then false
  else if sp0 && s0 +ᶠ tol <ᶠ b1 then false
  else if sp2 && s2 +ᶠ tol <ᶠ b3 then false
  else if sp0 && !bp0 then false
  else if sp2 && !bp2 then false
  else if sp0 && FOps.ne s0 b1 then false
  else if sp2 && FOps.ne s2 b3 then false
  else true

/-- loop of `CheckSoil` over the cells of the body area -/
def checkSoilCells (s : SimOut F) (tol : F) : List (ℤ × ℤ) → M Bool
  | [] => .ok true
  | p :: l => do
    guardOob (s.InGrid p.1 p.2)
    if checkSoilCell s tol p.1 p.2 then checkSoilCells s tol l else return false

/-- `CheckSoil` (utils.cpp 325-488) -/
def checkSoil (s : SimOut F) (tol : F) : M Bool := checkSoilCells s tol s.bodyArea.cells

/-! ## Simplex noise -/

/-- `perm_table[i]` -/
def permAt (perm : List ℤ) (i : ℤ) : M ℤ :=
  if 0 ≤ i then
    match perm[i.toNat]? with
    | some v => .ok v
    | none => .error .oob
  else .error .oob

/-- The eight gradient directions (utils.cpp 736-738), indexed by `v & 7`. -/
def gradDir : List (ℤ × ℤ) :=
  [(1, 0), (-1, 0), (0, 1), (0, -1), (1, 1), (1, -1), (-1, 1), (-1, -1)]

/-- Contribution of one corner (utils.cpp 740-768).  `x & 255` and `x & 7` of a two's-complement
`int` are the remainders modulo 256 and 8. -/
def cornerGrad (perm : List ℤ) (px py : F) (xi yi : ℤ) : M F := do
  let t := ofRat (1 / 2) -ᶠ px *ᶠ px -ᶠ py *ᶠ py
  if t <ᶠ zero then return zero
  let t := t *ᶠ t
  let p ← permAt perm yi
  let q ← permAt perm ((xi + p) % 256)
  match gradDir[(q % 8).toNat]? with
  | some d => return t *ᶠ t *ᶠ (px *ᶠ ofInt d.1 +ᶠ py *ᶠ ofInt d.2)
  | none => throw .oob

/-- `simplex_noise` (utils.cpp 703-771) -/
def simplexNoise (x y : F) (perm : List ℤ) : M F := do
  let r3 := FOps.sqrt (ofRat 3)
  let s := (x +ᶠ y) *ᶠ (r3 -ᶠ ofRat 1) /ᶠ ofRat 2
  let xi ← castInt (FOps.floor (x +ᶠ s))
  let yi ← castInt (FOps.floor (y +ᶠ s))
  let s := ofInt (xi + yi) *ᶠ (ofRat 3 -ᶠ r3) /ᶠ ofRat 6
  let x0 := x -ᶠ (ofInt xi -ᶠ s)
  let y0 := y -ᶠ (ofInt yi -ᶠ s)
  let i1 : ℤ := if y0 <ᶠ x0 then 1 else 0
  let j1 : ℤ := if y0 <ᶠ x0 then 0 else 1
  let c := (ofRat 3 -ᶠ r3) /ᶠ ofRat 6
  let x1 := x0 -ᶠ ofInt i1 +ᶠ c
  let y1 := y0 -ᶠ ofInt j1 +ᶠ c
  let c2 := ofRat 2 *ᶠ (ofRat 3 -ᶠ r3) /ᶠ ofRat 6
  let x2 := x0 -ᶠ ofRat 1 +ᶠ c2
  let y2 := y0 -ᶠ ofRat 1 +ᶠ c2
  let g0 ← cornerGrad perm x0 y0 xi yi
  let g1 ← cornerGrad perm x1 y1 (xi + i1) (yi + j1)
  let g2 ← cornerGrad perm x2 y2 (xi + 1) (yi + 1)
  return g0 +ᶠ g1 +ᶠ g2

end Soil
