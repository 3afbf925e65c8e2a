import Verif.Model.Num

/-!
# Data types and constructors (`soil_simulator/types.hpp`, `soil_simulator/types.cpp`)
-/

namespace Soil

open FOps

/-- Ways in which a call does not return normally. -/
inductive Err where
  /-- undefined behaviour: container access out of range -/
  | oob
  /-- undefined behaviour: floating-point to `int` conversion of an unrepresentable value -/
  | badCast
  /-- undefined behaviour: read of an uninitialised variable -/
  | uninit
  /-- the modelled loop ran longer than the given fuel -/
  | fuel
  /-- `std::invalid_argument` with the given message -/
  | invalidArgument (msg : String)
  deriving DecidableEq, Repr

/-- Result of a call: a value, or an abnormal outcome. -/
abbrev M (α : Type) := Except Err α

/-- Bounds check standing for the undefined behaviour of an out-of-range container access. -/
def guardOob (p : Prop) [Decidable p] : M Unit := if p then .ok () else .error .oob

/-- `static_cast<int>` -/
def castInt {F : Type} [FOps F] (x : F) : M ℤ :=
  match FOps.toInt x with
  | some z => .ok z
  | none => .error .badCast

/-- `std::vector<float>` of size 3.  Simplification: a caller passing a vector of another size is
not modelled, except in the constructor of `Body`. -/
structure Vec3 (F : Type) where
  x : F
  y : F
  z : F
  deriving DecidableEq, Repr

/-- `std::vector<float>` of size 4 holding a quaternion, scalar part first. -/
structure Quat (F : Type) where
  q0 : F
  q1 : F
  q2 : F
  q3 : F
  deriving DecidableEq, Repr

/-- `body_soil` (types.hpp 13-37). `ind` is 0 for the first and 2 for the second layer. -/
structure BodySoil (F : Type) where
  ind : ℕ
  ii : ℤ
  jj : ℤ
  xb : F
  yb : F
  zb : F
  h : F
  deriving DecidableEq, Repr

/-- `Grid` (types.hpp 82-142). `vectX i` is `vect_x_[i]` for `0 ≤ i ≤ 2 * halfX`; the vectors are
functions and their lengths are `2 * half + 1`. -/
structure Grid (F : Type) where
  halfX : ℤ
  halfY : ℤ
  halfZ : ℤ
  cellXY : F
  cellZ : F
  cellArea : F
  cellVolume : F
  vectX : ℤ → F
  vectY : ℤ → F
  vectZ : ℤ → F

/-- `Bucket` or `Blade` (types.hpp 200-). They only differ in how their walls are laid out. -/
inductive BodyKind where
  | bucket
  | blade
  deriving DecidableEq, Repr

/-- `Body` (types.hpp 148-198). -/
structure Body (F : Type) where
  kind : BodyKind
  jInit : Vec3 F
  bInit : Vec3 F
  tInit : Vec3 F
  width : F
  pos : Vec3 F
  ori : Quat F

/-- `SimParam` -/
structure SimParam (F : Type) where
  reposeAngle : F
  maxIterations : ℤ
  cellBuffer : ℤ

/-- `int area[2][2]`: `[0]` is X, `[1]` is Y; `[.][0]` lower bound, `[.][1]` upper bound. -/
structure Area where
  minX : ℤ
  maxX : ℤ
  minY : ℤ
  maxY : ℤ
  deriving DecidableEq, Repr

/-- `SimOut`. The nested vectors are functions of the indices together with the sizes `lenX` and
`lenY` of the two horizontal dimensions; every access is preceded by a bounds check. -/
structure SimOut (F : Type) where
  lenX : ℤ
  lenY : ℤ
  equilibrium : Bool
  terrain : ℤ → ℤ → F
  body : ℕ → ℤ → ℤ → F
  bodySoil : ℕ → ℤ → ℤ → F
  bodySoilPos : List (BodySoil F)
  bodyArea : Area
  relaxArea : Area
  impactArea : Area

variable {F : Type}

/-- `v[i][j] = x` -/
def upd2 (f : ℤ → ℤ → F) (i j : ℤ) (v : F) : ℤ → ℤ → F :=
  fun a b => if a = i ∧ b = j then v else f a b

/-- `v[k][i][j] = x` -/
def upd3 (f : ℕ → ℤ → ℤ → F) (k : ℕ) (i j : ℤ) (v : F) : ℕ → ℤ → ℤ → F :=
  fun c a b => if c = k ∧ a = i ∧ b = j then v else f c a b

namespace SimOut

/-- `0 <= i < terrain_.size()` and `0 <= j < terrain_[0].size()` -/
def InGrid (s : SimOut F) (i j : ℤ) : Prop := 0 ≤ i ∧ i < s.lenX ∧ 0 ≤ j ∧ j < s.lenY

instance (s : SimOut F) (i j : ℤ) : Decidable (s.InGrid i j) := by
  unfold InGrid; infer_instance

/-- `terrain_[i][j] = v` -/
def setT (s : SimOut F) (i j : ℤ) (v : F) : SimOut F := { s with terrain := upd2 s.terrain i j v }

/-- `body_[k][i][j] = v` -/
def setB (s : SimOut F) (k : ℕ) (i j : ℤ) (v : F) : SimOut F :=
  { s with body := upd3 s.body k i j v }

/-- `body_soil_[k][i][j] = v` -/
def setBS (s : SimOut F) (k : ℕ) (i j : ℤ) (v : F) : SimOut F :=
  { s with bodySoil := upd3 s.bodySoil k i j v }

/-- `body_soil_pos_.push_back(e)` -/
def pushPos (s : SimOut F) (e : BodySoil F) : SimOut F :=
  { s with bodySoilPos := s.bodySoilPos ++ [e] }

/-- `body_soil_pos_[nn].h_soil = v` -/
def setH (s : SimOut F) (nn : ℕ) (v : F) : SimOut F :=
  { s with bodySoilPos := s.bodySoilPos.modify nn fun e => { e with h := v } }

section
variable [FOps F]

/-- `(body_[k][i][j] == 0.0) && (body_[k+1][i][j] == 0.0)` -/
def bodyAbs (s : SimOut F) (k : ℕ) (i j : ℤ) : Bool :=
  FOps.eq (s.body k i j) zero && FOps.eq (s.body (k + 1) i j) zero

/-- `(body_soil_[k][i][j] != 0.0) || (body_soil_[k+1][i][j] != 0.0)` -/
def soilPres (s : SimOut F) (k : ℕ) (i j : ℤ) : Bool :=
  FOps.ne (s.bodySoil k i j) zero || FOps.ne (s.bodySoil (k + 1) i j) zero

end

end SimOut

/-- `for (x = a; x < b; x++)` -/
def intRange (a b : ℤ) : List ℤ := (List.range (b - a).toNat).map fun k : ℕ => a + (k : ℤ)

/-- Cells visited by the nested loops over a half-open area, in order. -/
def Area.cells (a : Area) : List (ℤ × ℤ) :=
  (intRange a.minX a.maxX).flatMap fun i => (intRange a.minY a.maxY).map fun j => (i, j)

/-- Cells visited by the nested loops over the whole grid. -/
def SimOut.allCells (s : SimOut F) : List (ℤ × ℤ) :=
  (Area.mk 0 s.lenX 0 s.lenY).cells

/-! ## Warnings -/

/-- `LOG(WARNING)` messages.  The amount in `soilRemoved` is not part of the C++ message; it is
recorded so that the theorems can talk about how much was removed. -/
inductive Warn (F : Type) where
  /-- utils.cpp 116: movement larger than two cells -/
  | largeMovement
  /-- body_soil.cpp: body soil could not be placed on the body and was moved to the terrain -/
  | soilToTerrain
  /-- intersecting_cells.cpp: body soil could not be placed anywhere and is removed -/
  | soilRemoved (h : F)
  deriving DecidableEq, Repr

/-! ## Random generator -/

/-- The sequence of values that the generator `rng` will deliver.  Simplification: one number is
consumed per call of `dist(rng)`, and it is reduced to the range of the distribution; quantifying
over all `Rng` quantifies over all sequences of draws. -/
abbrev Rng := ℕ → ℕ

/-- `std::uniform_int_distribution<int> dist(0, aa); dist(rng)` -/
def Rng.draw (r : Rng) (aa : ℕ) : ℕ × Rng := (r 0 % (aa + 1), fun n => r (n + 1))

/-- `std::swap(v[a], v[b])` -/
def swapL {α : Type} (l : List α) (a b : ℕ) : List α :=
  match l[a]?, l[b]? with
  | some x, some y => (l.set a y).set b x
  | _, _ => l

/-- `for (aa = n; aa > 0; aa--) { bb = dist(0, aa)(rng); swap(v[aa], v[bb]); }` -/
def shuffleFrom {α : Type} : ℕ → List α → Rng → List α × Rng
  | 0, l, r => (l, r)
  | aa + 1, l, r =>
    let (bb, r') := r.draw (aa + 1)
    shuffleFrom aa (swapL l (aa + 1) bb) r'

/-- The shuffle loop used all over the code (relax.cpp 65-69 and others). -/
def shuffle {α : Type} (l : List α) (r : Rng) : List α × Rng := shuffleFrom (l.length - 1) l r

/-- State threaded through a simulation step: the simulation outputs, the random generator and
the warnings issued so far. -/
structure World (F : Type) where
  out : SimOut F
  rng : Rng
  log : List (Warn F)

namespace World

/-- `LOG(WARNING)` -/
def warn (w : World F) (x : Warn F) : World F := { w with log := w.log ++ [x] }

/-- modify the simulation outputs -/
def mapOut (w : World F) (f : SimOut F → SimOut F) : World F := { w with out := f w.out }

end World

/-! ## Constructors -/

section
variable [FOps F]

/-- Filling loop of the position vectors (types.cpp 63-73): `v[0] = start; v[i] = v[i-1] + step`. -/
def accVect (start step : F) : ℕ → F
  | 0 => start
  | n + 1 => accVect start step n +ᶠ step

/-- `Grid::Grid` (types.cpp 14-74) -/
def mkGrid (gx gy gz cxy cz : F) : M (Grid F) := do
  if cz ≤ᶠ zero then throw (.invalidArgument "cell_size_z should be greater than zero")
  if cxy ≤ᶠ zero then throw (.invalidArgument "cell_size_xy should be greater than zero")
  if gx ≤ᶠ zero then throw (.invalidArgument "grid_size_x should be greater than zero")
  if gy ≤ᶠ zero then throw (.invalidArgument "grid_size_y should be greater than zero")
  if gz ≤ᶠ zero then throw (.invalidArgument "grid_size_z should be greater than zero")
  if cxy <ᶠ cz then
    throw (.invalidArgument "cell_size_z should be lower than or equal to cell_size_xy")
  if gx <ᶠ cxy then
    throw (.invalidArgument "cell_size_xy should be lower than or equal to grid_size_x")
  if gy <ᶠ cxy then
    throw (.invalidArgument "cell_size_xy should be lower than or equal to grid_size_y")
  if gz <ᶠ cz then
    throw (.invalidArgument "cell_size_z should be lower than or equal to grid_size_z")
  let hx ← castInt (FOps.round (gx /ᶠ cxy))
  let hy ← castInt (FOps.round (gy /ᶠ cxy))
  let hz ← castInt (FOps.round (gz /ᶠ cz))
  return {
    halfX := hx
    halfY := hy
    halfZ := hz
    cellXY := cxy
    cellZ := cz
    cellArea := cxy *ᶠ cxy
    cellVolume := (cxy *ᶠ cxy) *ᶠ cz
    vectX := fun i => accVect (FOps.neg gx) cxy i.toNat
    vectY := fun i => accVect (FOps.neg gy) cxy i.toNat
    vectZ := fun i => accVect (FOps.neg gz +ᶠ cz) cz i.toNat }

/-- `std::vector<float>::operator==` -/
def vecEq : List F → List F → Bool
  | [], [] => true
  | a :: l, b :: m => FOps.eq a b && vecEq l m
  | _, _ => false

/-- `Body::Body` (types.cpp 76-127), for `Bucket` and `Blade`. -/
def mkBody (kind : BodyKind) (o j b t : List F) (width : F) : M (Body F) := do
  if o.length ≠ 3 then throw (.invalidArgument "o_pos_init should be a vector of size 3")
  if j.length ≠ 3 then throw (.invalidArgument "j_pos_init should be a vector of size 3")
  if b.length ≠ 3 then throw (.invalidArgument "b_pos_init should be a vector of size 3")
  if t.length ≠ 3 then throw (.invalidArgument "t_pos_init should be a vector of size 3")
  if vecEq j b then throw (.invalidArgument "j_pos_init should not be equal to b_pos_init")
  if vecEq j t then throw (.invalidArgument "j_pos_init should not be equal to t_pos_init")
  if vecEq b t then throw (.invalidArgument "b_pos_init should not be equal to t_pos_init")
  if width ≤ᶠ zero then throw (.invalidArgument "width should be greater than zero")
  match o, j, b, t with
  | [o0, o1, o2], [j0, j1, j2], [b0, b1, b2], [t0, t1, t2] =>
    return {
      kind
      width
      pos := ⟨zero, zero, zero⟩
      ori := ⟨zero, zero, zero, zero⟩
      jInit := ⟨j0 -ᶠ o0, j1 -ᶠ o1, j2 -ᶠ o2⟩
      bInit := ⟨b0 -ᶠ o0, b1 -ᶠ o1, b2 -ᶠ o2⟩
      tInit := ⟨t0 -ᶠ o0, t1 -ᶠ o1, t2 -ᶠ o2⟩ }
  | _, _, _, _ => throw .oob

/-- `SimParam::SimParam` (types.cpp 129-147) -/
def mkSimParam (reposeAngle : F) (maxIterations cellBuffer : ℤ) : M (SimParam F) := do
  if FOps.pi /ᶠ ofRat 2 <ᶠ reposeAngle || reposeAngle <ᶠ zero then
    throw (.invalidArgument "repose_angle should be betweem 0.0 and pi/2")
  if maxIterations < 0 then
    throw (.invalidArgument "max_iterations should be greater or equal to zero")
  if cellBuffer < 2 then
    throw (.invalidArgument "cell_buffer should be greater or equal to 2")
  return { reposeAngle, maxIterations, cellBuffer }

/-- `SimOut::SimOut` (types.cpp 149-176) -/
def mkSimOut (g : Grid F) : SimOut F :=
  let area : Area := ⟨1, 2 * g.halfX, 1, 2 * g.halfY⟩
  { lenX := 2 * g.halfX + 1
    lenY := 2 * g.halfY + 1
    equilibrium := false
    terrain := fun _ _ => zero
    body := fun _ _ _ => zero
    bodySoil := fun _ _ _ => zero
    bodySoilPos := []
    bodyArea := area
    relaxArea := area
    impactArea := area }

end

end Soil
