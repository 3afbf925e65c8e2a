import Verif.Model.SoilDynamics
import Verif.Spec.Geom

/-!
# Scenes placed elsewhere

Vocabulary for comparing two simulations of the same scene: on another part of the grid, on a grid of another size, or
with the two horizontal axes exchanged.
-/

namespace Soil

variable {F : Type}

/-- Where the columns of one simulation lie in the other: moved by `(tx, ty)` columns, the axes exchanged first if `swap`. -/
structure Chart where
  swap : Bool
  tx : ℤ
  ty : ℤ

namespace Chart

/-- the direction of the other simulation -/
def lin (c : Chart) (d : ℤ × ℤ) : ℤ × ℤ := if c.swap then (d.2, d.1) else d

/-- the column of the other simulation -/
def on (c : Chart) (p : ℤ × ℤ) : ℤ × ℤ := ((c.lin p).1 + c.tx, (c.lin p).2 + c.ty)

/-- the rectangle of columns of the other simulation -/
def area (c : Chart) (a : Area) : Area :=
  if c.swap then ⟨a.minY + c.tx, a.maxY + c.tx, a.minX + c.ty, a.maxX + c.ty⟩
  else ⟨a.minX + c.tx, a.maxX + c.tx, a.minY + c.ty, a.maxY + c.ty⟩

/-- the vector of the other simulation -/
def vec (c : Chart) (v : Vec3 F) : Vec3 F := if c.swap then ⟨v.y, v.x, v.z⟩ else v

/-- the entry of `body_soil_pos_` of the other simulation -/
def entry (c : Chart) (e : BodySoil F) : BodySoil F :=
  ⟨e.ind, (c.on (e.ii, e.jj)).1, (c.on (e.ii, e.jj)).2, (c.vec ⟨e.xb, e.yb, e.zb⟩).x, (c.vec ⟨e.xb, e.yb, e.zb⟩).y,
    (c.vec ⟨e.xb, e.yb, e.zb⟩).z, e.h⟩

end Chart

/-- The state `s'` shows the scene of `s` through the chart: same heights of terrain, body and soil on the body in
corresponding columns (of those that lie in both grids), same entries in the same order, same flag.  Unless `E`, every
column of `s` has a corresponding one. -/
structure Like (E : Prop) (c : Chart) (s s' : SimOut F) : Prop where
  grid : ∀ i j, s.InGrid i j → s'.InGrid (c.on (i, j)).1 (c.on (i, j)).2 ∨ E
  terrain : ∀ i j, s.InGrid i j → s'.InGrid (c.on (i, j)).1 (c.on (i, j)).2 →
    s'.terrain (c.on (i, j)).1 (c.on (i, j)).2 = s.terrain i j
  body : ∀ k i j, s.InGrid i j → s'.InGrid (c.on (i, j)).1 (c.on (i, j)).2 →
    s'.body k (c.on (i, j)).1 (c.on (i, j)).2 = s.body k i j
  bodySoil : ∀ k i j, s.InGrid i j → s'.InGrid (c.on (i, j)).1 (c.on (i, j)).2 →
    s'.bodySoil k (c.on (i, j)).1 (c.on (i, j)).2 = s.bodySoil k i j
  entries : s'.bodySoilPos = s.bodySoilPos.map c.entry
  equilibrium : s'.equilibrium = s.equilibrium

/-- `Like`, and the rectangles of the body and of the last relaxation correspond -/
structure LikeA (E : Prop) (c : Chart) (s s' : SimOut F) : Prop extends Like E c s s' where
  bodyArea : s'.bodyArea = c.area s.bodyArea
  relaxArea : s'.relaxArea = c.area s.relaxArea

/-- The rectangle lies inside the grid, `m` columns away from where `RelaxTerrain` cuts its area off. -/
def Wide (g : Grid F) (m : ℤ) (a : Area) : Prop :=
  2 + m ≤ a.minX ∧ a.maxX + m ≤ 2 * g.halfX ∧ 2 + m ≤ a.minY ∧ a.maxY + m ≤ 2 * g.halfY

/-- In both grids the rectangle lies `m` columns away from where areas are cut off; or the axes are exchanged and the grids
are exchanges of each other. -/
def Chart.Roomy (c : Chart) (g g' : Grid F) (m : ℤ) (a : Area) : Prop :=
  if c.swap then c.tx = 0 ∧ c.ty = 0 ∧ g'.halfX = g.halfY ∧ g'.halfY = g.halfX
  else Wide g m a ∧ Wide g' m (c.area a)

/-- Grids and bodies of the two simulations: cells of the same size, and the position of a column relative to the body,
in the frame of the body, is the same through the chart. -/
structure SameScene [FOps F] (c : Chart) (g g' : Grid F) (b b' : Body F) : Prop where
  cellZ : g'.cellZ = g.cellZ
  cellXY : g'.cellXY = g.cellXY
  frame : ∀ i j z, 0 ≤ i → 0 ≤ j → 0 ≤ (c.on (i, j)).1 → 0 ≤ (c.on (i, j)).2 →
    calcBodyFramePos (c.on (i, j)).1 (c.on (i, j)).2 z g' b' = c.vec (calcBodyFramePos i j z g b)

/-! ## Exchange of the horizontal axes -/

/-- exchange of the two horizontal axes -/
def exchange : Chart := ⟨true, 0, 0⟩

/-- the grid with its axes exchanged -/
def Grid.exch (g : Grid F) : Grid F :=
  { g with halfX := g.halfY, halfY := g.halfX, vectX := g.vectY, vectY := g.vectX }

/-- The mirror image of the pose: position with exchanged axes; the mirror image of a turn by an angle about an axis is the
turn by the opposite angle about the mirror image of the axis. -/
def Body.exch [FOps F] (b : Body F) : Body F :=
  { b with
    pos := ⟨b.pos.y, b.pos.x, b.pos.z⟩
    ori := ⟨b.ori.q0, FOps.neg b.ori.q2, FOps.neg b.ori.q1, FOps.neg b.ori.q3⟩ }

/-- the state with its axes exchanged -/
def SimOut.exch (s : SimOut F) : SimOut F where
  lenX := s.lenY
  lenY := s.lenX
  equilibrium := s.equilibrium
  terrain i j := s.terrain j i
  body k i j := s.body k j i
  bodySoil k i j := s.bodySoil k j i
  bodySoilPos := s.bodySoilPos.map fun e => ⟨e.ind, e.jj, e.ii, e.yb, e.xb, e.zb, e.h⟩
  bodyArea := ⟨s.bodyArea.minY, s.bodyArea.maxY, s.bodyArea.minX, s.bodyArea.maxX⟩
  relaxArea := ⟨s.relaxArea.minY, s.relaxArea.maxY, s.relaxArea.minX, s.relaxArea.maxX⟩
  impactArea := ⟨s.impactArea.minY, s.impactArea.maxY, s.impactArea.minX, s.impactArea.maxX⟩

/-- The state `s'` is the exchange of `s`, as far as heights of columns of the grid, records of soil on the body, the flag
and the rectangles of body and relaxation show. -/
structure Exchanged (s s' : SimOut F) : Prop where
  lenX : s'.lenX = s.lenY
  lenY : s'.lenY = s.lenX
  terrain : ∀ i j, s.InGrid i j → s'.terrain j i = s.terrain i j
  body : ∀ k i j, s.InGrid i j → s'.body k j i = s.body k i j
  bodySoil : ∀ k i j, s.InGrid i j → s'.bodySoil k j i = s.bodySoil k i j
  entries : s'.bodySoilPos = s.bodySoilPos.map fun e => ⟨e.ind, e.jj, e.ii, e.yb, e.xb, e.zb, e.h⟩
  equilibrium : s'.equilibrium = s.equilibrium
  bodyArea : s'.bodyArea = ⟨s.bodyArea.minY, s.bodyArea.maxY, s.bodyArea.minX, s.bodyArea.maxX⟩
  relaxArea : s'.relaxArea = ⟨s.relaxArea.minY, s.relaxArea.maxY, s.relaxArea.minX, s.relaxArea.maxX⟩

/-! ## Another place -/

/-- The second grid has cells of the same size and the same heights; its columns lie `(tx, ty)` indices further and `d`
metres away. -/
structure Placed {K : Type} [Field K] [LinearOrder K] (c : Chart) (d : Vec3 K) (g g' : Grid K) : Prop where
  swap : c.swap = false
  cellXY : g'.cellXY = g.cellXY
  cellZ : g'.cellZ = g.cellZ
  pos : 0 < g.cellXY
  halfZ : g'.halfZ = g.halfZ
  vectZ : g'.vectZ = g.vectZ
  dx : d.x = (g.halfX + c.tx - g'.halfX) * g.cellXY
  dy : d.y = (g.halfY + c.ty - g'.halfY) * g.cellXY
  dz : d.z = 0
  vectX : ∀ i, 0 ≤ i → 0 ≤ i + c.tx → g'.vectX (i + c.tx) = g.vectX i + d.x
  vectY : ∀ i, 0 ≤ i → 0 ≤ i + c.ty → g'.vectY (i + c.ty) = g.vectY i + d.y

/-- the body moved -/
def Body.moved {K : Type} [Field K] (d : Vec3 K) (b : Body K) : Body K := { b with pos := vadd b.pos d }

/-- In both grids there are `1 + max_iterations * cell_buffer` columns between the rectangle and where the areas of the body
and of the relaxation are cut off. -/
def Spacious (c : Chart) (g g' : Grid F) (p : SimParam F) (a : Area) : Prop :=
  Wide g (1 + p.maxIterations.toNat * p.cellBuffer) a ∧ Wide g' (1 + p.maxIterations.toNat * p.cellBuffer) (c.area a)

end Soil
