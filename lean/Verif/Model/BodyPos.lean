import Verif.Model.Utils
import Mathlib.Data.List.Sort

/-!
# Position of the body on the grid (`soil_simulator/body_pos.cpp`)
-/

namespace Soil

open FOps

variable {F : Type} [FOps F]

/-- A grid cell with its height index, `std::vector<int>` of size 3 -/
abbrev Cell3 := ℤ × ℤ × ℤ

/-! ## Lines -/

/-- Position converted to (fractional) indices (body_pos.cpp 742-747, also 301-312, 531-539) -/
def toIndex (g : Grid F) (a : Vec3 F) : Vec3 F :=
  ⟨a.x /ᶠ g.cellXY +ᶠ ofInt g.halfX, a.y /ᶠ g.cellXY +ᶠ ofInt g.halfY,
    a.z /ᶠ g.cellZ +ᶠ ofInt g.halfZ -ᶠ ofRat 1⟩

/-- `{static_cast<int>(round(x1)), static_cast<int>(round(y1)), static_cast<int>(ceil(z1))}`
(body_pos.cpp 808-811 and 835-838) -/
def cellOf (p : Vec3 F) : M Cell3 := do
  let i ← castInt (FOps.round p.x)
  let j ← castInt (FOps.round p.y)
  let k ← castInt (FOps.ceil p.z)
  return (i, j, k)

/-- Constants of the traversal loop: the steps, `t_delta_*` and `ab_norm` -/
structure LineCfg (F : Type) where
  stepX : ℤ
  stepY : ℤ
  stepZ : ℤ
  dX : F
  dY : F
  dZ : F
  norm : F

/-- Variables of the traversal loop: the current position and `t_max_*` -/
structure LineSt (F : Type) where
  p : Vec3 F
  tX : F
  tY : F
  tZ : F

/-- One iteration (body_pos.cpp 815-834) -/
def lineStep (c : LineCfg F) (l : LineSt F) : LineSt F :=
  let stepX : LineSt F :=
    { l with p := { l.p with x := l.p.x +ᶠ ofInt c.stepX }, tX := l.tX +ᶠ c.dX }
  let stepY : LineSt F :=
    { l with p := { l.p with y := l.p.y +ᶠ ofInt c.stepY }, tY := l.tY +ᶠ c.dY }
  let stepZ : LineSt F :=
    { l with p := { l.p with z := l.p.z +ᶠ ofInt c.stepZ }, tZ := l.tZ +ᶠ c.dZ }
  if l.tX <ᶠ l.tY then
    if l.tX <ᶠ l.tZ then stepX else stepZ
  else if l.tY <ᶠ l.tZ then stepY else stepZ

/-- loop condition (body_pos.cpp 814) -/
def lineCont (c : LineCfg F) (l : LineSt F) : Bool :=
  l.tX <ᶠ c.norm || l.tY <ᶠ c.norm || l.tZ <ᶠ c.norm

/-- `while` loop (body_pos.cpp 814-839): the cells pushed -/
def lineLoop (c : LineCfg F) : ℕ → LineSt F → M (List Cell3)
  | fuel, l =>
    if lineCont c l then
      match fuel with
      | 0 => .error .fuel
      | fuel + 1 => do
        let l := lineStep c l
        let cell ← cellOf l.p
        let rest ← lineLoop c fuel l
        return cell :: rest
    else .ok []

/-- `if (x == 0.0) x = v` -/
def ifZero (x v : F) : F := if FOps.eq x zero then v else x

/-- Offset to the first cell boundary for X and Y (body_pos.cpp 763-772) -/
def offsetXY (step : ℤ) (x : F) : F :=
  if step = 1 then FOps.round x +ᶠ ofRat (1 / 2) -ᶠ x else x -ᶠ FOps.round x +ᶠ ofRat (1 / 2)

/-- Offset to the first cell boundary for Z (body_pos.cpp 773-777) -/
def offsetZ (step : ℤ) (z : F) : F := if step = 1 then FOps.ceil z -ᶠ z else z -ᶠ FOps.floor z

/-- `t_delta_x` and its analogues (body_pos.cpp 796-798); `d` is the component along the axis -/
def tDelta (d e f : F) : F := FOps.sqrt (ofRat 1 +ᶠ (e *ᶠ e +ᶠ f *ᶠ f) /ᶠ (d *ᶠ d))

/-- Initialisation of the traversal from index position `p` to `q` (body_pos.cpp 750-806) -/
def lineInit (p q : Vec3 F) : LineCfg F × LineSt F :=
  let sx : ℤ := if p.x <ᶠ q.x then 1 else -1
  let sy : ℤ := if p.y <ᶠ q.y then 1 else -1
  let sz : ℤ := if p.z <ᶠ q.z then 1 else -1
  let eps : F := ofRat (1 / 10000000000)
  let dx := ifZero (q.x -ᶠ p.x) eps
  let dy := ifZero (q.y -ᶠ p.y) eps
  let dz := ifZero (q.z -ᶠ p.z) eps
  let tx := ifZero (offsetXY sx p.x) (ofRat 1)
  let ty := ifZero (offsetXY sy p.y) (ofRat 1)
  let tz := ifZero (offsetZ sz p.z) (ofRat 1)
  let dX := tDelta dx dy dz
  let dY := tDelta dy dx dz
  let dZ := tDelta dz dx dy
  (⟨sx, sy, sz, dX, dY, dZ, FOps.sqrt (dx *ᶠ dx +ᶠ dy *ᶠ dy +ᶠ dz *ᶠ dz)⟩,
    ⟨p, tx *ᶠ dX, ty *ᶠ dY, tz *ᶠ dZ⟩)

/-- `CalcLinePos` (body_pos.cpp 738-841) -/
def calcLinePos (fuel : ℕ) (a b : Vec3 F) (g : Grid F) : M (List Cell3) := do
  let p := toIndex g a
  let (c, l) := lineInit p (toIndex g b)
  let first ← cellOf p
  let rest ← lineLoop c fuel l
  return first :: rest

/-! ## Rectangles and triangles -/

/-- Output of the two decomposition functions: coefficients, inside flags, `n_cell` -/
structure Decomp (F : Type) where
  cAB : ℤ → ℤ → F
  cAD : ℤ → ℤ → F
  inside : ℤ → ℤ → Bool
  nCell : ℕ

/-- Coefficient along AB (body_pos.cpp 470-471, 486-487 and 695-696, 711-712) -/
def coefAB (ab ad a : Vec3 F) (ii jj : F) : F :=
  let det := ab.x *ᶠ ad.y -ᶠ ab.y *ᶠ ad.x
  ad.y /ᶠ det *ᶠ (ii -ᶠ a.x) -ᶠ ad.x /ᶠ det *ᶠ (jj -ᶠ a.y)

/-- Coefficient along AD or AC (body_pos.cpp 472-473, 488-489 and 697-698, 713-714) -/
def coefAD (ab ad a : Vec3 F) (ii jj : F) : F :=
  let det := ab.x *ᶠ ad.y -ᶠ ab.y *ᶠ ad.x
  FOps.neg (ab.y /ᶠ det) *ᶠ (ii -ᶠ a.x) +ᶠ ab.x /ᶠ det *ᶠ (jj -ᶠ a.y)

/-- Inside test of `DecomposeVectorRectangle` (body_pos.cpp 491-492) -/
def inRect (tol cab cad : F) : Bool :=
  tol <ᶠ cab && cab <ᶠ ofRat 1 -ᶠ tol && tol <ᶠ cad && cad <ᶠ ofRat 1 -ᶠ tol

/-- Inside test of `DecomposeVectorTriangle` (body_pos.cpp 716-717) -/
def inTri (tol cab cac : F) : Bool :=
  tol <ᶠ cab && tol <ᶠ cac && cab +ᶠ cac <ᶠ ofRat 1 -ᶠ tol

/-- Common part of `DecomposeVectorRectangle` (body_pos.cpp 453-498) and
`DecomposeVectorTriangle` (678-723), which differ in the inside test only.  The coefficients are
functions of `(ii_s, jj_s)`. -/
def decompose (test : F → F → Bool) (ab ad a : Vec3 F) (minX minY lenX lenY : ℤ) : Decomp F :=
  let cAB := fun i j : ℤ => coefAB ab ad a (ofInt minX +ᶠ ofRat (1 / 2) +ᶠ ofInt i)
    (ofInt minY +ᶠ ofRat (1 / 2) +ᶠ ofInt j)
  let cAD := fun i j : ℤ => coefAD ab ad a (ofInt minX +ᶠ ofRat (1 / 2) +ᶠ ofInt i)
    (ofInt minY +ᶠ ofRat (1 / 2) +ᶠ ofInt j)
  let inside := fun i j => test (cAB i j) (cAD i j)
  { cAB, cAD, inside
    nCell := (Area.mk 0 lenX 0 lenY).cells.foldl
      (fun n p => if inside p.1 p.2 then n + 4 else n) 0 }

/-- `DecomposeVectorRectangle` (body_pos.cpp 453-498) -/
def decomposeVectorRectangle (ab ad a : Vec3 F) (minX minY lenX lenY : ℤ) (tol : F) : Decomp F :=
  decompose (inRect tol) ab ad a minX minY lenX lenY

/-- `DecomposeVectorTriangle` (body_pos.cpp 678-723) -/
def decomposeVectorTriangle (ab ac a : Vec3 F) (minX minY lenX lenY : ℤ) (tol : F) : Decomp F :=
  decompose (inTri tol) ab ac a minX minY lenX lenY

/-- The four cells around a corner (body_pos.cpp 369-380 and 594-605) -/
def fourCells (ii jj kk : ℤ) : List Cell3 :=
  [(ii, jj, kk), (ii + 1, jj, kk), (ii, jj + 1, kk), (ii + 1, jj + 1, kk)]

/-- Loop over the bounding box adding the inner cells (body_pos.cpp 354-385 and 579-610) -/
def innerCells (d : Decomp F) (aZ abZ adZ : F) (minX minY : ℤ) :
    List (ℤ × ℤ) → M (List Cell3)
  | [] => .ok []
  | (ii, jj) :: l =>
    if d.inside (ii - minX) (jj - minY) then do
      let kk ← castInt (FOps.ceil (aZ +ᶠ d.cAB (ii - minX) (jj - minY) *ᶠ abZ +ᶠ
        d.cAD (ii - minX) (jj - minY) *ᶠ adZ))
      let rest ← innerCells d aZ abZ adZ minX minY l
      return fourCells ii jj kk ++ rest
    else innerCells d aZ abZ adZ minX minY l

/-- `static_cast<int>(std::floor(std::min({...})))` and `static_cast<int>(std::ceil(std::max({...})))`
-/
def boundingInt (x : F) (l : List F) : M (ℤ × ℤ) := do
  let lo ← castInt (FOps.floor (FOps.minL x l))
  let hi ← castInt (FOps.ceil (FOps.maxL x l))
  return (lo, hi)

/-- Edge vector in indices: `(b - a) / cell_size` (body_pos.cpp 330-343 and 555-568) -/
def edgeInd (g : Grid F) (a b : Vec3 F) : Vec3 F :=
  ⟨(b.x -ᶠ a.x) /ᶠ g.cellXY, (b.y -ᶠ a.y) /ᶠ g.cellXY, (b.z -ᶠ a.z) /ᶠ g.cellZ⟩

/-- Buffer of `n_cell` cells (zero-initialised) filled from the start with the given cells; more
cells than `n_cell` is an out-of-range write (body_pos.cpp 351-353 and 576-578). -/
def fillBuffer (n : ℕ) (cells : List Cell3) : M (List Cell3) := do
  guardOob (cells.length ≤ n)
  return cells ++ List.replicate (n - cells.length) (0, 0, 0)

/-- `CalcRectanglePos` (body_pos.cpp 296-403) -/
def calcRectanglePos (fuel : ℕ) (a b c d : Vec3 F) (g : Grid F) (tol : F) : M (List Cell3) := do
  let ai := toIndex g a
  let bi := toIndex g b
  let ci := toIndex g c
  let di := toIndex g d
  let (minX, maxX) ← boundingInt ai.x [bi.x, ci.x, di.x]
  let (minY, maxY) ← boundingInt ai.y [bi.y, ci.y, di.y]
  let ab := edgeInd g a b
  let ad := edgeInd g a d
  let dec := decomposeVectorRectangle ab ad ai minX minY (maxX - minX) (maxY - minY) tol
  let inner ← innerCells dec ai.z ab.z ad.z minX minY (Area.mk minX maxX minY maxY).cells
  let inner ← fillBuffer dec.nCell inner
  let l1 ← calcLinePos fuel a b g
  let l2 ← calcLinePos fuel b c g
  let l3 ← calcLinePos fuel c d g
  let l4 ← calcLinePos fuel d a g
  return inner ++ l1 ++ l2 ++ l3 ++ l4

/-- `CalcTrianglePos` (body_pos.cpp 526-627) -/
def calcTrianglePos (fuel : ℕ) (a b c : Vec3 F) (g : Grid F) (tol : F) : M (List Cell3) := do
  let ai := toIndex g a
  let bi := toIndex g b
  let ci := toIndex g c
  let (minX, maxX) ← boundingInt ai.x [bi.x, ci.x]
  let (minY, maxY) ← boundingInt ai.y [bi.y, ci.y]
  let ab := edgeInd g a b
  let ac := edgeInd g a c
  let dec := decomposeVectorTriangle ab ac ai minX minY (maxX - minX) (maxY - minY) tol
  let inner ← innerCells dec ai.z ab.z ac.z minX minY (Area.mk minX maxX minY maxY).cells
  let inner ← fillBuffer dec.nCell inner
  let l1 ← calcLinePos fuel a b g
  let l2 ← calcLinePos fuel b c g
  let l3 ← calcLinePos fuel c a g
  return inner ++ l1 ++ l2 ++ l3

/-! ## Writing the body -/

/-- Status of a layer in `IncludeNewBodyPos` (body_pos.cpp 891-918) -/
inductive LayerStatus where
  /-- `status == 0`: no existing position -/
  | none
  /-- `status == 1`: overlapping -/
  | overlap
  /-- the function returns -/
  | within
  /-- `status == -1` -/
  | disjoint
  deriving DecidableEq, Repr

/-- Computation of the status of layer `k` (body_pos.cpp 893-917) -/
def layerStatus (s : SimOut F) (ii jj : ℤ) (minH maxH tol : F) (k : ℕ) : LayerStatus :=
  if s.bodyAbs k ii jj then .none
  else if minH -ᶠ tol <ᶠ s.body k ii jj && s.body k ii jj <ᶠ maxH +ᶠ tol then .overlap
  else if minH -ᶠ tol <ᶠ s.body (k + 1) ii jj && s.body (k + 1) ii jj <ᶠ maxH +ᶠ tol then .overlap
  else if s.body k ii jj <ᶠ minH +ᶠ tol && maxH -ᶠ tol <ᶠ s.body (k + 1) ii jj then .within
  else .disjoint

/-- Last branch of `IncludeNewBodyPos`: the new interval is disjoint from two existing layers
(body_pos.cpp 946-975) -/
def mergeClosest (s : SimOut F) (ii jj : ℤ) (minH maxH : F) : SimOut F :=
  let d0b := FOps.abs (s.body 0 ii jj -ᶠ maxH)
  let d0t := FOps.abs (minH -ᶠ s.body 1 ii jj)
  let d2b := FOps.abs (s.body 2 ii jj -ᶠ maxH)
  let d2t := FOps.abs (minH -ᶠ s.body 3 ii jj)
  if FOps.min d0b d0t <ᶠ FOps.min d2b d2t then
    if d0b <ᶠ d0t then s.setB 0 ii jj minH else s.setB 1 ii jj maxH
  else if d2b <ᶠ d2t then s.setB 2 ii jj minH else s.setB 3 ii jj maxH

/-- `IncludeNewBodyPos` (body_pos.cpp 886-977) -/
def includeNewBodyPos (s : SimOut F) (ii jj : ℤ) (minH maxH tol : F) : M (SimOut F) := do
  guardOob (s.InGrid ii jj)
  let st0 := layerStatus s ii jj minH maxH tol 0
  if st0 = .within then return s
  let st1 := layerStatus s ii jj minH maxH tol 2
  if st1 = .within then return s
  if st0 = .overlap ∧ st1 = .overlap then
    let lo := FOps.minL (s.body 0 ii jj) [s.body 2 ii jj, minH]
    let hi := FOps.maxL (s.body 1 ii jj) [s.body 3 ii jj, maxH]
    return (((s.setB 0 ii jj lo).setB 1 ii jj hi).setB 2 ii jj zero).setB 3 ii jj zero
  else if st0 = .overlap then
    return (s.setB 0 ii jj (FOps.min (s.body 0 ii jj) minH)).setB 1 ii jj
      (FOps.max (s.body 1 ii jj) maxH)
  else if st1 = .overlap then
    return (s.setB 2 ii jj (FOps.min (s.body 2 ii jj) minH)).setB 3 ii jj
      (FOps.max (s.body 3 ii jj) maxH)
  else if st0 = .none then return (s.setB 0 ii jj minH).setB 1 ii jj maxH
  else if st1 = .none then return (s.setB 2 ii jj minH).setB 3 ii jj maxH
  else return mergeClosest s ii jj minH maxH

/-- `grid.vect_z_[k]` -/
def zAt (g : Grid F) (k : ℤ) : M F := do
  guardOob (0 ≤ k ∧ k < 2 * g.halfZ + 1)
  return g.vectZ k

/-- Loop of `UpdateBody` (body_pos.cpp 858-878) with its current column and heights -/
def updateBodyLoop (g : Grid F) (tol : F) :
    List Cell3 → SimOut F → ℤ → ℤ → F → F → M (SimOut F)
  | [], s, ii, jj, minH, maxH => includeNewBodyPos s ii jj minH maxH tol
  | (i, j, k) :: l, s, ii, jj, minH, maxH => do
    if ii ≠ i ∨ jj ≠ j then
      let s ← includeNewBodyPos s ii jj minH maxH tol
      let z ← zAt g k
      updateBodyLoop g tol l s i j (z -ᶠ g.cellZ) z
    else
      let z ← zAt g k
      updateBodyLoop g tol l s ii jj minH z

/-- `UpdateBody` (body_pos.cpp 847-879) -/
def updateBody (cells : List Cell3) (s : SimOut F) (g : Grid F) (tol : F) : M (SimOut F) :=
  match cells with
  | [] => .error .oob
  | (i, j, k) :: l => do
    let z ← zAt g k
    updateBodyLoop g tol ((i, j, k) :: l) s i j (z -ᶠ g.cellZ) z

/-- Lexicographic order of `std::vector<int>` -/
def cellLe (a b : Cell3) : Bool :=
  decide (a.1 < b.1 ∨ (a.1 = b.1 ∧ (a.2.1 < b.2.1 ∨ (a.2.1 = b.2.1 ∧ a.2.2 ≤ b.2.2))))

/-- `sort(v.begin(), v.end())`. The order is total, so that the sorted list does not depend on the
algorithm; insertion sort is used here. -/
def sortCells (l : List Cell3) : List Cell3 := l.insertionSort fun a b => cellLe a b = true

/-- Resetting loop (body_pos.cpp 27-37 and 133-143) -/
def resetBody : List (ℤ × ℤ) → SimOut F → M (SimOut F)
  | [], s => .ok s
  | p :: l, s => do
    guardOob (s.InGrid p.1 p.2)
    resetBody l ((((s.setB 0 p.1 p.2 zero).setB 1 p.1 p.2 zero).setB 2 p.1 p.2 zero).setB 3 p.1 p.2
      zero)

/-- "Adding a small increment to all vertices" for one component of the six vertices
(body_pos.cpp 47-65 and 171-189, 190-207); the assignments are sequential, so that later vertices
use the updated earlier ones. -/
def nudge1 (tol jr jl br bl tr tl : F) : F × F × F × F × F × F :=
  let jr := jr +ᶠ tol *ᶠ ((jl -ᶠ jr) +ᶠ (br -ᶠ jr) +ᶠ (tr -ᶠ jr))
  let jl := jl +ᶠ tol *ᶠ ((jr -ᶠ jl) +ᶠ (bl -ᶠ jl) +ᶠ (tl -ᶠ jl))
  let br := br +ᶠ tol *ᶠ ((bl -ᶠ br) +ᶠ (jr -ᶠ br) +ᶠ (tr -ᶠ br))
  let bl := bl +ᶠ tol *ᶠ ((br -ᶠ bl) +ᶠ (jl -ᶠ bl) +ᶠ (tl -ᶠ bl))
  let tr := tr +ᶠ tol *ᶠ ((tl -ᶠ tr) +ᶠ (jr -ᶠ tr) +ᶠ (br -ᶠ tr))
  let tl := tl +ᶠ tol *ᶠ ((tr -ᶠ tl) +ᶠ (jl -ᶠ tl) +ᶠ (bl -ᶠ tl))
  (jr, jl, br, bl, tr, tl)

/-- the increment for the three components -/
def nudge (tol : F) (c : Corners F) : Corners F :=
  let x := nudge1 tol c.jr.x c.jl.x c.br.x c.bl.x c.tr.x c.tl.x
  let y := nudge1 tol c.jr.y c.jl.y c.br.y c.bl.y c.tr.y c.tl.y
  let z := nudge1 tol c.jr.z c.jl.z c.br.z c.bl.z c.tr.z c.tl.z
  { jr := ⟨x.1, y.1, z.1⟩
    jl := ⟨x.2.1, y.2.1, z.2.1⟩
    br := ⟨x.2.2.1, y.2.2.1, z.2.2.1⟩
    bl := ⟨x.2.2.2.1, y.2.2.2.1, z.2.2.2.1⟩
    tr := ⟨x.2.2.2.2.1, y.2.2.2.2.1, z.2.2.2.2.1⟩
    tl := ⟨x.2.2.2.2.2, y.2.2.2.2.2, z.2.2.2.2.2⟩ }

/-- Corners of the back of the blade (body_pos.cpp 149-169) -/
def bladeBack (g : Grid F) (c : Corners F) : Corners F :=
  let n := Vec3.smulF g.cellXY (calcNormal c.jr c.jl c.bl)
  ⟨c.jr.addF n, c.jl.addF n, c.br.addF n, c.bl.addF n, c.tr.addF n, c.tl.addF n⟩

/-- the six vertices as a list, in the order used for the bounding box -/
def Corners.toList (c : Corners F) : List (Vec3 F) := [c.jr, c.jl, c.br, c.bl, c.tr, c.tl]

/-- lower bound of `body_area_` (body_pos.cpp 83-86, 91-94) -/
def areaLo (g : Grid F) (half buffer : ℤ) (x : F) : M ℤ :=
  castInt (FOps.max (FOps.round (x /ᶠ g.cellXY +ᶠ ofInt half -ᶠ ofInt buffer)) (ofRat 1))

/-- upper bound of `body_area_` (body_pos.cpp 87-90, 95-98) -/
def areaHi (g : Grid F) (half buffer : ℤ) (x : F) : M ℤ :=
  castInt (FOps.min (FOps.round (x /ᶠ g.cellXY +ᶠ ofInt half +ᶠ ofInt buffer))
    (ofRat 2 *ᶠ ofInt half))

/-- Bounding box and `body_area_` (body_pos.cpp 67-98 and 209-248) for the vertices `v :: l` -/
def bodyAreaOf (g : Grid F) (p : SimParam F) (v : Vec3 F) (l : List (Vec3 F)) : M Area := do
  let minX ← areaLo g g.halfX p.cellBuffer (FOps.minL v.x (l.map (·.x)))
  let maxX ← areaHi g g.halfX p.cellBuffer (FOps.maxL v.x (l.map (·.x)))
  let minY ← areaLo g g.halfY p.cellBuffer (FOps.minL v.y (l.map (·.y)))
  let maxY ← areaHi g g.halfY p.cellBuffer (FOps.maxL v.y (l.map (·.y)))
  return ⟨minX, maxX, minY, maxY⟩

/-- `UpdateBody` on each of the sorted walls, in order -/
def updateWalls (g : Grid F) (tol : F) : List (List Cell3) → SimOut F → M (SimOut F)
  | [], s => .ok s
  | w :: ws, s => do
    let s ← updateBody (sortCells w) s g tol
    updateWalls g tol ws s

/-- The walls of a bucket (body_pos.cpp 101-108) -/
def bucketWalls (fuel : ℕ) (g : Grid F) (tol : F) (c : Corners F) : M (List (List Cell3)) := do
  let base ← calcRectanglePos fuel c.br c.bl c.tl c.tr g tol
  let back ← calcRectanglePos fuel c.br c.bl c.jl c.jr g tol
  let right ← calcTrianglePos fuel c.jr c.br c.tr g tol
  let left ← calcTrianglePos fuel c.jl c.bl c.tl g tol
  return [base, back, right, left]

/-- The walls of a blade (body_pos.cpp 251-258) -/
def bladeWalls (fuel : ℕ) (g : Grid F) (tol : F) (f b : Corners F) : M (List (List Cell3)) := do
  let ankleF ← calcRectanglePos fuel f.br f.bl f.jl f.jr g tol
  let ankleB ← calcRectanglePos fuel b.br b.bl b.jl b.jr g tol
  let heelF ← calcRectanglePos fuel f.tr f.tl f.jl f.jr g tol
  let heelB ← calcRectanglePos fuel b.tr b.tl b.jl b.jr g tol
  return [ankleF, ankleB, heelF, heelB]

/-- `CalcBodyPos` (body_pos.cpp 22-120 for a bucket, 128-268 for a blade) -/
def calcBodyPos (fuel : ℕ) (s : SimOut F) (pos : Vec3 F) (ori : Quat F) (g : Grid F)
    (body : Body F) (p : SimParam F) (tol : F) : M (SimOut F) := do
  let s ← resetBody s.bodyArea.cells s
  let c := calcBodyCornerPos pos ori body
  match body.kind with
  | .bucket =>
    let c := nudge tol c
    let area ← bodyAreaOf g p c.jr [c.jl, c.br, c.bl, c.tr, c.tl]
    let walls ← bucketWalls fuel g tol c
    updateWalls g tol walls { s with bodyArea := area }
  | .blade =>
    let back := nudge tol (bladeBack g c)
    let c := nudge tol c
    let area ← bodyAreaOf g p c.jr ([c.jl, c.br, c.bl, c.tr, c.tl] ++ back.toList)
    let walls ← bladeWalls fuel g tol c back
    updateWalls g tol walls { s with bodyArea := area }

end Soil
