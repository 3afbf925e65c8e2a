import Verif.Model.Utils

/-!
# Relaxation of the terrain and of the body soil (`soil_simulator/relax.cpp`)

Bounds checks are made once per function, for the cells the function accesses unconditionally.
-/

namespace Soil

open FOps

variable {F : Type} [FOps F]

/-- `dh_max` (relax.cpp 49-52 and 161-164) -/
def dhMax (g : Grid F) (p : SimParam F) : F :=
  g.cellZ *ᶠ FOps.round ((g.cellXY *ᶠ FOps.tan p.reposeAngle) /ᶠ g.cellZ)

/-- The condition tested for one cell by `LocateUnstableTerrainCell` (relax.cpp 250-256) -/
def unstableAt (s : SimOut F) (dh tol : F) (ii jj : ℤ) : Bool :=
  let hMin := s.terrain ii jj -ᶠ dh -ᶠ tol
  s.terrain (ii - 1) jj <ᶠ hMin || s.terrain (ii + 1) jj <ᶠ hMin ||
    s.terrain ii (jj - 1) <ᶠ hMin || s.terrain ii (jj + 1) <ᶠ hMin

/-- Loop of `LocateUnstableTerrainCell` over the given cells.  Simplification: the short-circuit
evaluation of the four conditions is ignored for bounds checking, all five cells must be in
range. -/
def locateUnstableCells (s : SimOut F) (dh tol : F) : List (ℤ × ℤ) → M (List (ℤ × ℤ))
  | [] => .ok []
  | p :: l => do
    guardOob (s.InGrid p.1 p.2 ∧ s.InGrid (p.1 - 1) p.2 ∧ s.InGrid (p.1 + 1) p.2 ∧
      s.InGrid p.1 (p.2 - 1) ∧ s.InGrid p.1 (p.2 + 1))
    let rest ← locateUnstableCells s dh tol l
    return if unstableAt s dh tol p.1 p.2 then p :: rest else rest

/-- `LocateUnstableTerrainCell` (relax.cpp 235-264) -/
def locateUnstableTerrainCell (s : SimOut F) (dh tol : F) : M (List (ℤ × ℤ)) :=
  locateUnstableCells s dh tol s.impactArea.cells

/-- final test `column_top + tol < h_min` of the two stability functions -/
def lowEnough (status : ℕ) (columnTop tol hMin : F) : ℕ :=
  if columnTop +ᶠ tol <ᶠ hMin then status else 0

/-- `CheckUnstableTerrainCell` (relax.cpp 288-418). The caller has checked that `(ic, jc)` is in
range. -/
def checkUnstableTerrainCell (s : SimOut F) (ic jc : ℤ) (hMin tol : F) : ℕ :=
  if s.terrain ic jc +ᶠ tol <ᶠ hMin then
    let abs1 := s.bodyAbs 0 ic jc
    let abs3 := s.bodyAbs 2 ic jc
    if abs1 && abs3 then 40
    else if abs1 then
      -- Only the second body layer
      if s.terrain ic jc +ᶠ tol <ᶠ s.body 2 ic jc then 20
      else if s.soilPres 2 ic jc then lowEnough 21 (s.bodySoil 3 ic jc) tol hMin
      else lowEnough 22 (s.body 3 ic jc) tol hMin
    else if abs3 then
      -- Only the first body layer
      if s.terrain ic jc +ᶠ tol <ᶠ s.body 0 ic jc then 10
      else if s.soilPres 0 ic jc then lowEnough 13 (s.bodySoil 1 ic jc) tol hMin
      else lowEnough 14 (s.body 1 ic jc) tol hMin
    else
      -- Two body layers are present
      let firstLower := s.body 0 ic jc <ᶠ s.body 2 ic jc
      let bot := if firstLower then 0 else 2
      let top := if firstLower then 2 else 0
      if s.terrain ic jc +ᶠ tol <ᶠ s.body bot ic jc then 30
      else if s.soilPres bot ic jc then
        if s.body top ic jc <ᶠ s.bodySoil (bot + 1) ic jc +ᶠ tol then
          -- Soil is filling the space between the body layers
          if s.soilPres top ic jc then
            lowEnough (30 + bot + 1) (s.bodySoil (top + 1) ic jc) tol hMin
          else lowEnough (30 + bot + 2) (s.body (top + 1) ic jc) tol hMin
        else lowEnough (30 + top + 1) (s.bodySoil (bot + 1) ic jc) tol hMin
      else lowEnough (30 + top + 2) (s.body (bot + 1) ic jc) tol hMin
  else 0

/-- `CheckUnstableBodyCell` (relax.cpp 442-575). The caller has checked that both cells are in
range.  In the case of two layers `status` and `column_top` are assigned in two consecutive
`if`s; the pair `(status, column_top)` is an `Option` after the first one, `none` standing for
`status == 30` and an uninitialised `column_top`. -/
def checkUnstableBodyCell (s : SimOut F) (ii jj : ℤ) (ind : ℕ) (ic jc : ℤ) (hMin tol : F) : ℕ :=
  let abs1 := s.bodyAbs 0 ic jc
  let abs3 := s.bodyAbs 2 ic jc
  if abs1 && abs3 then lowEnough 40 (s.terrain ic jc) tol hMin
  else if abs1 then
    if s.body (ind + 1) ii jj +ᶠ tol <ᶠ s.body 2 ic jc then
      lowEnough 20 (s.terrain ic jc) tol hMin
    else if s.soilPres 2 ic jc then lowEnough 21 (s.bodySoil 3 ic jc) tol hMin
    else lowEnough 22 (s.body 3 ic jc) tol hMin
  else if abs3 then
    if s.body (ind + 1) ii jj +ᶠ tol <ᶠ s.body 0 ic jc then
      lowEnough 10 (s.terrain ic jc) tol hMin
    else if s.soilPres 0 ic jc then lowEnough 13 (s.bodySoil 1 ic jc) tol hMin
    else lowEnough 14 (s.body 1 ic jc) tol hMin
  else
    let firstLower := s.body 0 ic jc <ᶠ s.body 2 ic jc
    let bot := if firstLower then 0 else 2
    let top := if firstLower then 2 else 0
    let onBottom : Option (ℕ × F) :=
      if s.body (ind + 1) ii jj +ᶠ tol <ᶠ s.body top ic jc then
        if s.soilPres bot ic jc then
          if s.bodySoil (bot + 1) ic jc +ᶠ tol <ᶠ s.body top ic jc then
            some (30 + top + 1, s.bodySoil (bot + 1) ic jc)
          else none
        else some (30 + top + 2, s.body (bot + 1) ic jc)
      else none
    -- The second `if` re-assigns `status` starting from its current value.
    let status0 := match onBottom with
      | some (st, _) => st
      | none => 30
    if s.body top ic jc <ᶠ s.body (ind + 1) ii jj +ᶠ tol || status0 == 30 then
      if s.soilPres top ic jc then
        lowEnough (status0 + bot + 1) (s.bodySoil (top + 1) ic jc) tol hMin
      else lowEnough (status0 + bot + 2) (s.body (top + 1) ic jc) tol hMin
    else
      match onBottom with
      | some (st, ct) => lowEnough st ct tol hMin
      | none => 0

/-- New entry for `body_soil_pos_` on layer `k` of cell `(ic, jc)`: the position is that of the top
of the body layer in the body frame (e.g. relax.cpp 665-672). -/
def mkEntry (s : SimOut F) (g : Grid F) (body : Body F) (k : ℕ) (ic jc : ℤ) (h : F) :
    BodySoil F :=
  let p := calcBodyFramePos ic jc (s.body (k + 1) ic jc) g body
  ⟨k, ic, jc, p.x, p.y, p.z, h⟩

/-- `h_new = 0.5 * (dh_max + a + b); h_new = cell_size_z_ * floor((h_new + tol) / cell_size_z_)`
(e.g. relax.cpp 600-603) -/
def newHeight (g : Grid F) (tol dh a b : F) : F :=
  g.cellZ *ᶠ FOps.floor ((ofRat (1 / 2) *ᶠ (dh +ᶠ a +ᶠ b) +ᶠ tol) /ᶠ g.cellZ)

/-- `st[0]` of `std::to_string(status)` for a two-digit status -/
def digit0 (status : ℕ) : ℕ := status / 10

/-- `st[1]` of `std::to_string(status)`; `none` (the terminating null character) for a one-digit
status -/
def digit1 (status : ℕ) : Option ℕ := if status < 10 then none else some (status % 10)

/-- Branch `st[1] == '1'` (`k = 2`, `ko = 0`) and `st[1] == '3'` (`k = 0`, `ko = 2`) of
`RelaxUnstableTerrainCell` (relax.cpp 636-672 and 712-748): the soil falls on the existing soil of
layer `k`; `ko` is the other layer. The two C++ branches are identical up to the layer. -/
def relaxTerrainOnSoil (s : SimOut F) (st0 : ℕ) (dh : F) (ii jj ic jc : ℤ) (g : Grid F)
    (body : Body F) (tol : F) (k ko : ℕ) : SimOut F :=
  let t := s.terrain ii jj
  let hNew := newHeight g tol dh t (s.bodySoil (k + 1) ic jc)
  let hSoil := t -ᶠ hNew
  let hNewC := s.bodySoil (k + 1) ic jc +ᶠ hSoil
  let full := st0 == 3 && s.body (k + 1) ic jc <ᶠ s.body ko ic jc &&
    s.body ko ic jc <ᶠ hNewC -ᶠ tol
  let hSoil' := if full then s.body ko ic jc -ᶠ s.bodySoil (k + 1) ic jc else hSoil
  let hNewC' := if full then s.body ko ic jc else hNewC
  let hNew' := if full then t -ᶠ hSoil' else hNew
  let s := s.setT ii jj hNew'
  let s := s.setBS (k + 1) ic jc hNewC'
  s.pushPos (mkEntry s g body k ic jc hSoil')

/-- Branch `st[1] == '2'` (`k = 2`, `ko = 0`) and `st[1] == '4'` (`k = 0`, `ko = 2`) of
`RelaxUnstableTerrainCell` (relax.cpp 673-711 and 749-788): the soil falls on the bare layer `k`. -/
def relaxTerrainOnBody (s : SimOut F) (st0 : ℕ) (dh : F) (ii jj ic jc : ℤ) (g : Grid F)
    (body : Body F) (tol : F) (k ko : ℕ) : SimOut F :=
  let t := s.terrain ii jj
  let hNew := newHeight g tol dh t (s.body (k + 1) ic jc)
  let hNewC := t +ᶠ s.body (k + 1) ic jc -ᶠ hNew
  let full := st0 == 3 && s.body (k + 1) ic jc <ᶠ s.body ko ic jc &&
    s.body ko ic jc <ᶠ hNewC -ᶠ tol
  let hNewC' := if full then s.body ko ic jc else hNewC
  let hNew' := if full then t -ᶠ s.body ko ic jc +ᶠ s.body (k + 1) ic jc else hNew
  let s := s.setT ii jj hNew'
  let s := s.setBS k ic jc (s.body (k + 1) ic jc)
  let s := s.setBS (k + 1) ic jc hNewC'
  s.pushPos (mkEntry s g body k ic jc (hNewC' -ᶠ s.body (k + 1) ic jc))

/-- Branch `st[1] == '0'` of `RelaxUnstableTerrainCell` (relax.cpp 597-635) -/
def relaxTerrainOnTerrain (s : SimOut F) (st0 : ℕ) (dh : F) (ii jj ic jc : ℤ) (g : Grid F)
    (tol : F) : M (SimOut F) :=
  let hNew := newHeight g tol dh (s.terrain ii jj) (s.terrain ic jc)
  let hNewC := s.terrain ii jj +ᶠ s.terrain ic jc -ᶠ hNew
  let under (bodyBot : F) : SimOut F :=
    if hNewC <ᶠ bodyBot then (s.setT ii jj hNew).setT ic jc hNewC
    else (s.setT ii jj (s.terrain ii jj +ᶠ s.terrain ic jc -ᶠ bodyBot)).setT ic jc bodyBot
  match st0 with
  | 4 => .ok ((s.setT ii jj hNew).setT ic jc hNewC)
  | 1 => .ok (under (s.body 0 ic jc))
  | 2 => .ok (under (s.body 2 ic jc))
  | 3 => .ok (under (FOps.minL (s.body 0 ic jc) [s.body 2 ic jc]))
  | _ => .error .uninit

/-- `RelaxUnstableTerrainCell` (relax.cpp 587-789) -/
def relaxUnstableTerrainCell (s : SimOut F) (status : ℕ) (dh : F) (ii jj ic jc : ℤ) (g : Grid F)
    (body : Body F) (tol : F) : M (SimOut F) :=
  match digit1 status with
  | some 0 => relaxTerrainOnTerrain s (digit0 status) dh ii jj ic jc g tol
  | some 1 => .ok (relaxTerrainOnSoil s (digit0 status) dh ii jj ic jc g body tol 2 0)
  | some 2 => .ok (relaxTerrainOnBody s (digit0 status) dh ii jj ic jc g body tol 2 0)
  | some 3 => .ok (relaxTerrainOnSoil s (digit0 status) dh ii jj ic jc g body tol 0 2)
  | some 4 => .ok (relaxTerrainOnBody s (digit0 status) dh ii jj ic jc g body tol 0 2)
  | _ => .ok s

/-- The height of entry `nn` of `body_soil_pos_`, which the caller has checked to exist. -/
def SimOut.entryH (s : SimOut F) (nn : ℕ) : F :=
  match s.bodySoilPos[nn]? with
  | some e => e.h
  | none => zero

/-- Removal of all soil of entry `nn`: `body_soil_[ind][ii][jj] = body_soil_[ind+1][ii][jj] = 0.0`
and `body_soil_pos_[nn].h_soil = 0.0` (e.g. relax.cpp 884-886) -/
def emptyColumn (s : SimOut F) (nn ind : ℕ) (ii jj : ℤ) : SimOut F :=
  ((s.setBS ind ii jj zero).setBS (ind + 1) ii jj zero).setH nn zero

/-- "Soil on the body should partially avalanche" / "All soil on the body should avalanche" for the
source column (e.g. relax.cpp 878-887). -/
def takeFromColumn (s : SimOut F) (nn ind : ℕ) (ii jj : ℤ) (hNew hSoil tol : F) : SimOut F :=
  if s.bodySoil ind ii jj <ᶠ hNew -ᶠ tol then
    (s.setBS (ind + 1) ii jj hNew).setH nn (s.entryH nn -ᶠ hSoil)
  else emptyColumn s nn ind ii jj

/-- `h_soil` limited to the amount held by entry `nn` and the resulting `h_new`
(e.g. relax.cpp 869-876) -/
def limitToEntry (s : SimOut F) (nn ind : ℕ) (ii jj : ℤ) (hNew : F) : F × F :=
  let hSoil := s.bodySoil (ind + 1) ii jj -ᶠ hNew
  if s.entryH nn <ᶠ hSoil then (s.entryH nn, s.bodySoil (ind + 1) ii jj -ᶠ s.entryH nn)
  else (hSoil, hNew)

/-- Branch `st[1] == '0'` of `RelaxUnstableBodyCell` (relax.cpp 810-859) -/
def relaxBodyOnTerrain (s : SimOut F) (st0 : ℕ) (dh : F) (nn : ℕ) (ii jj : ℤ) (ind : ℕ)
    (ic jc : ℤ) (g : Grid F) (tol : F) : SimOut F :=
  let hNew := newHeight g tol dh (s.bodySoil (ind + 1) ii jj) (s.terrain ic jc)
  let (hSoil, _) := limitToEntry s nn ind ii jj hNew
  let hNewC := s.terrain ic jc +ᶠ hSoil
  let (hSoil, hNewC) :=
    if st0 == 1 && s.body 0 ic jc <ᶠ hNewC -ᶠ tol then
      (s.body 0 ic jc -ᶠ s.terrain ic jc, s.body 0 ic jc)
    else if st0 == 2 && s.body 2 ic jc <ᶠ hNewC -ᶠ tol then
      (s.body 2 ic jc -ᶠ s.terrain ic jc, s.body 2 ic jc)
    else (hSoil, hNewC)
  let hNew := s.bodySoil (ind + 1) ii jj -ᶠ hSoil
  if s.bodySoil ind ii jj <ᶠ hNew -ᶠ tol then
    ((s.setT ic jc hNewC).setBS (ind + 1) ii jj hNew).setH nn (s.entryH nn -ᶠ hSoil)
  else emptyColumn (s.setT ic jc (s.terrain ic jc +ᶠ hSoil)) nn ind ii jj

/-- Branches 13 (`k = 0`) and 21 (`k = 2`) of `RelaxUnstableBodyCell` (relax.cpp 862-896 and
937-971): onto the soil of the only layer `k`. Returns the entry to be queued. -/
def relaxBodyOnSoil1 (s : SimOut F) (dh : F) (nn : ℕ) (ii jj : ℤ) (ind : ℕ) (ic jc : ℤ)
    (g : Grid F) (body : Body F) (tol : F) (k : ℕ) : SimOut F × List (BodySoil F) :=
  let hNew := newHeight g tol dh (s.bodySoil (ind + 1) ii jj) (s.bodySoil (k + 1) ic jc)
  let (hSoil, hNew) := limitToEntry s nn ind ii jj hNew
  let s := takeFromColumn s nn ind ii jj hNew hSoil tol
  let s := s.setBS (k + 1) ic jc (s.bodySoil (k + 1) ic jc +ᶠ hSoil)
  (s, [mkEntry s g body k ic jc hSoil])

/-- Branches 14 (`k = 0`) and 22 (`k = 2`) of `RelaxUnstableBodyCell` (relax.cpp 897-933 and
972-1008): onto the bare only layer `k`. -/
def relaxBodyOnBody1 (s : SimOut F) (dh : F) (nn : ℕ) (ii jj : ℤ) (ind : ℕ) (ic jc : ℤ)
    (g : Grid F) (body : Body F) (tol : F) (k : ℕ) : SimOut F × List (BodySoil F) :=
  let hNew := newHeight g tol dh (s.bodySoil (ind + 1) ii jj) (s.body (k + 1) ic jc)
  let (hSoil, hNew) := limitToEntry s nn ind ii jj hNew
  let s := s.setBS k ic jc (s.body (k + 1) ic jc)
  let s := takeFromColumn s nn ind ii jj hNew hSoil tol
  let s := s.setBS (k + 1) ic jc (s.body (k + 1) ic jc +ᶠ hSoil)
  (s, [mkEntry s g body k ic jc hSoil])

/-- Branches 31 (`k = 2`, `ko = 0`) and 33 (`k = 0`, `ko = 2`) of `RelaxUnstableBodyCell`
(relax.cpp 1012-1079 and 1148-1215): two layers, onto the soil of layer `k`. The C++ branches test
`body_[0] > body_[2]`, which means "`k` is the bottom layer" for `k = 2` and "`k` is the top layer"
for `k = 0`; `onBottom` is that test. -/
def relaxBodyOnSoil2 (s : SimOut F) (dh : F) (nn : ℕ) (ii jj : ℤ) (ind : ℕ) (ic jc : ℤ)
    (g : Grid F) (body : Body F) (tol : F) (k ko : ℕ) (onBottom : Bool) :
    SimOut F × List (BodySoil F) :=
  let hNew := newHeight g tol dh (s.bodySoil (ind + 1) ii jj) (s.bodySoil (k + 1) ic jc)
  let (hSoil, hNew) := limitToEntry s nn ind ii jj hNew
  let hNewC := s.bodySoil (k + 1) ic jc +ᶠ hSoil
  let (s, hSoil) :=
    if s.bodySoil ind ii jj <ᶠ hNew -ᶠ tol then
      -- Soil on the body should partially avalanche
      if onBottom && s.body ko ic jc <ᶠ hNewC -ᶠ tol then
        -- Not enough space available
        let hSoil := s.body ko ic jc -ᶠ s.bodySoil (k + 1) ic jc
        let s := s.setBS (ind + 1) ii jj (s.bodySoil (ind + 1) ii jj -ᶠ hSoil)
        let s := s.setBS (k + 1) ic jc (s.body ko ic jc)
        (s.setH nn (s.entryH nn -ᶠ hSoil), hSoil)
      else
        let s := s.setBS (k + 1) ic jc hNewC
        let s := s.setBS (ind + 1) ii jj hNew
        (s.setH nn (s.entryH nn -ᶠ hSoil), hSoil)
    else
      -- All soil on the body should avalanche
      let s := s.setBS (k + 1) ic jc (s.bodySoil (k + 1) ic jc +ᶠ hSoil)
      (emptyColumn s nn ind ii jj, hSoil)
  (s, if tol <ᶠ hSoil then [mkEntry s g body k ic jc hSoil] else [])

/-- Branches 32 (`k = 2`, `ko = 0`) and 34 (`k = 0`, `ko = 2`) of `RelaxUnstableBodyCell`
(relax.cpp 1080-1147 and 1216-1288): two layers, onto the bare layer `k`.  The two C++ branches
differ when all soil falls on the bottom layer: branch 32 sets the new height to `h_new_c`
(relax.cpp 1121), branch 34 to the body top plus the whole source column (relax.cpp 1269-1274);
`wholeColumn` selects the latter. -/
def relaxBodyOnBody2 (s : SimOut F) (dh : F) (nn : ℕ) (ii jj : ℤ) (ind : ℕ) (ic jc : ℤ)
    (g : Grid F) (body : Body F) (tol : F) (k ko : ℕ) (onBottom wholeColumn : Bool) :
    SimOut F × List (BodySoil F) :=
  let hNew := newHeight g tol dh (s.bodySoil (ind + 1) ii jj) (s.body (k + 1) ic jc)
  let (hSoil, hNew) := limitToEntry s nn ind ii jj hNew
  let hNewC := s.body (k + 1) ic jc +ᶠ hSoil
  let s := s.setBS k ic jc (s.body (k + 1) ic jc)
  let (s, hSoil) :=
    if onBottom then
      if s.bodySoil ind ii jj <ᶠ hNew -ᶠ tol then
        if s.body ko ic jc <ᶠ hNewC -ᶠ tol then
          -- Not enough space available
          let hSoil := s.body ko ic jc -ᶠ s.body (k + 1) ic jc
          let s := s.setBS (ind + 1) ii jj (s.bodySoil (ind + 1) ii jj -ᶠ hSoil)
          let s := s.setBS (k + 1) ic jc (s.body ko ic jc)
          (s.setH nn (s.entryH nn -ᶠ hSoil), hSoil)
        else
          let s := s.setBS (k + 1) ic jc hNewC
          let s := s.setBS (ind + 1) ii jj hNew
          (s.setH nn (s.entryH nn -ᶠ hSoil), hSoil)
      else
        let hNewC := if wholeColumn then
            s.body (k + 1) ic jc +ᶠ s.bodySoil (ind + 1) ii jj -ᶠ s.bodySoil ind ii jj
          else hNewC
        let s := s.setBS (k + 1) ic jc hNewC
        (emptyColumn s nn ind ii jj, hSoil)
    else
      let s := s.setBS (k + 1) ic jc hNewC
      (takeFromColumn s nn ind ii jj hNew hSoil tol, hSoil)
  (s, [mkEntry s g body k ic jc hSoil])

/-- `RelaxUnstableBodyCell` (relax.cpp 800-1290): the new state and the entries queued in
`new_body_soil_pos`. The caller has checked that entry `nn` exists and the cells are in range. -/
def relaxUnstableBodyCell (s : SimOut F) (status : ℕ) (dh : F) (nn : ℕ) (ii jj : ℤ) (ind : ℕ)
    (ic jc : ℤ) (g : Grid F) (body : Body F) (tol : F) : SimOut F × List (BodySoil F) :=
  let secondLower := s.body 2 ic jc <ᶠ s.body 0 ic jc
  match digit0 status, digit1 status with
  | st0, some 0 => (relaxBodyOnTerrain s st0 dh nn ii jj ind ic jc g tol, [])
  | 1, some 3 => relaxBodyOnSoil1 s dh nn ii jj ind ic jc g body tol 0
  | 1, some 4 => relaxBodyOnBody1 s dh nn ii jj ind ic jc g body tol 0
  | 2, some 1 => relaxBodyOnSoil1 s dh nn ii jj ind ic jc g body tol 2
  | 2, some 2 => relaxBodyOnBody1 s dh nn ii jj ind ic jc g body tol 2
  | 3, some 1 => relaxBodyOnSoil2 s dh nn ii jj ind ic jc g body tol 2 0 secondLower
  | 3, some 2 => relaxBodyOnBody2 s dh nn ii jj ind ic jc g body tol 2 0 secondLower false
  | 3, some 3 => relaxBodyOnSoil2 s dh nn ii jj ind ic jc g body tol 0 2 (!secondLower)
  | 3, some 4 => relaxBodyOnBody2 s dh nn ii jj ind ic jc g body tol 0 2 (!secondLower) true
  | _, _ => (s, [])

/-- The four directions (relax.cpp 72-73, 167-168) -/
def directions4 : List (ℤ × ℤ) := [(1, 0), (-1, 0), (0, 1), (0, -1)]

/-- Loop over the directions for one unstable terrain cell (relax.cpp 102-125) -/
def relaxTerrainDirs (g : Grid F) (body : Body F) (dh tol : F) (ii jj : ℤ) :
    List (ℤ × ℤ) → SimOut F → M (SimOut F)
  | [], s => .ok s
  | d :: ds, s => do
    let ic := ii + d.1
    let jc := jj + d.2
    guardOob (s.InGrid ii jj ∧ s.InGrid ic jc)
    let status := checkUnstableTerrainCell s ic jc (s.terrain ii jj -ᶠ dh) tol
    if status = 0 then relaxTerrainDirs g body dh tol ii jj ds s
    else do
      let s' ← relaxUnstableTerrainCell { s with equilibrium := false } status dh ii jj ic jc g
        body tol
      relaxTerrainDirs g body dh tol ii jj ds s'

/-- Loop over the unstable cells (relax.cpp 82-126); `directions` keeps its order from one cell to
the next. -/
def relaxTerrainCells (g : Grid F) (body : Body F) (dh tol : F) :
    List (ℤ × ℤ) → List (ℤ × ℤ) → SimOut F → Rng → M (SimOut F × Rng)
  | [], _, s, r => .ok (s, r)
  | c :: cs, dirs, s, r => do
    let (dirs, r) := shuffle dirs r
    let s ← relaxTerrainDirs g body dh tol c.1 c.2 dirs s
    relaxTerrainCells g body dh tol cs dirs s r

/-- Bounding box of the unstable cells with buffer (relax.cpp 76-79, 87-90 and 129-136) -/
def relaxAreaOf (g : Grid F) (buffer : ℤ) (cells : List (ℤ × ℤ)) : Area :=
  let minX := cells.foldl (fun m c => Min.min m c.1) (2 * g.halfX)
  let maxX := cells.foldl (fun m c => Max.max m c.1) 0
  let minY := cells.foldl (fun m c => Min.min m c.2) (2 * g.halfY)
  let maxY := cells.foldl (fun m c => Max.max m c.2) 0
  { minX := Max.max (minX - buffer) 2
    maxX := Min.min (maxX + buffer) (2 * g.halfX)
    minY := Max.max (minY - buffer) 2
    maxY := Min.min (maxY + buffer) (2 * g.halfY) }

/-- `RelaxTerrain` (relax.cpp 42-137) -/
def relaxTerrain (g : Grid F) (body : Body F) (p : SimParam F) (tol : F) (w : World F) :
    M (World F) := do
  let s := { w.out with equilibrium := true }
  let dh := dhMax g p
  let cells ← locateUnstableTerrainCell s dh tol
  if cells.isEmpty then return { w with out := s }
  let (cells, r) := shuffle cells w.rng
  let (s, r) ← relaxTerrainCells g body dh tol cells directions4 s r
  return { w with out := { s with relaxArea := relaxAreaOf g p.cellBuffer cells }, rng := r }

/-- Loop over the directions for one body-soil entry (relax.cpp 197-221); the queue of new entries
is threaded. -/
def relaxBodyDirs (g : Grid F) (body : Body F) (dh tol : F) (nn : ℕ) (ii jj : ℤ) (ind : ℕ) :
    List (ℤ × ℤ) → SimOut F → List (BodySoil F) → M (SimOut F × List (BodySoil F))
  | [], s, q => .ok (s, q)
  | d :: ds, s, q => do
    let ic := ii + d.1
    let jc := jj + d.2
    guardOob (s.InGrid ii jj ∧ s.InGrid ic jc ∧ ind + 1 < 4)
    let status := checkUnstableBodyCell s ii jj ind ic jc (s.bodySoil (ind + 1) ii jj -ᶠ dh) tol
    if status = 0 then relaxBodyDirs g body dh tol nn ii jj ind ds s q
    else
      let (s', es) := relaxUnstableBodyCell { s with equilibrium := false } status dh nn ii jj ind
        ic jc g body tol
      relaxBodyDirs g body dh tol nn ii jj ind ds s' (q ++ es)

/-- Loop over the body-soil entries `nn, nn+1, ...` (relax.cpp 175-222). The number of entries does
not change in this loop, new entries being queued; `count` entries remain. -/
def relaxBodyEntries (g : Grid F) (body : Body F) (dh tol : F) :
    ℕ → ℕ → List (ℤ × ℤ) → SimOut F → List (BodySoil F) → Rng →
      M (SimOut F × List (BodySoil F) × Rng)
  | 0, _, _, s, q, r => .ok (s, q, r)
  | count + 1, nn, dirs, s, q, r =>
    match s.bodySoilPos[nn]? with
    | none => .error .oob
    | some e =>
      if e.h <ᶠ tol then relaxBodyEntries g body dh tol count (nn + 1) dirs s q r
      else do
        let (dirs, r) := shuffle dirs r
        let (s, q) ← relaxBodyDirs g body dh tol nn e.ii e.jj e.ind dirs s q
        relaxBodyEntries g body dh tol count (nn + 1) dirs s q r

/-- `RelaxBodySoil` (relax.cpp 157-229) -/
def relaxBodySoil (g : Grid F) (body : Body F) (p : SimParam F) (tol : F) (w : World F) :
    M (World F) := do
  let (s, q, r) ← relaxBodyEntries g body (dhMax g p) tol w.out.bodySoilPos.length 0 directions4
    w.out [] w.rng
  return { w with out := { s with bodySoilPos := s.bodySoilPos ++ q }, rng := r }

end Soil
