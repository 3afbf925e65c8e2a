import Verif.Model.Relax

/-!
# Soil intersecting with the body (`soil_simulator/intersecting_cells.cpp`)

The C++ `while` loops have no static bound; their models take a `fuel` argument and report
`Err.fuel` when it is exhausted.
-/

namespace Soil

open FOps

variable {F : Type} [FOps F]

/-- The eight directions (intersecting_cells.cpp 52-54 and 189-191) -/
def directions8 : List (ℤ × ℤ) :=
  [(1, 0), (-1, 0), (0, 1), (0, -1), (1, 1), (1, -1), (-1, 1), (-1, -1)]

/-- The two tests of `LocateIntersectingCells` for one cell (intersecting_cells.cpp 523-536) -/
def intersectingAt (s : SimOut F) (tol : F) (k : ℕ) (ii jj : ℤ) : Bool :=
  !(s.bodyAbs k ii jj) && s.body k ii jj <ᶠ s.terrain ii jj -ᶠ tol

/-- loop of `LocateIntersectingCells` -/
def locateIntersectingIn (s : SimOut F) (tol : F) : List (ℤ × ℤ) → M (List (ℕ × ℤ × ℤ))
  | [] => .ok []
  | p :: l => do
    guardOob (s.InGrid p.1 p.2)
    let rest ← locateIntersectingIn s tol l
    return (if intersectingAt s tol 0 p.1 p.2 then [(0, p.1, p.2)] else []) ++
      (if intersectingAt s tol 2 p.1 p.2 then [(2, p.1, p.2)] else []) ++ rest

/-- `LocateIntersectingCells` (intersecting_cells.cpp 510-540) -/
def locateIntersectingCells (s : SimOut F) (tol : F) : M (List (ℕ × ℤ × ℤ)) :=
  locateIntersectingIn s tol s.bodyArea.cells

/-- `body_bot` of `MoveIntersectingBody` for a cell where body is present
(intersecting_cells.cpp 242-250) -/
def bodyBottom (s : SimOut F) (ii jj : ℤ) : F :=
  if s.bodyAbs 0 ii jj then s.body 2 ii jj
  else if s.bodyAbs 2 ii jj then s.body 0 ii jj
  else FOps.min (s.body 0 ii jj) (s.body 2 ii jj)

/-- `for` loop over the eight directions at distance `pp` (intersecting_cells.cpp 221-270): the
remaining soil and the new state. -/
def spreadRing (tol : F) (ii jj pp : ℤ) : List (ℤ × ℤ) → SimOut F → F → M (SimOut F × F)
  | [], s, h => .ok (s, h)
  | d :: ds, s, h => do
    let ip := ii + d.1 * pp
    let jp := jj + d.2 * pp
    guardOob (s.InGrid ip jp)
    if s.bodyAbs 0 ip jp && s.bodyAbs 2 ip jp then
      -- No body
      return (s.setT ip jp (s.terrain ip jp +ᶠ h), zero)
    else
      let bot := bodyBottom s ip jp
      if s.terrain ip jp +ᶠ tol <ᶠ bot then
        let delta := bot -ᶠ s.terrain ip jp
        if delta <ᶠ h then
          spreadRing tol ii jj pp ds (s.setT ip jp bot) (h -ᶠ delta)
        else return (s.setT ip jp (s.terrain ip jp +ᶠ h), zero)
      else spreadRing tol ii jj pp ds s h

/-- `while (h_soil > tol)` (intersecting_cells.cpp 218-271); `pp` is the last distance explored. -/
def spreadOut (tol : F) (ii jj : ℤ) (dirs : List (ℤ × ℤ)) :
    ℕ → ℤ → SimOut F → F → M (SimOut F)
  | fuel, pp, s, h =>
    if tol <ᶠ h then
      match fuel with
      | 0 => .error .fuel
      | fuel + 1 => do
        let (s, h) ← spreadRing tol ii jj (pp + 1) dirs s h
        spreadOut tol ii jj dirs fuel (pp + 1) s h
    else .ok s

/-- Loop over the intersecting cells (intersecting_cells.cpp 194-275) -/
def moveIntersectingBodyCells (fuel : ℕ) (tol : F) :
    List (ℕ × ℤ × ℤ) → List (ℤ × ℤ) → SimOut F → Rng → M (SimOut F × Rng)
  | [], _, s, r => .ok (s, r)
  | (k, ii, jj) :: cs, dirs, s, r => do
    guardOob (s.InGrid ii jj)
    if s.terrain ii jj -ᶠ tol <ᶠ s.body k ii jj then
      moveIntersectingBodyCells fuel tol cs dirs s r
    else
      let (dirs, r) := shuffle dirs r
      let s ← spreadOut tol ii jj dirs fuel 0 s (s.terrain ii jj -ᶠ s.body k ii jj)
      moveIntersectingBodyCells fuel tol cs dirs (s.setT ii jj (s.body k ii jj)) r

/-- `MoveIntersectingBody` (intersecting_cells.cpp 177-276) -/
def moveIntersectingBody (fuel : ℕ) (tol : F) (w : World F) : M (World F) := do
  let cells ← locateIntersectingCells w.out tol
  if cells.isEmpty then return w
  let (s, r) ← moveIntersectingBodyCells fuel tol cells directions8 w.out w.rng
  return { w with out := s, rng := r }

/-- Variables updated by `MoveBodySoil` -/
structure Probe (F : Type) where
  ind : ℕ
  ii : ℤ
  jj : ℤ
  h : F
  wall : Bool

/-- Part of `MoveBodySoil` for a cell with the only layer `k` (intersecting_cells.cpp 313-354 for
`k = 2`, 355-396 for `k = 0`; the two are identical up to the layer). -/
def moveBodySoil1 (s : SimOut F) (q : Probe F) (maxH : F) (iN jN : ℤ) (g : Grid F)
    (body : Body F) (tol : F) (k : ℕ) : SimOut F × Probe F :=
  if s.body (q.ind + 1) q.ii q.jj <ᶠ s.body k iN jN -ᶠ tol then
    -- Soil avalanche below the body layer to the terrain
    (s.setT iN jN (s.terrain iN jN +ᶠ q.h), { q with h := zero })
  else if maxH <ᶠ s.body (k + 1) iN jN +ᶠ tol then
    -- Body is blocking the movement
    (s, { q with wall := true })
  else
    let s' :=
      if s.soilPres k iN jN then
        s.setBS (k + 1) iN jN (s.bodySoil (k + 1) iN jN +ᶠ q.h)
      else
        (s.setBS k iN jN (s.body (k + 1) iN jN)).setBS (k + 1) iN jN
          (s.body (k + 1) iN jN +ᶠ q.h)
    (s'.pushPos (mkEntry s g body k iN jN q.h), { q with h := zero })

/-- Part of `MoveBodySoil` for a cell with two layers, bottom `kb` and top `kt`
(intersecting_cells.cpp 411-504). -/
def moveBodySoil2 (s : SimOut F) (q : Probe F) (iN jN : ℤ) (g : Grid F) (body : Body F) (tol : F)
    (kb kt : ℕ) : SimOut F × Probe F :=
  if s.soilPres kb iN jN then
    if s.body kt iN jN <ᶠ s.bodySoil (kb + 1) iN jN +ᶠ tol then
      -- Body and soil blocking the movement
      (s, { q with ind := kb, ii := iN, jj := jN })
    else
      let delta := s.body kt iN jN -ᶠ s.bodySoil (kb + 1) iN jN
      if delta <ᶠ q.h then
        ((s.setBS (kb + 1) iN jN (s.bodySoil (kb + 1) iN jN +ᶠ delta)).pushPos
            (mkEntry s g body kb iN jN delta),
          { q with ind := kb, ii := iN, jj := jN, h := q.h -ᶠ delta })
      else
        ((s.setBS (kb + 1) iN jN (s.bodySoil (kb + 1) iN jN +ᶠ q.h)).pushPos
            (mkEntry s g body kb iN jN q.h),
          { q with h := zero })
  else
    let delta := s.body kt iN jN -ᶠ s.body (kb + 1) iN jN
    let s1 := s.setBS kb iN jN (s.body (kb + 1) iN jN)
    if delta <ᶠ q.h then
      ((s1.setBS (kb + 1) iN jN (s.body (kb + 1) iN jN +ᶠ delta)).pushPos
          (mkEntry s g body kb iN jN delta),
        { q with ind := kb, ii := iN, jj := jN, h := q.h -ᶠ delta })
    else
      ((s1.setBS (kb + 1) iN jN (s.body (kb + 1) iN jN +ᶠ q.h)).pushPos
          (mkEntry s g body kb iN jN q.h),
        { q with h := zero })

/-- `MoveBodySoil` (intersecting_cells.cpp 296-508). The caller has checked that the previous cell
and `(iN, jN)` are in range. -/
def moveBodySoil (s : SimOut F) (q : Probe F) (maxH : F) (iN jN : ℤ) (g : Grid F) (body : Body F)
    (tol : F) : SimOut F × Probe F :=
  if s.bodyAbs 0 iN jN && s.bodyAbs 2 iN jN then
    (s.setT iN jN (s.terrain iN jN +ᶠ q.h), { q with h := zero })
  else if s.bodyAbs 0 iN jN then moveBodySoil1 s q maxH iN jN g body tol 2
  else if s.bodyAbs 2 iN jN then moveBodySoil1 s q maxH iN jN g body tol 0
  else if s.body 0 iN jN <ᶠ s.body 2 iN jN then moveBodySoil2 s q iN jN g body tol 0 2
  else moveBodySoil2 s q iN jN g body tol 2 0

/-- `while ((wall_presence == false) && (h_soil > tol))` (intersecting_cells.cpp 126-144) along
direction `d`: the new state and the soil left. -/
def exploreDir (g : Grid F) (body : Body F) (tol : F) (ii jj : ℤ) (d : ℤ × ℤ) :
    ℕ → ℤ → SimOut F → Probe F → F → M (SimOut F × F)
  | fuel, pp, s, q, maxH =>
    if !q.wall && tol <ᶠ q.h then
      match fuel with
      | 0 => .error .fuel
      | fuel + 1 => do
        let pp := pp + 1
        let iN := ii + pp * d.1
        let jN := jj + pp * d.2
        guardOob (s.InGrid iN jN)
        let (s, q) := moveBodySoil s q maxH iN jN g body tol
        exploreDir g body tol ii jj d fuel pp s q (FOps.max (s.body 0 q.ii q.jj) (s.body 2 q.ii q.jj))
    else .ok (s, q.h)

/-- `for` loop over the directions with its `break` (intersecting_cells.cpp 115-149) -/
def exploreDirs (fuel : ℕ) (g : Grid F) (body : Body F) (tol : F) (ind indT : ℕ) (ii jj : ℤ) :
    List (ℤ × ℤ) → SimOut F → F → M (SimOut F × F)
  | [], s, h => .ok (s, h)
  | d :: ds, s, h => do
    let (s, h) ← exploreDir g body tol ii jj d fuel 0 s ⟨ind, ii, jj, h, false⟩ (s.body indT ii jj)
    if h <ᶠ tol then return (s, h)
    else exploreDirs fuel g body tol ind indT ii jj ds s h

/-- Loop of `MoveIntersectingBodySoil` over the entries `nn, nn+1, ...`; the list grows while it is
traversed (intersecting_cells.cpp 57-160). `fuelN` bounds the number of entries visited. -/
def moveIntersectingEntries (fuel : ℕ) (g : Grid F) (body : Body F) (tol : F) :
    ℕ → ℕ → List (ℤ × ℤ) → World F → M (World F)
  | fuelN, nn, dirs, w =>
    match w.out.bodySoilPos[nn]? with
    | none => .ok w
    | some e =>
      match fuelN with
      | 0 => .error .fuel
      | fuelN + 1 => do
        guardOob (w.out.InGrid e.ii e.jj ∧ e.ind + 1 < 4)
        let s := w.out
        let indT := if e.ind = 0 then 2 else 0
        if s.bodyAbs indT e.ii e.jj then
          moveIntersectingEntries fuel g body tol fuelN (nn + 1) dirs w
        else if s.body e.ind e.ii e.jj <ᶠ s.body indT e.ii e.jj &&
            s.body indT e.ii e.jj <ᶠ s.bodySoil (e.ind + 1) e.ii e.jj -ᶠ tol then
          let h := s.bodySoil (e.ind + 1) e.ii e.jj -ᶠ s.body indT e.ii e.jj
          let (s, h) :=
            if e.h <ᶠ h then (s.setH nn zero, e.h) else (s.setH nn (e.h -ᶠ h), h)
          let s := s.setBS (e.ind + 1) e.ii e.jj (s.bodySoil (e.ind + 1) e.ii e.jj -ᶠ h)
          let (dirs, r) := shuffle dirs w.rng
          let (s, h) ← exploreDirs fuel g body tol e.ind indT e.ii e.jj dirs s h
          let w := { w with out := s, rng := r }
          let w := if tol <ᶠ h then w.warn (.soilRemoved h) else w
          moveIntersectingEntries fuel g body tol fuelN (nn + 1) dirs w
        else moveIntersectingEntries fuel g body tol fuelN (nn + 1) dirs w

/-- `MoveIntersectingBodySoil` (intersecting_cells.cpp 48-161) -/
def moveIntersectingBodySoil (fuel : ℕ) (g : Grid F) (body : Body F) (tol : F) (w : World F) :
    M (World F) :=
  moveIntersectingEntries fuel g body tol fuel 0 directions8 w

/-- `MoveIntersectingCells` (intersecting_cells.cpp 19-27) -/
def moveIntersectingCells (fuel : ℕ) (g : Grid F) (body : Body F) (tol : F) (w : World F) :
    M (World F) := do
  let w ← moveIntersectingBodySoil fuel g body tol w
  moveIntersectingBody fuel tol w

end Soil
