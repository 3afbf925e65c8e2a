import Verif.Model.Intersect

/-!
# Transport of the soil resting on the body (`soil_simulator/body_soil.cpp`)
-/

namespace Soil

open FOps

variable {F : Type} [FOps F]

/-- Resetting loop (body_soil.cpp 43-49) -/
def resetBodySoil : List (BodySoil F) → SimOut F → M (SimOut F)
  | [], s => .ok s
  | e :: l, s => do
    guardOob (s.InGrid e.ii e.jj ∧ e.ind + 1 < 4)
    resetBodySoil l ((s.setBS e.ind e.ii e.jj zero).setBS (e.ind + 1) e.ii e.jj zero)

/-- Order of exploration (body_soil.cpp 91-107) -/
def exploreOrder (dx dy : F) : List (ℤ × ℤ) :=
  let sx : ℤ := if FOps.signBit dx then -1 else 1
  let sy : ℤ := if FOps.signBit dy then -1 else 1
  if FOps.abs dy <ᶠ FOps.abs dx then
    [(0, 0), (sx, 0), (sx, sy), (0, sy), (sx, -sy), (0, -sy), (-sx, sy), (-sx, 0), (-sx, -sy)]
  else
    [(0, 0), (0, sy), (sx, sy), (sx, 0), (-sx, sy), (-sx, 0), (sx, -sy), (0, -sy), (-sx, -sy)]

/-- Moving `h` on layer `k` of a cell (body_soil.cpp 143-151, 169-177 and 194-202); `e` is the old
entry, whose body-frame position is kept. -/
def placeOn (s : SimOut F) (k : ℕ) (ii jj : ℤ) (e : BodySoil F) (h : F) : SimOut F :=
  let s' := s.setBS (k + 1) ii jj
    (s.bodySoil (k + 1) ii jj +ᶠ (s.body (k + 1) ii jj -ᶠ s.bodySoil k ii jj +ᶠ h))
  let s' := s'.setBS k ii jj (s.body (k + 1) ii jj)
  s'.pushPos ⟨k, ii, jj, e.xb, e.yb, e.zb, h⟩

/-- The closest wall seen so far: `(dist_s, (ind_s - 1, ii_s, jj_s))`; the location is `none` while
`ind_s`, `ii_s`, `jj_s` are uninitialised. -/
structure Closest (F : Type) where
  dist : F
  loc : Option (ℕ × ℤ × ℤ)

/-- One layer of the body of the search loop (body_soil.cpp 136-161 for `k = 0`, 162-187 for
`k = 2`): either the soil can be placed here (`none`), or the closest wall is updated. -/
def tryLayer (s : SimOut F) (z minDiff : F) (k : ℕ) (ii jj : ℤ) (c : Closest F) :
    Option (Closest F) :=
  if s.bodyAbs k ii jj then some c
  else
    let dist := FOps.abs (z -ᶠ s.body (k + 1) ii jj)
    if dist <ᶠ minDiff then none
    else if dist <ᶠ c.dist then some ⟨dist, some (k, ii, jj)⟩
    else some c

/-- Search loop over the nine cells (body_soil.cpp 123-188): the location found (first component)
or the closest wall. -/
def searchWall (s : SimOut F) (z minDiff : F) (iN jN : ℤ) :
    List (ℤ × ℤ) → Closest F → M ((ℕ × ℤ × ℤ) ⊕ Closest F)
  | [], c => .ok (.inr c)
  | d :: ds, c => do
    let it := iN + d.1
    let jt := jN + d.2
    guardOob (s.InGrid it jt)
    match tryLayer s z minDiff 0 it jt c with
    | none => return .inl (0, it, jt)
    | some c =>
      match tryLayer s z minDiff 2 it jt c with
      | none => return .inl (2, it, jt)
      | some c => searchWall s z minDiff iN jN ds c

/-- Body of the loop of `UpdateBodySoil` for one old entry (body_soil.cpp 57-212) -/
def updateEntry (pos : Vec3 F) (ori : Quat F) (g : Grid F) (body : Body F) (tol : F)
    (e : BodySoil F) (w : World F) : M (World F) := do
  if e.h <ᶠ ofRat (9 / 10) *ᶠ g.cellZ then return w
  let h := g.cellZ *ᶠ FOps.round (e.h /ᶠ g.cellZ)
  let cell : Vec3 F := ⟨e.xb, e.yb, e.zb⟩
  let new := (calcRotationQuaternion ori cell).addF pos
  let old := (calcRotationQuaternion body.ori cell).addF body.pos
  let dirs := exploreOrder (new.x -ᶠ old.x) (new.y -ᶠ old.y)
  let iN ← castInt (FOps.round (new.x /ᶠ g.cellXY +ᶠ ofInt g.halfX))
  let jN ← castInt (FOps.round (new.y /ᶠ g.cellXY +ᶠ ofInt g.halfY))
  let dist0 : F := ofInt (2 * g.halfZ)
  match ← searchWall w.out new.z (g.cellZ +ᶠ tol) iN jN dirs ⟨dist0, none⟩ with
  | .inl (k, it, jt) => return w.mapOut fun s => placeOn s k it jt e h
  | .inr c =>
    if FOps.ne c.dist dist0 then
      match c.loc with
      | some (k, it, jt) => return w.mapOut fun s => placeOn s k it jt e h
      | none => throw .uninit
    else
      return (w.mapOut fun s => s.setT iN jN (s.terrain iN jN +ᶠ h)).warn .soilToTerrain

/-- loop of `UpdateBodySoil` over the old entries -/
def updateEntries (pos : Vec3 F) (ori : Quat F) (g : Grid F) (body : Body F) (tol : F) :
    List (BodySoil F) → World F → M (World F)
  | [], w => .ok w
  | e :: l, w => do
    let w ← updateEntry pos ori g body tol e w
    updateEntries pos ori g body tol l w

/-- `UpdateBodySoil` (body_soil.cpp 35-217): the new state and the body with its new pose. -/
def updateBodySoil (pos : Vec3 F) (ori : Quat F) (g : Grid F) (body : Body F) (tol : F)
    (w : World F) : M (World F × Body F) := do
  let old := w.out.bodySoilPos
  let s ← resetBodySoil old w.out
  let w := { w with out := { s with bodySoilPos := [] } }
  let w ← updateEntries pos ori g body tol old w
  return (w, { body with pos := pos, ori := ori })

end Soil
