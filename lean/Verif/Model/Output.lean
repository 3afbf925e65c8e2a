import Verif.Model.Utils

/-!
# Output files (`soil_simulator/utils.cpp` 490-698)

The file system is a predicate "a file of this name can be opened for reading" on names relative
to the results directory, and the files written are returned with their lines.  Not modelled: the
formatting of floating-point numbers (lines are triples of numbers), failures when opening a file
for writing, and other processes changing the directory.
-/

namespace Soil

open FOps

variable {F : Type} [FOps F]

/-- `std::string(nn, '0').append(file_number)` (utils.cpp 504-512) -/
def fileNumber (n : ℕ) : String :=
  let d := toString n
  String.ofList (List.replicate (5 - Min.min 5 d.length) '0') ++ d

/-- name of file number `n` -/
def fileName (base : String) (n : ℕ) : String := base ++ "_" ++ fileNumber n ++ ".csv"

/-- `for (ii = 0; ii < 100000; ii++)` with `break` (utils.cpp 502-519, 585-602, 659-676): the number
of the name held by the variable after the loop; `count` numbers remain from `n`. -/
def findNumber (taken : String → Bool) (base : String) : ℕ → ℕ → ℕ
  | 0, n => n - 1
  | count + 1, n => if taken (fileName base n) then findNumber taken base count (n + 1) else n

/-- the number chosen -/
def chooseNumber (taken : String → Bool) (base : String) : ℕ := findNumber taken base 100000 0

/-- A written file: name and lines after the header `x,y,z` -/
structure OutFile (F : Type) where
  name : String
  rows : List (Vec3 F)

/-- rows of the terrain file (utils.cpp 524-527) -/
def terrainRows (s : SimOut F) (g : Grid F) : List (Vec3 F) :=
  s.allCells.map fun p => ⟨g.vectX p.1, g.vectY p.2, s.terrain p.1 p.2⟩

/-- row of one layer of the body soil (utils.cpp 546-561) -/
def layerRow (s : SimOut F) (g : Grid F) (k : ℕ) (p : ℤ × ℤ) : List (Vec3 F) :=
  if s.soilPres k p.1 p.2 then [⟨g.vectX p.1, g.vectY p.2, s.bodySoil (k + 1) p.1 p.2⟩] else []

/-- rows of the body soil file (utils.cpp 538-564) -/
def bodySoilRows (s : SimOut F) (g : Grid F) : List (Vec3 F) :=
  if s.bodySoilPos.length = 0 then [⟨g.vectX 0, g.vectY 0, g.vectZ 0⟩]
  else s.allCells.flatMap fun p => layerRow s g 0 p ++ layerRow s g 2 p

/-- `WriteSoil` (utils.cpp 492-565) -/
def writeSoil (taken : String → Bool) (s : SimOut F) (g : Grid F) : List (OutFile F) :=
  let n := chooseNumber taken "terrain"
  [⟨fileName "terrain" n, terrainRows s g⟩, ⟨fileName "body_soil" n, bodySoilRows s g⟩]

/-- `WriteBody` (utils.cpp 569-638 for a bucket, 643-698 for a blade) -/
def writeBody (taken : String → Bool) (body : Body F) : OutFile F :=
  let c := calcBodyCornerPos body.pos body.ori body
  match body.kind with
  | .bucket =>
    ⟨fileName "bucket" (chooseNumber taken "bucket"),
      [c.br, c.tr, c.jr, c.jr, c.jl, c.bl, c.br, c.br, c.tr, c.tl, c.bl, c.bl, c.tl, c.jl]⟩
  | .blade =>
    ⟨fileName "blade" (chooseNumber taken "blade"),
      [c.br, c.bl, c.jl, c.jr, c.jr, c.jl, c.tl, c.tr]⟩

end Soil
