import Verif.Model.Utils
import Mathlib.Data.List.Rotate

/-!
# What the output files should contain
-/

namespace Soil

variable {F : Type} [FOps F]

/-- Order of the columns, then of the layers, in an output file -/
def FileOrder (a b : ℤ × ℤ × ℕ) : Prop :=
  a.1 < b.1 ∨ (a.1 = b.1 ∧ (a.2.1 < b.2.1 ∨ (a.2.1 = b.2.1 ∧ a.2.2 < b.2.2)))

/-- The rows are the values of `f` at the places that satisfy `P`, each place once and in order. -/
def Lists (P : ℤ × ℤ × ℕ → Prop) (f : ℤ × ℤ × ℕ → Vec3 F) (rows : List (Vec3 F)) : Prop :=
  ∃ L : List (ℤ × ℤ × ℕ), L.Pairwise FileOrder ∧ (∀ x, x ∈ L ↔ P x) ∧ rows = L.map f

/-- One row per column of the grid: position and height of the terrain -/
def TerrainFile (s : SimOut F) (g : Grid F) (rows : List (Vec3 F)) : Prop :=
  Lists (fun x => s.InGrid x.1 x.2.1 ∧ x.2.2 = 0)
    (fun x => ⟨g.vectX x.1, g.vectY x.2.1, s.terrain x.1 x.2.1⟩) rows

/-- One row per layer holding soil: position and top of the soil; a body without any entry of soil is shown
by one row at the first corner of the grid. -/
def BodySoilFile (s : SimOut F) (g : Grid F) (rows : List (Vec3 F)) : Prop :=
  (s.bodySoilPos = [] → rows = [⟨g.vectX 0, g.vectY 0, g.vectZ 0⟩]) ∧
  (s.bodySoilPos ≠ [] → Lists (fun x => s.InGrid x.1 x.2.1 ∧ (x.2.2 = 0 ∨ x.2.2 = 2) ∧
      (FOps.ne (s.bodySoil x.2.2 x.1 x.2.1) FOps.zero || FOps.ne (s.bodySoil (x.2.2 + 1) x.1 x.2.1) FOps.zero) = true)
    (fun x => ⟨g.vectX x.1, g.vectY x.2.1, s.bodySoil (x.2.2 + 1) x.1 x.2.1⟩) rows)

/-- Outlines of the faces of the body in its current pose, each going once around its face: for a bucket the
right side, the back, the base and the left side, for a blade the front faces above and below the joint -/
def BodyFile (body : Body F) (rows : List (Vec3 F)) : Prop :=
  ∀ c, c = calcBodyCornerPos body.pos body.ori body →
  (body.kind = .bucket → ∃ right back base left,
      rows = right ++ back ++ base ++ left ∧
      right.IsRotated [c.jr, c.br, c.tr] ∧ back.IsRotated [c.jr, c.jl, c.bl, c.br] ∧
      base.IsRotated [c.bl, c.br, c.tr, c.tl] ∧ left.IsRotated [c.bl, c.tl, c.jl]) ∧
  (body.kind = .blade → ∃ lower upper, rows = lower ++ upper ∧
      lower.IsRotated [c.jr, c.br, c.bl, c.jl] ∧ upper.IsRotated [c.jr, c.jl, c.tl, c.tr])

end Soil
