import Verif.Spec.Footprint
import Verif.Spec.Rounded

/-! # The body layers of a state show given cells -/

namespace Soil

open FOps

/-- The body layers of the state are those of the cells of the walls: every cell is in a layer of its column, and no
layer reaches below all cells of its column or above all of them.  A column without cells has no layer. -/
structure Drawn {F : Type} [FOps F] (g : Grid F) (walls : List (List Cell3)) (s : SimOut F) : Prop where
  covers : ∀ w ∈ walls, ∀ t ∈ w, s.InGrid t.1 t.2.1 ∧ ∃ l, (l = 0 ∨ l = 2) ∧ s.bodyAbs l t.1 t.2.1 = false ∧
    (g.vectZ t.2.2 -ᶠ g.cellZ <ᶠ s.body l t.1 t.2.1) = false ∧ (s.body (l + 1) t.1 t.2.1 <ᶠ g.vectZ t.2.2) = false
  only : ∀ l i j, s.InGrid i j → l = 0 ∨ l = 2 → s.bodyAbs l i j = false →
    (∃ k, (∃ w ∈ walls, (i, j, k) ∈ w) ∧ (s.body l i j <ᶠ g.vectZ k -ᶠ g.cellZ) = false) ∧
    ∃ k, (∃ w ∈ walls, (i, j, k) ∈ w) ∧ (g.vectZ k <ᶠ s.body (l + 1) i j) = false

/-- The body layers of the state agree with the vertices: at each vertex there is a layer, up to a sixteenth of a
cell beyond the cell of the vertex, and each layer is within two and a half columns of the rectangle around the
vertices. -/
structure ShownAt {R : Rounding} (g : Grid (Flt R)) (vs : List (Vec3 (Flt R))) (s : SimOut (Flt R)) : Prop where
  vertex : ∀ v ∈ vs, ∃ i j, s.InGrid i j ∧ |v.x.val - (i - g.halfX) * g.cellXY.val| ≤ 9 / 16 * g.cellXY.val ∧
    |v.y.val - (j - g.halfY) * g.cellXY.val| ≤ 9 / 16 * g.cellXY.val ∧
    ∃ l, (l = 0 ∨ l = 2) ∧ s.bodyAbs l i j = false ∧ (s.body l i j).val ≤ v.z.val + g.cellZ.val / 16 ∧
      v.z.val ≤ (s.body (l + 1) i j).val + g.cellZ.val / 16
  rest : ∀ l i j, s.InGrid i j → l = 0 ∨ l = 2 → s.bodyAbs l i j = false →
    (∃ v ∈ vs, v.x.val ≤ (i - g.halfX + 5 / 2) * g.cellXY.val) ∧ (∃ v ∈ vs, (i - g.halfX - 5 / 2) * g.cellXY.val ≤ v.x.val) ∧
    (∃ v ∈ vs, v.y.val ≤ (j - g.halfY + 5 / 2) * g.cellXY.val) ∧ ∃ v ∈ vs, (j - g.halfY - 5 / 2) * g.cellXY.val ≤ v.y.val

end Soil
