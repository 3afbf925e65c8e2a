import Verif.Model.Types

/-! # Segments and cells, in index coordinates

A position in metres is converted to index coordinates by dividing by the cell sizes and adding the
half lengths; cell `(i, j, k)` is `[i - 1/2, i + 1/2] × [j - 1/2, j + 1/2] × [k - 1, k]`. -/

namespace Soil

variable {K : Type} [Field K] [LinearOrder K]

/-- The square root of the number type is the square root on non-negative numbers -/
def SqrtLaw (K : Type) [Field K] [LinearOrder K] [Transc K] : Prop :=
  ∀ x : K, 0 ≤ x → 0 ≤ Transc.sqrt x ∧ Transc.sqrt x * Transc.sqrt x = x

/-- Index coordinates of a position -/
def idx (g : Grid K) (a : Vec3 K) : Vec3 K :=
  ⟨a.x / g.cellXY + g.halfX, a.y / g.cellXY + g.halfY, a.z / g.cellZ + g.halfZ - 1⟩

/-- Point of the segment from `p` to `q` -/
def segPoint (p q : Vec3 K) (u : K) : Vec3 K :=
  ⟨p.x + u * (q.x - p.x), p.y + u * (q.y - p.y), p.z + u * (q.z - p.z)⟩

/-- `p` lies in the closed cell `c` -/
def Touches (c : ℤ × ℤ × ℤ) (p : Vec3 K) : Prop :=
  |p.x - c.1| ≤ 1 / 2 ∧ |p.y - c.2.1| ≤ 1 / 2 ∧ c.2.2 - 1 ≤ p.z ∧ p.z ≤ c.2.2

/-- `c` is the cell of `p`; the bottom of a cell belongs to the cell below it -/
def CellOf (c : ℤ × ℤ × ℤ) (p : Vec3 K) : Prop :=
  |p.x - c.1| < 1 / 2 ∧ |p.y - c.2.1| < 1 / 2 ∧ c.2.2 - 1 < p.z ∧ p.z ≤ c.2.2

/-- One move of a path along the segment from `p` to `q`: one of the three indices changes by one, in
the direction in which the corresponding coordinate changes -/
def Move (p q : Vec3 K) (c c' : ℤ × ℤ × ℤ) : Prop :=
  (p.x < q.x ∧ c' = (c.1 + 1, c.2.1, c.2.2)) ∨ (q.x < p.x ∧ c' = (c.1 - 1, c.2.1, c.2.2)) ∨
  (p.y < q.y ∧ c' = (c.1, c.2.1 + 1, c.2.2)) ∨ (q.y < p.y ∧ c' = (c.1, c.2.1 - 1, c.2.2)) ∨
  (p.z < q.z ∧ c' = (c.1, c.2.1, c.2.2 + 1)) ∨ (q.z < p.z ∧ c' = (c.1, c.2.1, c.2.2 - 1))

/-- The start of the segment is in general position: it is not on a cell boundary (in the vertical
direction this matters for ascending segments only), and if the segment is parallel to a boundary it
is not within `10⁻¹⁰` above it -/
structure StartGeneric (p q : Vec3 K) : Prop where
  x : ∀ n : ℤ, p.x ≠ n + 1 / 2
  y : ∀ n : ℤ, p.y ≠ n + 1 / 2
  z : p.z < q.z → ∀ n : ℤ, p.z ≠ n
  flat_x : p.x = q.x → ∀ n : ℤ, n + 1 / 2 < p.x → n + 1 / 2 + 1 / 10000000000 < p.x
  flat_y : p.y = q.y → ∀ n : ℤ, n + 1 / 2 < p.y → n + 1 / 2 + 1 / 10000000000 < p.y
  flat_z : p.z = q.z → ∀ n : ℤ, (n : K) < p.z → n + 1 / 10000000000 < p.z

/-- The end of the segment is not on a cell boundary (in the vertical direction this matters for
descending segments only) -/
structure EndGeneric (p q : Vec3 K) : Prop where
  x : ∀ n : ℤ, q.x ≠ n + 1 / 2
  y : ∀ n : ℤ, q.y ≠ n + 1 / 2
  z : q.z < p.z → ∀ n : ℤ, q.z ≠ n

end Soil
