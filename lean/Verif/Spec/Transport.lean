import Verif.Spec.Geom
import Verif.Spec.WellFormed
import Verif.Model.Utils

/-! # Vocabulary for the transport of the soil resting on the body

`calcRotationQuaternion` is the rotation of the model; C05 characterises it. -/

namespace Soil

variable {K : Type} [Field K] [LinearOrder K]

/-- What is needed of the soil before its transport: the bookkeeping, not the body. -/
structure Stored (c : K) (s : SimOut K) : Prop where
  terrain_al : ∀ i j, s.InGrid i j → Al c (s.terrain i j)
  soil_al : ∀ k i j, s.InGrid i j → Al c (s.bodySoil k i j)
  entries : EntriesInGrid s
  entry_al : ∀ e ∈ s.bodySoilPos, Al c e.h
  entry_nonneg : ∀ e ∈ s.bodySoilPos, 0 ≤ e.h
  booked : Booked s
  listed : ∀ k i j, s.InGrid i j → k = 0 ∨ k = 2 → HasSoil s k i j →
    ∃ e ∈ s.bodySoilPos, e.ind = k ∧ e.ii = i ∧ e.jj = j

variable [FloorRing K] [Transc K]

/-- Where the base of an entry is after the movement -/
def movedTo (pos : Vec3 K) (ori : Quat K) (e : BodySoil K) : Vec3 K :=
  vadd (calcRotationQuaternion ori ⟨e.xb, e.yb, e.zb⟩) pos

/-- Column of a position -/
def colX (g : Grid K) (p : Vec3 K) : ℤ := roundAway (p.x / g.cellXY + (g.halfX : K))
/-- Column of a position -/
def colY (g : Grid K) (p : Vec3 K) : ℤ := roundAway (p.y / g.cellXY + (g.halfY : K))

/-- The choice of the layer that receives the soil of entry `e` -/
structure Chosen (g : Grid K) (tol : K) (s : SimOut K) (q : Vec3 K) (k : ℕ) (i j : ℤ) : Prop where
  layer : k = 0 ∨ k = 2
  inGrid : s.InGrid i j
  present : HasBody s k i j
  nearX : colX g q - 1 ≤ i ∧ i ≤ colX g q + 1
  nearY : colY g q - 1 ≤ j ∧ j ≤ colY g q + 1
  /-- at most one cell (plus the tolerance) away, or no nearer layer in the nine columns -/
  best : |q.z - s.body (k + 1) i j| < g.cellZ + tol ∨
    ∀ k' i' j', k' = 0 ∨ k' = 2 → colX g q - 1 ≤ i' → i' ≤ colX g q + 1 → colY g q - 1 ≤ j' →
      j' ≤ colY g q + 1 → HasBody s k' i' j' →
      |q.z - s.body (k + 1) i j| ≤ |q.z - s.body (k' + 1) i' j'|
  /-- the column of the moved position itself comes first -/
  own : (∃ k', (k' = 0 ∨ k' = 2) ∧ HasBody s k' (colX g q) (colY g q) ∧
      |q.z - s.body (k' + 1) (colX g q) (colY g q)| < g.cellZ + tol) → i = colX g q ∧ j = colY g q

/-- No layer of the nine columns is nearer than the height of the grid in cells -/
def NoWall (g : Grid K) (s : SimOut K) (q : Vec3 K) : Prop :=
  ∀ k i j, k = 0 ∨ k = 2 → colX g q - 1 ≤ i → i ≤ colX g q + 1 → colY g q - 1 ≤ j →
    j ≤ colY g q + 1 → HasBody s k i j → 2 * (g.halfZ : K) ≤ |q.z - s.body (k + 1) i j|

end Soil
