import Verif.Spec.State
import Mathlib.Algebra.Order.Field.Basic

/-!
# Specification of the stability codes (relax.cpp 266-287 and 420-441)

The first digit says which body layers the receiving column has: 1 only the first, 2 only the
second, 3 both, 4 none.  The second digit says where the soil lands: 0 terrain, 1 soil on the second
layer, 2 bare second layer, 3 soil on the first layer, 4 bare first layer.
-/

namespace Soil

variable {K : Type} [Field K] [LinearOrder K]

/-- Body layer `k` (0 or 2) exists in the column -/
def HasBody (s : SimOut K) (k : ℕ) (i j : ℤ) : Prop := s.body k i j ≠ 0 ∨ s.body (k + 1) i j ≠ 0

/-- There is soil on body layer `k` of the column -/
def HasSoil (s : SimOut K) (k : ℕ) (i j : ℤ) : Prop :=
  s.bodySoil k i j ≠ 0 ∨ s.bodySoil (k + 1) i j ≠ 0

/-- Layers `b` and `t` are the bottom and the top layer of a column having both -/
def BottomTop (s : SimOut K) (i j : ℤ) (b t : ℕ) : Prop :=
  (b = 0 ∧ t = 2 ∧ s.body 0 i j < s.body 2 i j) ∨ (b = 2 ∧ t = 0 ∧ s.body 2 i j ≤ s.body 0 i j)

/-- Soil landing on layer `k` of the column: the second digit of the code and the height of the
surface. -/
inductive LandsOn (s : SimOut K) (i j : ℤ) : ℕ → ℕ → K → Prop
  | soil2 : HasSoil s 2 i j → LandsOn s i j 2 1 (s.bodySoil 3 i j)
  | bare2 : ¬ HasSoil s 2 i j → LandsOn s i j 2 2 (s.body 3 i j)
  | soil0 : HasSoil s 0 i j → LandsOn s i j 0 3 (s.bodySoil 1 i j)
  | bare0 : ¬ HasSoil s 0 i j → LandsOn s i j 0 4 (s.body 1 i j)

/-- Where *terrain* coming from a neighbour lands in column `(i, j)`: the code and the height of the
receiving surface. -/
inductive TerrainTarget (s : SimOut K) (tol : K) (i j : ℤ) : ℕ → K → Prop
  /-- no body -/
  | free : ¬ HasBody s 0 i j → ¬ HasBody s 2 i j → TerrainTarget s tol i j 40 (s.terrain i j)
  /-- only the second layer, with space under it -/
  | under2 : ¬ HasBody s 0 i j → HasBody s 2 i j → s.terrain i j + tol < s.body 2 i j →
      TerrainTarget s tol i j 20 (s.terrain i j)
  /-- only the second layer, lying on the terrain -/
  | on2 {d h} : ¬ HasBody s 0 i j → HasBody s 2 i j → s.body 2 i j ≤ s.terrain i j + tol →
      LandsOn s i j 2 d h → TerrainTarget s tol i j (20 + d) h
  /-- only the first layer, with space under it -/
  | under0 : HasBody s 0 i j → ¬ HasBody s 2 i j → s.terrain i j + tol < s.body 0 i j →
      TerrainTarget s tol i j 10 (s.terrain i j)
  /-- only the first layer, lying on the terrain -/
  | on0 {d h} : HasBody s 0 i j → ¬ HasBody s 2 i j → s.body 0 i j ≤ s.terrain i j + tol →
      LandsOn s i j 0 d h → TerrainTarget s tol i j (10 + d) h
  /-- two layers, with space under the bottom one -/
  | under {b t} : HasBody s 0 i j → HasBody s 2 i j → BottomTop s i j b t →
      s.terrain i j + tol < s.body b i j → TerrainTarget s tol i j 30 (s.terrain i j)
  /-- two layers lying on the terrain, with free space between them: onto the bottom layer -/
  | onBottom {b t d h} : HasBody s 0 i j → HasBody s 2 i j → BottomTop s i j b t →
      s.body b i j ≤ s.terrain i j + tol →
      (HasSoil s b i j → s.bodySoil (b + 1) i j + tol ≤ s.body t i j) →
      LandsOn s i j b d h → TerrainTarget s tol i j (30 + d) h
  /-- two layers lying on the terrain, the space between them filled: onto the top layer -/
  | onTop {b t d h} : HasBody s 0 i j → HasBody s 2 i j → BottomTop s i j b t →
      s.body b i j ≤ s.terrain i j + tol → HasSoil s b i j →
      s.body t i j < s.bodySoil (b + 1) i j + tol →
      LandsOn s i j t d h → TerrainTarget s tol i j (30 + d) h

/-- Where *body soil* resting on a wall whose top is at height `z` lands in the neighbouring column
`(i, j)`: the code and the height of the receiving surface. -/
inductive BodyTarget (s : SimOut K) (tol z : K) (i j : ℤ) : ℕ → K → Prop
  /-- no body -/
  | free : ¬ HasBody s 0 i j → ¬ HasBody s 2 i j → BodyTarget s tol z i j 40 (s.terrain i j)
  /-- only the second layer, entirely above the wall -/
  | under2 : ¬ HasBody s 0 i j → HasBody s 2 i j → z + tol < s.body 2 i j →
      BodyTarget s tol z i j 20 (s.terrain i j)
  | on2 {d h} : ¬ HasBody s 0 i j → HasBody s 2 i j → s.body 2 i j ≤ z + tol →
      LandsOn s i j 2 d h → BodyTarget s tol z i j (20 + d) h
  /-- only the first layer, entirely above the wall -/
  | under0 : HasBody s 0 i j → ¬ HasBody s 2 i j → z + tol < s.body 0 i j →
      BodyTarget s tol z i j 10 (s.terrain i j)
  | on0 {d h} : HasBody s 0 i j → ¬ HasBody s 2 i j → s.body 0 i j ≤ z + tol →
      LandsOn s i j 0 d h → BodyTarget s tol z i j (10 + d) h
  /-- two layers, the top one above the wall, with free space between them: onto the bottom layer -/
  | onBottom {b t d h} : HasBody s 0 i j → HasBody s 2 i j → BottomTop s i j b t →
      z + tol < s.body t i j →
      (HasSoil s b i j → s.bodySoil (b + 1) i j + tol < s.body t i j) →
      LandsOn s i j b d h → BodyTarget s tol z i j (30 + d) h
  /-- two layers, the space between them not accessible or filled: onto the top layer -/
  | onTop {b t d h} : HasBody s 0 i j → HasBody s 2 i j → BottomTop s i j b t →
      (s.body t i j ≤ z + tol ∨
        HasSoil s b i j ∧ s.body t i j ≤ s.bodySoil (b + 1) i j + tol) →
      LandsOn s i j t d h → BodyTarget s tol z i j (30 + d) h

/-- A terrain column of height `h` is stable towards column `(i, j)`: no part of the receiving
column where the soil could go is lower than `h - dh` by more than the tolerance. -/
def TerrainStable (s : SimOut K) (dh tol h : K) (i j : ℤ) : Prop :=
  h - dh ≤ s.terrain i j + tol ∨ ∃ c x, TerrainTarget s tol i j c x ∧ h - dh ≤ x + tol

/-- Body soil with surface at height `h` resting on a wall with top `z` is stable towards column
`(i, j)`. -/
def BodyStable (s : SimOut K) (dh tol z h : K) (i j : ℤ) : Prop :=
  ∃ c x, BodyTarget s tol z i j c x ∧ h - dh ≤ x + tol

end Soil
