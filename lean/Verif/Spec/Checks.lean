import Verif.Spec.State
import Mathlib.Algebra.Order.Floor.Ring
import Mathlib.Algebra.Order.Group.Abs

/-! # Specification of the two consistency checks -/

namespace Soil

open FOps

/-- The conventions documented for a column (utils.hpp and utils.cpp 315-324), for numbers with
arbitrary arithmetic. -/
structure ColumnConv {F : Type} [FOps F] (s : SimOut F) (tol : F) (i j : ℤ) : Prop where
  /-- terrain does not exceed the bottom of a body layer -/
  terrain_below : ∀ k, k = 0 ∨ k = 2 →
    (FOps.ne (s.body k i j) zero = true ∨ FOps.ne (s.body (k + 1) i j) zero = true) →
    ¬ (s.body k i j +ᶠ tol <ᶠ s.terrain i j) = true
  /-- body layers have positive thickness -/
  body_thick : ∀ k, k = 0 ∨ k = 2 →
    (FOps.ne (s.body k i j) zero = true ∨ FOps.ne (s.body (k + 1) i j) zero = true) →
    ¬ (s.body (k + 1) i j -ᶠ tol <ᶠ s.body k i j) = true
  /-- the two body layers neither overlap nor touch -/
  body_apart :
    (FOps.ne (s.body 0 i j) zero = true ∨ FOps.ne (s.body 1 i j) zero = true) →
    (FOps.ne (s.body 2 i j) zero = true ∨ FOps.ne (s.body 3 i j) zero = true) →
    ¬ ((s.body 2 i j <ᶠ s.body 1 i j +ᶠ tol) = true ∧
       (s.body 0 i j <ᶠ s.body 3 i j +ᶠ tol) = true)
  /-- soil resting on the second layer does not overlap the first layer -/
  soil2_clear :
    (FOps.ne (s.body 0 i j) zero = true ∨ FOps.ne (s.body 1 i j) zero = true) →
    (FOps.ne (s.bodySoil 2 i j) zero = true ∨ FOps.ne (s.bodySoil 3 i j) zero = true) →
    ¬ ((s.bodySoil 2 i j <ᶠ s.body 1 i j -ᶠ tol) = true ∧
       (s.body 0 i j <ᶠ s.bodySoil 3 i j -ᶠ tol) = true)
  /-- soil resting on the first layer does not overlap the second layer -/
  soil0_clear :
    (FOps.ne (s.body 2 i j) zero = true ∨ FOps.ne (s.body 3 i j) zero = true) →
    (FOps.ne (s.bodySoil 0 i j) zero = true ∨ FOps.ne (s.bodySoil 1 i j) zero = true) →
    ¬ ((s.body 2 i j <ᶠ s.bodySoil 1 i j -ᶠ tol) = true ∧
       (s.bodySoil 0 i j <ᶠ s.body 3 i j -ᶠ tol) = true)
  /-- body soil does not have its bottom above its top -/
  soil_thick : ∀ k, k = 0 ∨ k = 2 →
    (FOps.ne (s.bodySoil k i j) zero = true ∨ FOps.ne (s.bodySoil (k + 1) i j) zero = true) →
    ¬ (s.bodySoil (k + 1) i j +ᶠ tol <ᶠ s.bodySoil k i j) = true
  /-- body soil does not start below the top of its body layer -/
  soil_above_body : ∀ k, k = 0 ∨ k = 2 →
    (FOps.ne (s.bodySoil k i j) zero = true ∨ FOps.ne (s.bodySoil (k + 1) i j) zero = true) →
    ¬ (s.bodySoil k i j +ᶠ tol <ᶠ s.body (k + 1) i j) = true
  /-- body soil only exists where its body layer exists -/
  soil_has_body : ∀ k, k = 0 ∨ k = 2 →
    (FOps.ne (s.bodySoil k i j) zero = true ∨ FOps.ne (s.bodySoil (k + 1) i j) zero = true) →
    (FOps.ne (s.body k i j) zero = true ∨ FOps.ne (s.body (k + 1) i j) zero = true)
  /-- there is no gap between a body layer and the soil resting on it -/
  soil_no_gap : ∀ k, k = 0 ∨ k = 2 →
    (FOps.ne (s.bodySoil k i j) zero = true ∨ FOps.ne (s.bodySoil (k + 1) i j) zero = true) →
    FOps.ne (s.bodySoil k i j) (s.body (k + 1) i j) = false

/-- The same conventions for exact numbers -/
structure ColumnConvEx {K : Type} [AddCommGroup K] [LinearOrder K] (s : SimOut K) (tol : K)
    (i j : ℤ) : Prop where
  /-- terrain does not exceed the bottom of a body layer -/
  terrain_below : ∀ k, k = 0 ∨ k = 2 → (s.body k i j ≠ 0 ∨ s.body (k + 1) i j ≠ 0) →
    s.terrain i j ≤ s.body k i j + tol
  /-- body layers have positive thickness -/
  body_thick : ∀ k, k = 0 ∨ k = 2 → (s.body k i j ≠ 0 ∨ s.body (k + 1) i j ≠ 0) →
    s.body k i j ≤ s.body (k + 1) i j - tol
  /-- the two body layers neither overlap nor touch -/
  body_apart : (s.body 0 i j ≠ 0 ∨ s.body 1 i j ≠ 0) → (s.body 2 i j ≠ 0 ∨ s.body 3 i j ≠ 0) →
    s.body 1 i j + tol ≤ s.body 2 i j ∨ s.body 3 i j + tol ≤ s.body 0 i j
  /-- soil resting on the second layer does not overlap the first layer -/
  soil2_clear : (s.body 0 i j ≠ 0 ∨ s.body 1 i j ≠ 0) →
    (s.bodySoil 2 i j ≠ 0 ∨ s.bodySoil 3 i j ≠ 0) →
    s.body 1 i j - tol ≤ s.bodySoil 2 i j ∨ s.bodySoil 3 i j - tol ≤ s.body 0 i j
  /-- soil resting on the first layer does not overlap the second layer -/
  soil0_clear : (s.body 2 i j ≠ 0 ∨ s.body 3 i j ≠ 0) →
    (s.bodySoil 0 i j ≠ 0 ∨ s.bodySoil 1 i j ≠ 0) →
    s.bodySoil 1 i j - tol ≤ s.body 2 i j ∨ s.body 3 i j - tol ≤ s.bodySoil 0 i j
  /-- body soil does not have its bottom above its top -/
  soil_thick : ∀ k, k = 0 ∨ k = 2 → (s.bodySoil k i j ≠ 0 ∨ s.bodySoil (k + 1) i j ≠ 0) →
    s.bodySoil k i j ≤ s.bodySoil (k + 1) i j + tol
  /-- body soil does not start below the top of its body layer -/
  soil_above_body : ∀ k, k = 0 ∨ k = 2 → (s.bodySoil k i j ≠ 0 ∨ s.bodySoil (k + 1) i j ≠ 0) →
    s.body (k + 1) i j ≤ s.bodySoil k i j + tol
  /-- body soil only exists where its body layer exists -/
  soil_has_body : ∀ k, k = 0 ∨ k = 2 → (s.bodySoil k i j ≠ 0 ∨ s.bodySoil (k + 1) i j ≠ 0) →
    (s.body k i j ≠ 0 ∨ s.body (k + 1) i j ≠ 0)
  /-- there is no gap between a body layer and the soil resting on it -/
  soil_no_gap : ∀ k, k = 0 ∨ k = 2 → (s.bodySoil k i j ≠ 0 ∨ s.bodySoil (k + 1) i j ≠ 0) →
    s.bodySoil k i j = s.body (k + 1) i j

/-- Number of soil cells of height `c` in a column; each of the three amounts is rounded to the
nearest whole number of cells, halves away from zero. -/
def columnCells {K : Type} [Field K] [LinearOrder K] [FloorRing K] (s : SimOut K) (c : K)
    (i j : ℤ) : ℤ :=
  let nearest (x : K) : ℤ := if 0 ≤ x then ⌊x + 1 / 2⌋ else ⌈x - 1 / 2⌉
  nearest (s.terrain i j / c) + nearest (layerSoil s 0 i j / c) + nearest (layerSoil s 2 i j / c)

/-- Number of soil cells of the whole grid -/
def totalCells {K : Type} [Field K] [LinearOrder K] [FloorRing K] (s : SimOut K) (c : K) : ℤ :=
  ∑ p ∈ gridCols s, columnCells s c p.1 p.2

end Soil
