import Mathlib.Algebra.Order.Floor.Ring
import Mathlib.Algebra.Order.Round
import Mathlib.Data.Rat.Floor
import Mathlib.Data.Rat.Cast.CharZero
import Mathlib.Algebra.Order.Field.Basic

/-!
# Number operations

The C++ code computes with `float` and `double`.  Every function of the model is written once,
against the class `FOps` of the number operations the code uses.  `FOps` carries **no laws**: a
theorem stated for an arbitrary `[FOps F]` holds whatever the arithmetic does, including IEEE-754
rounding and NaN.  Theorems that need real arithmetic are stated for the exact instance
`FOps.exact` (any linearly ordered field with a floor function), and the few facts that depend on
0/0 use the instance `NaNable` of exact numbers extended with a NaN.

Simplification: `float` and `double` are one type `F`; C++ evaluates mixed expressions in `double`
and narrows the result.
-/

namespace Soil

/-- The number operations used by the C++ code.  No laws are assumed. -/
class FOps (F : Type) where
  add : F → F → F
  sub : F → F → F
  mul : F → F → F
  div : F → F → F
  neg : F → F
  /-- `std::abs` -/
  abs : F → F
  /-- `std::floor` -/
  floor : F → F
  /-- `std::ceil` -/
  ceil : F → F
  /-- `round` / `std::round`: to the nearest integer, halfway cases away from zero -/
  round : F → F
  /-- `std::sqrt` -/
  sqrt : F → F
  sin : F → F
  cos : F → F
  tan : F → F
  /-- `std::numbers::pi` -/
  pi : F
  /-- C++ `<` (false if an operand is NaN) -/
  lt : F → F → Bool
  /-- C++ `<=` -/
  le : F → F → Bool
  /-- C++ `==` -/
  eq : F → F → Bool
  /-- sign bit, for `copysign(1, x)` -/
  signBit : F → Bool
  /-- literals -/
  ofRat : ℚ → F
  /-- implicit `int` to floating-point conversion -/
  ofInt : ℤ → F
  /-- `static_cast<int>`; `none` when the conversion is undefined behaviour -/
  toInt : F → Option ℤ

namespace FOps

scoped infixl:65 " +ᶠ " => FOps.add
scoped infixl:65 " -ᶠ " => FOps.sub
scoped infixl:70 " *ᶠ " => FOps.mul
scoped infixl:70 " /ᶠ " => FOps.div
scoped infix:50 " <ᶠ " => FOps.lt
scoped infix:50 " ≤ᶠ " => FOps.le
scoped infix:50 " ==ᶠ " => FOps.eq

variable {F : Type} [FOps F]

/-- the literal `0.0` -/
def zero : F := ofRat 0

/-- C++ `!=`, the negation of `==` (also for NaN) -/
def ne (a b : F) : Bool := !(FOps.eq a b)

/-- `std::max(a, b)`: `(a < b) ? b : a` -/
def max (a b : F) : F := if a <ᶠ b then b else a

/-- `std::min(a, b)`: `(b < a) ? b : a` -/
def min (a b : F) : F := if b <ᶠ a then b else a

/-- `std::max({a, ...})`: keeps the first largest element -/
def maxL (a : F) (l : List F) : F := l.foldl FOps.max a

/-- `std::min({a, ...})`: keeps the first smallest element -/
def minL (a : F) (l : List F) : F := l.foldl FOps.min a

end FOps

/-- Functions that an ordered field does not provide.  They are instantiated with the real
functions on `ℝ` (`Verif/Model/Real.lean`). -/
class Transc (K : Type) where
  sqrt : K → K
  sin : K → K
  cos : K → K
  tan : K → K
  pi : K

section Exact

variable {K : Type} [Field K] [LinearOrder K] [FloorRing K]

/-- Rounding to the nearest integer, halfway cases away from zero (C `round`). -/
def roundAway (x : K) : ℤ := if 0 ≤ x then ⌊x + 1 / 2⌋ else ⌈x - 1 / 2⌉

/-- Truncation toward zero (C++ float-to-int conversion). -/
def truncZ (x : K) : ℤ := if 0 ≤ x then ⌊x⌋ else ⌈x⌉

/-- Exact arithmetic.  Division by zero gives zero here; theorems whose C++ counterpart divides
always carry the hypothesis that the divisor is non-zero (see also `NaNable`).  `int` is
unbounded. -/
@[reducible] instance FOps.exact [Transc K] : FOps K where
  add := (· + ·)
  sub := (· - ·)
  mul := (· * ·)
  div := (· / ·)
  neg := (- ·)
  abs x := if x < 0 then -x else x
  floor x := (⌊x⌋ : K)
  ceil x := (⌈x⌉ : K)
  round x := (roundAway x : K)
  sqrt := Transc.sqrt
  sin := Transc.sin
  cos := Transc.cos
  tan := Transc.tan
  pi := Transc.pi
  lt a b := decide (a < b)
  le a b := decide (a ≤ b)
  eq a b := decide (a = b)
  signBit x := decide (x < 0)
  ofRat q := (q : K)
  ofInt z := (z : K)
  toInt x := some (truncZ x)

end Exact

/-- On the rationals the transcendental functions are placeholders: the square root is exact for
squares of rationals, the tangent is the identity, the others are constant; `ℚ` is only used for
concrete examples that can be evaluated. -/
instance : Transc ℚ :=
  ⟨fun x => (Nat.sqrt x.num.toNat : ℚ) / (Nat.sqrt x.den : ℚ), fun _ => 0, fun _ => 1, fun x => x, 3⟩

/-- Exact numbers extended with one extra value, not-a-number. -/
inductive NaNable (K : Type) where
  | num : K → NaNable K
  | nan : NaNable K

namespace NaNable

variable {K : Type}

/-- apply a binary operation, propagating NaN -/
def map₂ (f : K → K → NaNable K) : NaNable K → NaNable K → NaNable K
  | num a, num b => f a b
  | _, _ => nan

/-- apply a unary operation, propagating NaN -/
def map₁ (f : K → K) : NaNable K → NaNable K
  | num a => num (f a)
  | nan => nan

/-- apply a comparison; false if an operand is NaN -/
def cmp (f : K → K → Bool) : NaNable K → NaNable K → Bool
  | num a, num b => f a b
  | _, _ => false

/-- Exact arithmetic with NaN: division by zero gives NaN (IEEE-754 gives an infinity when the
numerator is non-zero; infinities are not modelled), NaN propagates through arithmetic, every
comparison with NaN is false and converting NaN to `int` is undefined. -/
@[reducible] instance ops [Field K] [LinearOrder K] [FloorRing K] [Transc K] :
    FOps (NaNable K) where
  add := map₂ fun a b => num (a + b)
  sub := map₂ fun a b => num (a - b)
  mul := map₂ fun a b => num (a * b)
  div := map₂ fun a b => if b = 0 then nan else num (a / b)
  neg := map₁ (- ·)
  abs := map₁ fun x => if x < 0 then -x else x
  floor := map₁ fun x => (⌊x⌋ : K)
  ceil := map₁ fun x => (⌈x⌉ : K)
  round := map₁ fun x => (roundAway x : K)
  sqrt
    | num x => if x < 0 then nan else num (Transc.sqrt x)
    | nan => nan
  sin := map₁ Transc.sin
  cos := map₁ Transc.cos
  tan := map₁ Transc.tan
  pi := num Transc.pi
  lt := cmp fun a b => decide (a < b)
  le := cmp fun a b => decide (a ≤ b)
  eq := cmp fun a b => decide (a = b)
  signBit
    | num x => decide (x < 0)
    | nan => false
  ofRat q := num (q : K)
  ofInt z := num (z : K)
  toInt
    | num x => some (truncZ x)
    | nan => none

end NaNable

end Soil
