import Verif.Model.Num
import Mathlib.Data.Int.Log

/-!
# Rounded arithmetic

Finite floating-point numbers are rational numbers, and IEEE-754 prescribes that each operation returns
the rounded exact result.  Overflow, underflow, infinities and NaN are not modelled here, and neither is the
sign of zero.  The functions of the mathematical library are arbitrary.
-/

namespace Soil

/-- A rounding function and a mathematical library -/
structure Rounding where
  rnd : ℚ → ℚ
  sqrt : ℚ → ℚ
  sin : ℚ → ℚ
  cos : ℚ → ℚ
  tan : ℚ → ℚ
  pi : ℚ

/-- Numbers computed with the given rounding -/
def Flt (_ : Rounding) : Type := ℚ

/-- Each operation is followed by rounding.  Negation, absolute value, comparison, and rounding to whole numbers
are exact.  Conversion to `int` is undefined out of the range of a 32-bit integer. -/
@[reducible] instance Flt.ops (R : Rounding) : FOps (Flt R) where
  add (a b : ℚ) := R.rnd (a + b)
  sub (a b : ℚ) := R.rnd (a - b)
  mul (a b : ℚ) := R.rnd (a * b)
  div (a b : ℚ) := R.rnd (a / b)
  neg (a : ℚ) := -a
  abs (a : ℚ) := if a < 0 then -a else a
  floor (a : ℚ) := ((⌊a⌋ : ℤ) : ℚ)
  ceil (a : ℚ) := ((⌈a⌉ : ℤ) : ℚ)
  round (a : ℚ) := ((roundAway a : ℤ) : ℚ)
  sqrt := R.sqrt
  sin := R.sin
  cos := R.cos
  tan := R.tan
  pi := R.pi
  lt (a b : ℚ) := decide (a < b)
  le (a b : ℚ) := decide (a ≤ b)
  eq (a b : ℚ) := decide (a = b)
  signBit (a : ℚ) := decide (a < 0)
  ofRat q := R.rnd q
  ofInt z := R.rnd z
  toInt (a : ℚ) := if |a| < 2 ^ 31 then some (truncZ a) else none

/-- Rounding to the nearest integer, ties to even -/
def halfEven (q : ℚ) : ℤ :=
  if q - ⌊q⌋ < 1 / 2 then ⌊q⌋
  else if 1 / 2 < q - ⌊q⌋ then ⌊q⌋ + 1
  else if ⌊q⌋ % 2 = 0 then ⌊q⌋ else ⌊q⌋ + 1

/-- The exponent of the last of `prec` binary digits of a positive number -/
def lastDigit (prec : ℕ) (x : ℚ) : ℤ := Int.log 2 x + 1 - prec

/-- Rounding of a positive number to `prec` binary digits -/
def roundPos (prec : ℕ) (x : ℚ) : ℚ := halfEven (x / 2 ^ lastDigit prec x) * 2 ^ lastDigit prec x

/-- Rounding to nearest with `prec` binary digits, ties to even, no limit on the exponent: the default
rounding of IEEE-754 (`prec = 24` for `float`, `53` for `double`) as long as nothing overflows or
underflows -/
def roundBinary (prec : ℕ) (x : ℚ) : ℚ :=
  if x = 0 then 0 else if 0 < x then roundPos prec x else -roundPos prec (-x)

end Soil
