import Verif.Model.Time
import Mathlib.Data.Int.Log
import Mathlib.Algebra.Order.Floor.Ring
import Mathlib.Data.Rat.Floor
import Mathlib.Algebra.Ring.Int.Parity
import Mathlib.Algebra.Order.Ring.Rat

/-!
# Double precision time stamps

IEEE 754 binary64 addition, subtraction and comparison, round to nearest even, with gradual underflow.  Simplification: no
overflow (the exponent is not bounded above), no infinities and no NaN (for NaN see C65); `-0.0` and `0.0` are one value.
The time stamps of filter_base.h:44,70,83 are of this type.
-/

namespace StateEstimation

/-- Rounding to the nearest integer, ties to even. -/
def roundEven (q : ℚ) : ℤ :=
  let f := ⌊q⌋
  if q - f < 1 / 2 then f
  else if 1 / 2 < q - f then f + 1
  else if Even f then f else f + 1

/-- The exponent of the last place of a 53-bit significand, not below that of the subnormal numbers. -/
def lastPlace (q : ℚ) : ℤ := max (Int.log 2 |q| - 52) (-1074)

/-- Rounding to double precision. -/
def roundDouble (q : ℚ) : ℚ := if q = 0 then 0 else roundEven (q / 2 ^ lastPlace q) * 2 ^ lastPlace q

/-- The double precision numbers: a significand of at most 53 bits and an exponent of at least -1074. -/
def IsDouble (q : ℚ) : Prop := ∃ m e : ℤ, |m| < 2 ^ 53 ∧ -1074 ≤ e ∧ q = m * 2 ^ e

/-- The type `double` (finite values). -/
def Double := { q : ℚ // IsDouble q }

end StateEstimation
