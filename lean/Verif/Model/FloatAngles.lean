import Verif.Model.Float

/-!
# constrainAngle and angleDifference in double precision

angle_utilities.h:15-24 and 45-49, on `double`.  Simplification: as in Model/Float.lean (round to nearest even with gradual
underflow; no overflow, no infinities, no NaN).
-/

namespace StateEstimation

namespace FloatAngle

/-- The double `M_PI` of `<cmath>`, `0x1.921fb54442d18p+1`. -/
def mpi : ℚ := 884279719003555 / 2 ^ 48

/-- First loop of `constrainAngle` in double precision, angle_utilities.h:16-18.  `2 * M_PI` is exact, the subtraction
rounds.  `none`: the loop does not end. -/
def down (a : ℚ) : Option ℚ := if a > mpi then down (roundDouble (a - 2 * mpi)) else some a
partial_fixpoint

/-- Second loop of `constrainAngle` in double precision, angle_utilities.h:19-21. -/
def up (a : ℚ) : Option ℚ := if a < -mpi then up (roundDouble (a + 2 * mpi)) else some a
partial_fixpoint

/-- `constrainAngle(angle)` in double precision, angle_utilities.h:15-24. -/
def constrainAngle (a : ℚ) : Option ℚ :=
  match down a with
  | none => none
  | some b => up b

/-- Rounding towards zero. -/
def truncQ (q : ℚ) : ℤ := if 0 ≤ q then ⌊q⌋ else ⌈q⌉

/-- `fmod(x, y)`.  It is exact in IEEE arithmetic (the result is always a double), so nothing is rounded. -/
def fmod (x y : ℚ) : ℚ := x - truncQ (x / y) * y

/-- `angleDifference(theta1, theta2)` in double precision, angle_utilities.h:45-49.  `2 * dtheta` is exact in binary
arithmetic; the two subtractions round. -/
def angleDifference (theta1 theta2 : ℚ) : ℚ :=
  let d := fmod (roundDouble (theta1 - theta2)) (2 * mpi)
  roundDouble (fmod (roundDouble (2 * d)) (2 * mpi) - d)

end FloatAngle

end StateEstimation
