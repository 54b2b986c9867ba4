import Verif.Model.Models
import Mathlib.Analysis.SpecialFunctions.Complex.Arg

/-!
# angle_utilities.h, planar_2d_motion.cpp

Simplification: exact real arithmetic; `M_PI` is `Real.pi`.  The floating point version of `constrainAngle` is in
Model/FloatAngles.lean.
-/

namespace StateEstimation

open Real

/-- First loop of `constrainAngle`, angle_utilities.h:16-18.  `none`: the loop does not end. -/
noncomputable def angleDown (a : ℝ) : Option ℝ :=
  if a > π then angleDown (a - 2 * π) else some a
partial_fixpoint

/-- Second loop of `constrainAngle`, angle_utilities.h:19-21. -/
noncomputable def angleUp (a : ℝ) : Option ℝ :=
  if a < -π then angleUp (a + 2 * π) else some a
partial_fixpoint

/-- `constrainAngle(angle)`, angle_utilities.h:15-24. -/
noncomputable def constrainAngle (a : ℝ) : Option ℝ := do
  let a ← angleDown a
  angleUp a

/-- The loops `result(i) = f(a(i))` of the vector versions, angle_utilities.h:28-30, 55-57, from index `i` on. -/
noncomputable def mapLoop (f : Nat → Option ℝ) : Nat → Nat → DVec → Option DVec
  | 0, _, acc => some acc
  | fuel + 1, i, acc => do
    let v ← f i
    let acc ← acc.set? i v
    mapLoop f fuel (i + 1) acc

/-- `constrainAngle` for a vector, angle_utilities.h:26-33.  The result vector starts uninitialised; every entry is
written, so zeros stand for its content. -/
noncomputable def constrainAngles (a : DVec) : Option DVec :=
  mapLoop (fun i => do let v ← a.get? i; constrainAngle v) a.size 0 (.zero a.size)

/-- Rounding towards zero. -/
noncomputable def truncate (q : ℝ) : ℤ := if 0 ≤ q then ⌊q⌋ else ⌈q⌉

/-- C's `fmod(x, y)`. -/
noncomputable def fmod (x y : ℝ) : ℝ := x - y * truncate (x / y)

/-- `angleDifference(theta1, theta2)`, angle_utilities.h:44-48. -/
noncomputable def angleDifference (t1 t2 : ℝ) : ℝ :=
  let dtheta := t1 - t2
  let dtheta := fmod dtheta (2 * π)
  fmod (2 * dtheta) (2 * π) - dtheta

/-- `angleDifference` for vectors, angle_utilities.h:50-60. -/
noncomputable def angleDifferences (t1 t2 : DVec) : Option DVec :=
  if t1.size = t2.size then
    mapLoop (fun i => do let a ← t1.get? i; let b ← t2.get? i; some (angleDifference a b)) t1.size 0 (.zero t1.size)
  else none

/-- `std::atan2(y, x)`. -/
noncomputable def atan2 (y x : ℝ) : ℝ := Complex.arg ⟨x, y⟩

/-- `(w.array() * f(thetas).array()).sum()`: angle_utilities.h:104-105. -/
noncomputable def weightedTrig (f : ℝ → ℝ) (w t : DVec) (h : w.size = t.size) : ℝ :=
  ∑ i : Fin w.size, w.val i * f (t.val (Fin.cast h i))

/-- `weightedAngleSum(w, thetas)`, angle_utilities.h:101-107. -/
noncomputable def weightedAngleSum (w t : DVec) : Option ℝ :=
  if h : w.size = t.size then some (atan2 (weightedTrig sin w t h) (weightedTrig cos w t h)) else none

/-- `X.row(i)` as a vector. -/
def DMat.row? (A : DMat) (i : Nat) : Option DVec :=
  if h : i < A.rows then some ⟨A.cols, fun j => A.val ⟨i, h⟩ j⟩ else none

namespace Planar2d

/-- `state::PSI`, planar_2d_motion.h:18-29. -/
def PSI : Nat := 6
/-- `state::DIMS`. -/
def DIMS : Nat := 8

/-- `planar_2d::addState`, planar_2d_motion.cpp:7-14 (`usage` is ignored by the code). -/
noncomputable def addState (lhs rhs : DVec) : Option DVec := do
  let result ← lhs.add rhs
  let p ← result.get? PSI
  let c ← constrainAngle p
  result.set? PSI c

/-- `planar_2d::subtractState`, planar_2d_motion.cpp:16-23. -/
noncomputable def subtractState (lhs rhs : DVec) : Option DVec := do
  let result ← lhs.sub rhs
  let a ← lhs.get? PSI
  let b ← rhs.get? PSI
  result.set? PSI (angleDifference a b)

/-- `planar_2d::weightedSumOfStates`, planar_2d_motion.cpp:25-39. -/
noncomputable def weightedSumOfStates (w : DVec) (X : DMat) : Option DVec :=
  if w.size = X.cols then do
    let s ← weightedSumLoop w X w.size 0 (DVec.zero X.rows)
    let r ← X.row? PSI
    let a ← weightedAngleSum w r
    s.set? PSI a
  else none

end Planar2d

end StateEstimation
