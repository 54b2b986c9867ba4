import Verif.Model.FilterBase
import Mathlib.Algebra.Order.Ring.Rat

/-!
# The project's own tests of `FilterBase`, run on the model

test/test_filter_base.cpp, test by test: the same test filter, the same calls with the same numbers, the same expectations,
on `Model/FilterBase.lean`.  Arithmetic is rational, so `isApprox` becomes equality.  These are tests, not proofs: they tie
the model to what the authors expect of the code.  They are checked by the kernel (`decide +kernel`).
-/

namespace StateEstimation.Upstream

/-- `Eigen::VectorXd`. -/
abbrev Vec := List ℚ
/-- `Eigen::MatrixXd`, by rows. -/
abbrev Mat := List (List ℚ)

/-- `A.rows() == n && A.cols() == n`. -/
def square (n : Nat) (A : Mat) : Bool := A.length == n && A.all (fun r => r.length == n)

/-- The two model objects: the system model's `Rc` and whether the stationary functions of `PredictSkippedWhenStationary`
and `CorrectSkippedWhenStationary` were set. -/
structure Models where
  rc : Mat
  sysStationary : Bool
  measStationary : Bool
deriving DecidableEq

/-- `makeStationary` of the two tests, test_filter_base.cpp:356-361, 401-406. -/
def add1000 (x : Vec) (c : Mat) : Vec × Mat := (x.map (· + 1000), c.map (fun r => r.map (· + 1000)))

/-- `TestFilter` with its models, test_filter_base.cpp:10-64. -/
def testFilter : Plant ℚ Vec Mat Unit Models where
  vsize := List.length
  emptyV := []
  emptyM := []
  zeroV n := List.replicate n 0
  controlSize _ := 3
  rc e := e.rc
  setRc e R := if square 3 R then some { e with rc := R } else none
  sysCheck e := e.sysStationary
  sysIsStationary _ _ d := decide (d.headD 0 > 0)
  sysProcess e _ _ := some e
  sysMake _ x c := some (add1000 x c)
  setMeasCov e _ c := if square 3 c then some e else none
  measCheck e _ := e.measStationary
  measIsStationary _ _ _ d := decide (d.headD 0 > 0)
  measProcess e _ _ _ := some e
  measMake _ _ x c := some (add1000 x c)
  myPredict e x c u dt :=
    if x.length = 3 ∧ u.length = 3 then some (List.zipWith (fun a b => a + dt * a + b) x u, c, e) else none
  myCorrect e x c _ _ _ := if x.length = 3 then some (x.map (0.9 * ·), c, e) else none

/-- `std::sort`: insertion sort by time. -/
def sortInputs : List (FilterInput ℚ Vec Mat Unit) → List (FilterInput ℚ Vec Mat Unit)
  | [] => []
  | a :: l => ins a (sortInputs l)
where
  ins (a : FilterInput ℚ Vec Mat Unit) : List (FilterInput ℚ Vec Mat Unit) → List (FilterInput ℚ Vec Mat Unit)
    | [] => [a]
    | b :: l => if a.timestamp ≤ b.timestamp then a :: b :: l else b :: ins a l

def vec000 : Vec := [0, 0, 0]
def vec111 : Vec := [1, 1, 1]
def vec222 : Vec := [2, 2, 2]
/-- `x_i` -/
def x0 : Vec := vec111
/-- `cov_i` -/
def cov0 : Mat := [[1, 0, 0], [0, 1, 0], [0, 0, 1]]
/-- `t_i` -/
def t0 : ℚ := 3.14159
/-- A null 3x3 matrix, the initial `Rc`. -/
def zero33 : Mat := [vec000, vec000, vec000]

/-- The default parameters, filter_base.h:77-86. -/
def defaults : Params ℚ := { rewindHistory := false, historyWindow := 1, allowPast := false }
/-- With `rewind_history` set. -/
def rewinding : Params ℚ := { defaults with rewindHistory := true }

/-- `TestFilter(&system_model, x_i, cov_i, t_i)` -/
def fixture (p : Params ℚ := defaults) (sys meas : Bool := false) : Filter ℚ Vec Mat Unit Models :=
  Filter.construct testFilter p ⟨zero33, sys, meas⟩ x0 cov0 t0

/-- A sequence of calls on the fixture. -/
def calls (ops : List (Op ℚ Vec Mat Unit Models)) (f : Filter ℚ Vec Mat Unit Models := fixture) :
    Option (Filter ℚ Vec Mat Unit Models) :=
  f.run testFilter sortInputs ops

/-- `getState()` after the calls. -/
def stateAfter (ops : List (Op ℚ Vec Mat Unit Models)) (f : Filter ℚ Vec Mat Unit Models := fixture) : Option Vec :=
  (calls ops f).map Filter.getState

/-- `myUpdate` of `TestFilterSystemModel` and of `TestFilterMeasurementModel`, as the tests use them for the reference. -/
def refPredict (x u : Vec) (dt : ℚ) : Vec := List.zipWith (fun a b => a + dt * a + b) x u
def refMeasure (x : Vec) : Vec := x.map (0.9 * ·)

/-- InitializeSetsStateCoverianceAndTime -/
example : (calls [.init vec222 [[1.1, 2.2], [3.3, 4.4]] 123.45]).map
    (fun f => (f.getState, f.getCovariance, f.getStateTime)) = some (vec222, [[1.1, 2.2], [3.3, 4.4]], 123.45) := by
  decide +kernel

/-- CorrectAdvancesStateBeforeCorrecting -/
example : stateAfter [.correct vec222 cov0 (t0 + 0.2) (some ())] = some (refMeasure (refPredict x0 vec000 0.2)) := by
  decide +kernel

/-- MeasurementQueueAdvancesStateBeforeCorrecting -/
example : stateAfter [.enqueueMeasurement vec222 cov0 (t0 + 0.2) (some ()), .processQueues] =
    some (refMeasure (refPredict x0 vec000 0.2)) := by decide +kernel

/-- ControlQueueAppliedInOrder -/
example : (stateAfter [.enqueueControl vec222 (t0 + 0.3), .enqueueControl vec111 (t0 + 0.1), .enqueueControl vec111 (t0 + 0.9),
      .processQueues]) =
    stateAfter [.predictControl vec111 (t0 + 0.1), .predictControl vec222 (t0 + 0.3), .predictControl vec111 (t0 + 0.9)] ∧
    (stateAfter [.predictControl vec111 (t0 + 0.1), .predictControl vec222 (t0 + 0.3),
      .predictControl vec111 (t0 + 0.9)]).isSome := by decide +kernel

/-- MeasurementQueueAppliedInOrder -/
example : stateAfter [.enqueueMeasurement vec222 cov0 (t0 + 0.3) (some ()), .enqueueMeasurement vec111 cov0 (t0 + 0.1) (some ()),
      .enqueueMeasurement vec111 cov0 (t0 + 0.9) (some ()), .processQueues] =
    stateAfter [.correct vec111 cov0 (t0 + 0.1) (some ()), .correct vec222 cov0 (t0 + 0.3) (some ()),
      .correct vec111 cov0 (t0 + 0.9) (some ())] ∧
    (stateAfter [.correct vec111 cov0 (t0 + 0.1) (some ()), .correct vec222 cov0 (t0 + 0.3) (some ()),
      .correct vec111 cov0 (t0 + 0.9) (some ())]).isSome := by decide +kernel

/-- BothQueuesAppliedInOrder -/
example : stateAfter [.enqueueMeasurement vec222 cov0 (t0 + 0.3) (some ()), .enqueueControl vec111 (t0 + 0.9),
      .enqueueControl vec111 (t0 + 0.1), .processQueues] =
    stateAfter [.predictControl vec111 (t0 + 0.1), .correct vec222 cov0 (t0 + 0.3) (some ()), .predictControl vec111 (t0 + 0.9)] ∧
    (stateAfter [.predictControl vec111 (t0 + 0.1), .correct vec222 cov0 (t0 + 0.3) (some ()),
      .predictControl vec111 (t0 + 0.9)]).isSome := by decide +kernel

/-- PredictWithOldControlWillReApplyInputs -/
example : stateAfter [.predictControl vec222 (t0 + 0.3), .predictControl vec111 (t0 + 0.1)] (fixture rewinding) =
    stateAfter [.predictControl vec111 (t0 + 0.1), .predictControl vec222 (t0 + 0.3)] (fixture rewinding) ∧
    (stateAfter [.predictControl vec111 (t0 + 0.1), .predictControl vec222 (t0 + 0.3)] (fixture rewinding)).isSome := by
  decide +kernel

/-- CorrectWithOldMeasurementWillReApplyInputs -/
example : stateAfter [.correct vec222 cov0 (t0 + 0.3) (some ()), .correct vec111 cov0 (t0 + 0.1) (some ())] (fixture rewinding) =
    stateAfter [.correct vec111 cov0 (t0 + 0.1) (some ()), .correct vec222 cov0 (t0 + 0.3) (some ())] (fixture rewinding) ∧
    (stateAfter [.correct vec111 cov0 (t0 + 0.1) (some ()), .correct vec222 cov0 (t0 + 0.3) (some ())]
      (fixture rewinding)).isSome := by decide +kernel

/-- PredictNoControlIgnoresTimestampNotInTheFuture -/
example : stateAfter [.predictTime t0] = some x0 ∧ stateAfter [.predictTime t0, .predictTime (t0 - 0.001)] = some x0 := by
  decide +kernel

/-- PredictIgnoresTimestampInThePast -/
example : stateAfter [.predictControl vec222 (t0 - 0.001)] = some x0 := by decide +kernel

/-- MeasurementInPastIsIgnored -/
example : stateAfter [.correct vec222 cov0 (t0 - 0.001) (some ())] = some x0 := by decide +kernel

/-- MeasurementWithSameTimestampIsAccepted -/
example : ∃ x, stateAfter [.correct vec222 cov0 t0 (some ())] = some x ∧ x ≠ x0 := ⟨refMeasure x0, by decide +kernel⟩

/-- The four predictions of RevertToStateUsesStateBeforeTimestamp, of which the first `n`. -/
def four (n : Nat) : List (Op ℚ Vec Mat Unit Models) :=
  [.predictControl vec111 (t0 + 1), .predictControl vec222 (t0 + 2), .predictControl vec111 (t0 + 3),
    .predictControl vec222 (t0 + 4)].take n

/-- RevertToStateUsesStateBeforeTimestamp: `revertToState` returns true, twice, and gives the states before. -/
example : ((calls (four 4) (fixture rewinding)).bind fun f => (f.revertToState (t0 + 3)).bind fun r =>
      (r.1.revertToState (t0 + 1 + 0.001)).map fun r' => (r.2, some r.1.getState, r'.2, some r'.1.getState)) =
    some (true, stateAfter (four 2) (fixture rewinding), true, stateAfter (four 1) (fixture rewinding)) := by decide +kernel

/-- The three predictions of the last two revert tests. -/
def three : List (Op ℚ Vec Mat Unit Models) :=
  [.predictControl vec111 (t0 + 1), .predictControl vec222 (t0 + 2), .predictControl vec000 (t0 + 3)]

/-- RevertToStateFailsWithTooOldTimestamp -/
example : ((calls three).bind fun f => (f.revertToState (t0 - 0.001)).map fun r => (r.2, some r.1.getState)) =
    some (false, stateAfter three) := by decide +kernel

/-- RevertToStateDoesNothingWithFutureDatedTimestamp -/
example : ((calls three).bind fun f => (f.revertToState (t0 + 10)).map fun r => (r.2, some r.1.getState)) =
    some (true, stateAfter three) := by decide +kernel

/-- State and covariance after the calls. -/
def estimateAfter (ops : List (Op ℚ Vec Mat Unit Models)) (f : Filter ℚ Vec Mat Unit Models) : Vec × Mat :=
  ((calls ops f).map fun f => (f.getState, f.getCovariance)).getD ([], [])

/-- PredictSkippedWhenStationary: with a null control neither state nor covariance is what `makeStationary` gives, with
another control both are. -/
example : (calls [.predictControl vec000 (t0 + 1), .predictControl vec111 (t0 + 2)] (fixture defaults true)).isSome ∧
    (estimateAfter [.predictControl vec000 (t0 + 1)] (fixture defaults true)).1 ≠ (add1000 x0 cov0).1 ∧
    (estimateAfter [.predictControl vec000 (t0 + 1)] (fixture defaults true)).2 ≠ (add1000 x0 cov0).2 ∧
    estimateAfter [.predictControl vec000 (t0 + 1), .predictControl vec111 (t0 + 2)] (fixture defaults true) =
      (fun e => add1000 e.1 e.2) (estimateAfter [.predictControl vec000 (t0 + 1)] (fixture defaults true)) := by
  decide +kernel

/-- CorrectSkippedWhenStationary -/
example : (calls [.correct vec000 cov0 t0 (some ()), .correct vec111 cov0 t0 (some ())] (fixture defaults false true)).isSome ∧
    (estimateAfter [.correct vec000 cov0 t0 (some ())] (fixture defaults false true)).1 ≠ (add1000 x0 cov0).1 ∧
    (estimateAfter [.correct vec000 cov0 t0 (some ())] (fixture defaults false true)).2 ≠ (add1000 x0 cov0).2 ∧
    estimateAfter [.correct vec000 cov0 t0 (some ()), .correct vec111 cov0 t0 (some ())] (fixture defaults false true) =
      (fun e => add1000 e.1 e.2) (estimateAfter [.correct vec000 cov0 t0 (some ())] (fixture defaults false true)) := by
  decide +kernel

/-- The project's revert test passes because `pruneHistory` does not prune (C14): after its four predictions, one second
apart, the filter still holds all four earlier states although the default window is one second. -/
example : (calls (four 4) (fixture rewinding)).map (fun f => f.history.map fun s => f.getStateTime - s.timestamp) =
    some [4, 3, 2, 1] ∧ rewinding.historyWindow = 1 := by decide +kernel

end StateEstimation.Upstream
