import Verif.Model.FilterBase
import Verif.Model.Float

/-!
# The Kalman filter with one state, one control and scalar sensors, in double precision

Every operation of kalman_filter.cpp:7-17,35-51 is rounded (`roundDouble`: 53 bits, nearest even, gradual underflow), in the
order in which Eigen evaluates the products of 1x1 matrices.  Numbers are rationals that are doubles (`IsDouble`).

Simplifications: no overflow to infinity; the reciprocal of 0 and a reciprocal that underflows (a variance above 2^1022) end
the model (`none`); the models have no stationary predicate; `addVectors`/`subtractVectors` are the defaults of
filter_model.cpp:87-95.  A vector is a list of numbers (of length 0 or 1), a 1x1 matrix is a number.
-/

namespace StateEstimation
namespace ScalarKF

/-- rounded product -/
def mul (a b : ℚ) : ℚ := roundDouble (a * b)
/-- rounded sum -/
def add (a b : ℚ) : ℚ := roundDouble (a + b)
/-- rounded difference -/
def sub (a b : ℚ) : ℚ := roundDouble (a - b)

/-- `.inverse()` of a 1x1 `MatrixXd` (kalman_filter.cpp:42): Eigen's LU solver divides 1 by the pivot. -/
def recip (s : ℚ) : Option ℚ := if s = 0 ∨ 2 ^ 1022 < |s| then none else some (roundDouble (1 / s))

/-- The matrices of a `LinearSystemModel` (linear_system_model.h:44-52, system_model.h:100-110) with one state and one
control. -/
structure SysM where
  A : ℚ
  B : ℚ
  P : ℚ
  V : ℚ
  Rp : ℚ
  Rc : ℚ

/-- The matrices of a `LinearMeasurementModel` (linear_measurement_model.h:34-38, measurement_model.h:76). -/
structure MeasM where
  C : ℚ
  cov : ℚ

/-- The model objects the filter works with. -/
structure SEnv (K : Type) where
  sys : SysM
  meas : K → MeasM

/-- The user's `myUpdate` functions of the system model and the measurement models (system_model.h:95,
measurement_model.h:71). -/
structure Class (T K : Type) where
  sysUpdate : SysM → ℚ → ℚ → T → SysM
  measUpdate : K → MeasM → ℚ → T → MeasM

/-- The covariance after a prediction, kalman_filter.cpp:14-17. -/
def predictVar (s : SysM) (c : ℚ) : ℚ :=
  add (add (mul (mul s.A c) s.A) (mul (mul s.P s.Rp) s.P)) (mul (mul s.V s.Rc) s.V)

/-- `KalmanFilter::myPredict`, kalman_filter.cpp:7-17. -/
def predict (s : SysM) (x c u : ℚ) : ℚ × ℚ := (add (mul s.A x) (mul s.B u), predictVar s c)

/-- The gain, kalman_filter.cpp:41-42. -/
def gain (m : MeasM) (c : ℚ) : Option ℚ :=
  (recip (add (mul m.C (mul c m.C)) m.cov)).map fun i => mul (mul c m.C) i

/-- The new estimate from the gain, kalman_filter.cpp:45-50. -/
def apply (m : MeasM) (k x c z : ℚ) : ℚ × ℚ :=
  (add x (mul k (sub z (mul m.C x))), mul (sub 1 (mul k m.C)) c)

/-- `KalmanFilter::myCorrect`, kalman_filter.cpp:35-51. -/
def correct (m : MeasM) (x c z : ℚ) : Option (ℚ × ℚ) := (gain m c).map fun k => apply m k x c z

/-- The filter (kalman_filter.cpp) for `FilterBase`. -/
def plant {T K : Type} [DecidableEq K] (cl : Class T K) : Plant T (List ℚ) ℚ K (SEnv K) where
  vsize := List.length
  emptyV := []
  emptyM := 0
  zeroV n := List.replicate n 0
  controlSize _ := 1
  rc e := e.sys.Rc
  setRc e R := some { e with sys := { e.sys with Rc := R } }
  sysCheck _ := false
  sysIsStationary _ _ _ := false
  sysProcess e _ _ := some e
  sysMake _ x c := some (x, c)
  setMeasCov e k R := some { e with meas := fun j => if j = k then { e.meas k with cov := R } else e.meas j }
  measCheck _ _ := false
  measIsStationary _ _ _ _ := false
  measProcess e _ _ _ := some e
  measMake _ _ x c := some (x, c)
  myPredict e x c u dt :=
    match x, u with
    | [x], [u] =>
      let s := cl.sysUpdate e.sys x u dt
      some ([(predict s x c u).1], (predict s x c u).2, { e with sys := s })
    | _, _ => none
  myCorrect e x c z k dt :=
    match x, z with
    | [x], [z] =>
      let m := cl.measUpdate k (e.meas k) x dt
      (correct m x c z).map fun r => ([r.1], r.2, { e with meas := fun j => if j = k then m else e.meas j })
    | _, _ => none

end ScalarKF
end StateEstimation
