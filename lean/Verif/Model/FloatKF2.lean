import Verif.Model.FloatKF

/-!
# The Kalman filter with two states, one control and scalar sensors, in double precision

As `Model/FloatKF`, with two states: every sum and product of kalman_filter.cpp:7-17,35-51 is rounded.  A product of 2x2 matrices
has sums of two products, so the order in which Eigen adds them does not matter.

Simplifications: those of `Model/FloatKF`; no fused multiply-add (the build files ask for none); products with the entries of the
identity matrix are computed like any other.  Vectors and matrices are lists of numbers (matrices row by row).
-/

namespace StateEstimation
namespace PairKF

open ScalarKF (mul add sub recip)

/-- A 2x2 matrix `[a b; c d]`. -/
structure M2 where
  a : ℚ
  b : ℚ
  c : ℚ
  d : ℚ
  deriving DecidableEq

/-- A vector or column of two numbers. -/
structure V2 where
  x : ℚ
  y : ℚ
  deriving DecidableEq

/-- `M * N`. -/
def M2.mul (M N : M2) : M2 :=
  ⟨add (ScalarKF.mul M.a N.a) (ScalarKF.mul M.b N.c), add (ScalarKF.mul M.a N.b) (ScalarKF.mul M.b N.d),
   add (ScalarKF.mul M.c N.a) (ScalarKF.mul M.d N.c), add (ScalarKF.mul M.c N.b) (ScalarKF.mul M.d N.d)⟩
/-- `M.transpose()`. -/
def M2.tr (M : M2) : M2 := ⟨M.a, M.c, M.b, M.d⟩
/-- `M + N`. -/
def M2.add (M N : M2) : M2 := ⟨ScalarKF.add M.a N.a, ScalarKF.add M.b N.b, ScalarKF.add M.c N.c, ScalarKF.add M.d N.d⟩
/-- `M - N`. -/
def M2.sub (M N : M2) : M2 := ⟨ScalarKF.sub M.a N.a, ScalarKF.sub M.b N.b, ScalarKF.sub M.c N.c, ScalarKF.sub M.d N.d⟩
/-- `M * v`. -/
def M2.mulVec (M : M2) (v : V2) : V2 :=
  ⟨ScalarKF.add (ScalarKF.mul M.a v.x) (ScalarKF.mul M.b v.y), ScalarKF.add (ScalarKF.mul M.c v.x) (ScalarKF.mul M.d v.y)⟩
/-- `v * r` (column times 1x1). -/
def V2.scale (v : V2) (r : ℚ) : V2 := ⟨mul v.x r, mul v.y r⟩
/-- `v * w.transpose()`. -/
def V2.outer (v w : V2) : M2 := ⟨mul v.x w.x, mul v.x w.y, mul v.y w.x, mul v.y w.y⟩
/-- `v.transpose() * w`. -/
def V2.dot (v w : V2) : ℚ := ScalarKF.add (mul v.x w.x) (mul v.y w.y)
/-- `v + w`. -/
def V2.add (v w : V2) : V2 := ⟨ScalarKF.add v.x w.x, ScalarKF.add v.y w.y⟩
/-- `MatrixXd::Identity(2, 2)`. -/
def M2.one : M2 := ⟨1, 0, 0, 1⟩

/-- The matrices of a `LinearSystemModel` (linear_system_model.h:44-52, system_model.h:100-110) with two states, one control and
two process noise components. -/
structure SysM where
  A : M2
  B : V2
  P : M2
  V : V2
  Rp : M2
  Rc : ℚ

/-- The matrices of a `LinearMeasurementModel` (linear_measurement_model.h:34-38, measurement_model.h:76): `C` is a row. -/
structure MeasM where
  C : V2
  cov : ℚ

/-- The model objects the filter works with. -/
structure SEnv (K : Type) where
  sys : SysM
  meas : K → MeasM

/-- The user's `myUpdate` functions of the system model and the measurement models (system_model.h:95,
measurement_model.h:71). -/
structure Class (T K : Type) where
  sysUpdate : SysM → V2 → ℚ → T → SysM
  measUpdate : K → MeasM → V2 → T → MeasM

/-- The covariance after a prediction, kalman_filter.cpp:14-17. -/
def predictCov (s : SysM) (c : M2) : M2 :=
  (((s.A.mul c).mul s.A.tr).add ((s.P.mul s.Rp).mul s.P.tr)).add ((s.V.scale s.Rc).outer s.V)

/-- `KalmanFilter::myPredict`, kalman_filter.cpp:7-17. -/
def predict (s : SysM) (x : V2) (c : M2) (u : ℚ) : V2 × M2 := ((s.A.mulVec x).add (s.B.scale u), predictCov s c)

/-- The gain, kalman_filter.cpp:41-42. -/
def gain (m : MeasM) (c : M2) : Option V2 :=
  (recip (add (m.C.dot (c.mulVec m.C)) m.cov)).map fun i => (c.mulVec m.C).scale i

/-- The new covariance, kalman_filter.cpp:45-46,50. -/
def shrink (m : MeasM) (k : V2) (c : M2) : M2 := (M2.one.sub (k.outer m.C)).mul c

/-- `KalmanFilter::myCorrect`, kalman_filter.cpp:35-51. -/
def correct (m : MeasM) (x : V2) (c : M2) (z : ℚ) : Option (V2 × M2) :=
  (gain m c).map fun k => (x.add (k.scale (sub z (m.C.dot x))), shrink m k c)

/-- The filter (kalman_filter.cpp) for `FilterBase`. -/
def plant {T K : Type} [DecidableEq K] (cl : Class T K) : Plant T (List ℚ) (List ℚ) K (SEnv K) where
  vsize := List.length
  emptyV := []
  emptyM := []
  zeroV n := List.replicate n 0
  controlSize _ := 1
  rc e := [e.sys.Rc]
  setRc e R :=
    match R with
    | [R] => some { e with sys := { e.sys with Rc := R } }
    | _ => none
  sysCheck _ := false
  sysIsStationary _ _ _ := false
  sysProcess e _ _ := some e
  sysMake _ x c := some (x, c)
  setMeasCov e k R :=
    match R with
    | [R] => some { e with meas := fun j => if j = k then { e.meas k with cov := R } else e.meas j }
    | _ => none
  measCheck _ _ := false
  measIsStationary _ _ _ _ := false
  measProcess e _ _ _ := some e
  measMake _ _ x c := some (x, c)
  myPredict e x c u dt :=
    match x, c, u with
    | [x1, x2], [a, b, c, d], [u] =>
      let s := cl.sysUpdate e.sys ⟨x1, x2⟩ u dt
      let r := predict s ⟨x1, x2⟩ ⟨a, b, c, d⟩ u
      some ([r.1.x, r.1.y], [r.2.a, r.2.b, r.2.c, r.2.d], { e with sys := s })
    | _, _, _ => none
  myCorrect e x c z k dt :=
    match x, c, z with
    | [x1, x2], [a, b, c, d], [z] =>
      let m := cl.measUpdate k (e.meas k) ⟨x1, x2⟩ dt
      (correct m ⟨x1, x2⟩ ⟨a, b, c, d⟩ z).map fun r =>
        ([r.1.x, r.1.y], [r.2.a, r.2.b, r.2.c, r.2.d], { e with meas := fun j => if j = k then m else e.meas j })
    | _, _, _ => none

end PairKF
end StateEstimation
