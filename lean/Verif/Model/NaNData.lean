import Verif.Model.NaN
import Verif.Model.KF

/-!
# The Kalman filter on vectors that may contain NaN

The numbers a caller hands to `predict` and `correct` are doubles (filter_base.h:121-139), so a sensor driver can pass a
NaN.  Nothing in filter_base.hpp, kalman_filter.cpp or measurement_model.cpp tests for one.  States, controls and measurements
have entries that are real numbers or NaN, with the IEEE rules for NaN (every sum and product with one is NaN, also `0 * NaN`).

Simplifications: covariances and model matrices contain no NaN; arithmetic is otherwise exact (no overflow); a user's
`myUpdate` sees 0 in place of a NaN (the theorems are about models whose matrices do not depend on the numbers in state and
control, for which this makes no difference); `addVectors`/`subtractVectors` are the defaults of filter_model.cpp:87-95.
-/

namespace StateEstimation

/-- IEEE sum -/
noncomputable def nadd : WithNaN ℝ → WithNaN ℝ → WithNaN ℝ
  | .num a, .num b => .num (a + b)
  | _, _ => .nan
/-- IEEE difference -/
noncomputable def nsub : WithNaN ℝ → WithNaN ℝ → WithNaN ℝ
  | .num a, .num b => .num (a - b)
  | _, _ => .nan
/-- IEEE product -/
noncomputable def nmul : WithNaN ℝ → WithNaN ℝ → WithNaN ℝ
  | .num a, .num b => .num (a * b)
  | _, _ => .nan

/-- `Eigen::VectorXd` whose entries may be NaN. -/
structure NVec where
  size : Nat
  val : Fin size → WithNaN ℝ

namespace NVec

/-- wrap -/
abbrev of {n : Nat} (v : Fin n → WithNaN ℝ) : NVec := ⟨n, v⟩
/-- `Eigen::VectorXd()`. -/
def empty : NVec := ⟨0, fun _ => .num 0⟩
/-- `Eigen::VectorXd::Zero(n)`. -/
def zero (n : Nat) : NVec := ⟨n, fun _ => .num 0⟩

/-- `a + b`. -/
noncomputable def add (a b : NVec) : Option NVec :=
  if h : a.size = b.size then some ⟨a.size, fun i => nadd (a.val i) (b.val (Fin.cast h i))⟩ else none

/-- `a - b`. -/
noncomputable def sub (a b : NVec) : Option NVec :=
  if h : a.size = b.size then some ⟨a.size, fun i => nsub (a.val i) (b.val (Fin.cast h i))⟩ else none

/-- the vector with 0 in place of every NaN (only ever given to model code whose result does not depend on it) -/
noncomputable def known (a : NVec) : DVec :=
  ⟨a.size, fun i => match a.val i with | .num r => r | .nan => 0⟩

end NVec

/-- one entry of a matrix-vector product: the products are added up one after the other -/
noncomputable def ndot : {n : Nat} → (Fin n → ℝ) → (Fin n → WithNaN ℝ) → WithNaN ℝ
  | 0, _, _ => .num 0
  | _ + 1, a, v => nadd (nmul (.num (a 0)) (v 0)) (ndot (fun j => a j.succ) (fun j => v j.succ))

/-- `A * v`. -/
noncomputable def DMat.mulNVec (A : DMat) (v : NVec) : Option NVec :=
  if h : A.cols = v.size then some ⟨A.rows, fun i => ndot (A.val i) (fun j => v.val (Fin.cast h j))⟩ else none

variable {T K X Y : Type}

/-- `update(x, u, dt)`, system_model.cpp:17-21. -/
noncomputable def Sys.updateN (s : Sys LinSysData X) (c : SysClass T LinSysData X) (x u : NVec) (dt : T) :
    Option (Sys LinSysData X) :=
  s.update c x.known u.known dt

/-- `update(x, dt)`, measurement_model.cpp:14-17. -/
noncomputable def Meas.updateN (m : Meas LinMeasData Y) (c : MeasClass T LinMeasData Y) (x : NVec) (dt : T) :
    Option (Meas LinMeasData Y) :=
  m.update c x.known dt

/-- `KalmanFilter::myPredict`, kalman_filter.cpp:7-17. -/
noncomputable def kfPredictN {Z : Type} (sc : SysClass T LinSysData X) (s : Sys LinSysData X) (x : NVec) (cov : DMat)
    (u : NVec) (dt : T) (back : Sys LinSysData X → Z) : Option (NVec × DMat × Z) := do
  let s ← s.updateN sc x u dt
  let Ax ← s.der.A.mulNVec x
  let Bu ← s.der.B.mulNVec u
  let x' ← Ax.add Bu
  let cov' ← propagateCov s.der.A cov s.P s.Rp s.V s.Rc
  some (x', cov', back s)

/-- `KalmanFilter::myCorrect`, kalman_filter.cpp:35-50. -/
noncomputable def kfCorrectN {Z : Type} (mc : MeasClass T LinMeasData Y)
    (m : Meas LinMeasData Y) (x : NVec) (cov : DMat) (z : NVec) (dt : T)
    (back : Meas LinMeasData Y → Z) : Option (NVec × DMat × Z) := do
  let m ← m.updateN mc x dt
  let G ← kalmanGain cov m.der.C m.cov
  let zPred ← m.der.C.mulNVec x
  let dz ← z.sub zPred
  let dx ← G.mulNVec dz
  let x' ← x.add dx
  let cov' ← shrinkCov x.size G m.der.C cov
  some (x', cov', back m)

/-- `KalmanFilter` (kalman_filter.h) on such vectors; the other callbacks as in `mkPlant`. -/
noncomputable def kfPlantN [DecidableEq K] (sc : SysClass T LinSysData X) (mc : K → MeasClass T LinMeasData Y) :
    Plant T NVec DMat K (Env K LinSysData X LinMeasData Y) where
  vsize := NVec.size
  emptyV := NVec.empty
  emptyM := DMat.empty
  zeroV := NVec.zero
  controlSize e := e.sys.controlDims
  rc e := e.sys.Rc
  setRc e R := (e.sys.setControlCovariance R).map fun s => { e with sys := s }
  sysCheck e := e.sys.fm.checkStationary
  sysIsStationary e x u := e.sys.fm.isStationary x.known u.known
  sysProcess e x u := (sc.processStationary e.sys x.known u.known).map fun s => { e with sys := s }
  sysMake _ x c := some (x, c)
  setMeasCov e k R := ((e.meas k).setCovariance R).map (e.setMeas k)
  measCheck e k := (e.meas k).fm.checkStationary
  measIsStationary e k x z := (e.meas k).fm.isStationary x.known z.known
  measProcess e k x z := ((mc k).processStationary (e.meas k) x.known z.known).map (e.setMeas k)
  measMake _ _ x c := some (x, c)
  myPredict e x cov u dt := kfPredictN sc e.sys x cov u dt fun s => { e with sys := s }
  myCorrect e x cov z k dt := kfCorrectN (mc k) (e.meas k) x cov z dt (e.setMeas k)

end StateEstimation
