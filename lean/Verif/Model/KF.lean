import Verif.Model.Models

/-!
# `KalmanFilter` and `EKF`
-/

namespace StateEstimation

variable {T K X Y : Type}

/-- `A * cov * Aᵀ + P * Rp * Pᵀ + V * Rc * Vᵀ`: kalman_filter.cpp:14-17, ekf.cpp:12-15 (with `G` for `A`), evaluated left
to right. -/
noncomputable def propagateCov (A cov P Rp V Rc : DMat) : Option DMat := do
  let a ← A.mul cov
  let a ← a.mul A.transpose
  let b ← P.mul Rp
  let b ← b.mul P.transpose
  let d ← V.mul Rc
  let d ← d.mul V.transpose
  let s ← a.add b
  s.add d

/-- `KalmanFilter::myPredict`, kalman_filter.cpp:7-17. -/
noncomputable def kfPredict {Z : Type} (sc : SysClass T LinSysData X) (s : Sys LinSysData X) (x : DVec) (cov : DMat)
    (u : DVec) (dt : T) (back : Sys LinSysData X → Z) : Option (DVec × DMat × Z) := do
  let s ← s.update sc x u dt
  let Ax ← s.der.A.mulVec x
  let Bu ← s.der.B.mulVec u
  let x' ← sc.add s Ax Bu
  let cov' ← propagateCov s.der.A cov s.P s.Rp s.V s.Rc
  some (x', cov', back s)

/-- The gain `cov Cᵀ (C cov Cᵀ + R)⁻¹`: kalman_filter.cpp:41-42, ekf.cpp:38-39. -/
noncomputable def kalmanGain (cov C R : DMat) : Option DMat := do
  let cC ← cov.mul C.transpose
  let a ← C.mul cC
  let S ← a.add R
  let Si ← S.inverse
  cC.mul Si

/-- `(I - K * C) * cov`: kalman_filter.cpp:45-50, ekf.cpp:42-46; `I` has the size of the state. -/
noncomputable def shrinkCov (n : Nat) (K C cov : DMat) : Option DMat := do
  let a ← K.mul C
  let b ← (DMat.identity n).sub a
  b.mul cov

/-- `KalmanFilter::myCorrect`, kalman_filter.cpp:35-50. -/
noncomputable def kfCorrect {Z : Type} (sc : SysClass T LinSysData X) (mc : MeasClass T LinMeasData Y)
    (s : Sys LinSysData X) (m : Meas LinMeasData Y) (x : DVec) (cov : DMat) (z : DVec) (dt : T)
    (back : Meas LinMeasData Y → Z) : Option (DVec × DMat × Z) := do
  let m ← m.update mc x dt
  let G ← kalmanGain cov m.der.C m.cov
  let zPred ← m.der.C.mulVec x
  let dz ← mc.sub m z zPred
  let dx ← G.mulVec dz
  let x' ← sc.add s x dx
  let cov' ← shrinkCov x.size G m.der.C cov
  some (x', cov', back m)

/-- `EKF::myPredict`, ekf.cpp:7-15. -/
noncomputable def ekfPredict {Z : Type} (sc : SysClass T NonlinSysData X) (s : Sys NonlinSysData X) (x : DVec)
    (cov : DMat) (u : DVec) (dt : T) (back : Sys NonlinSysData X → Z) : Option (DVec × DMat × Z) := do
  let s ← s.update sc x u dt
  let cov' ← propagateCov s.der.G cov s.P s.Rp s.V s.Rc
  some (s.der.g, cov', back s)

/-- `EKF::myCorrect`, ekf.cpp:32-46.  The identity is sized by the state before the update (`x.rows()`). -/
noncomputable def ekfCorrect {Z : Type} (sc : SysClass T NonlinSysData X) (mc : MeasClass T NonlinMeasData Y)
    (s : Sys NonlinSysData X) (m : Meas NonlinMeasData Y) (x : DVec) (cov : DMat) (z : DVec) (dt : T)
    (back : Meas NonlinMeasData Y → Z) : Option (DVec × DMat × Z) := do
  let m ← m.update mc x dt
  let G ← kalmanGain cov m.der.H m.cov
  let dz ← mc.sub m z m.der.h
  let dx ← G.mulVec dz
  let x' ← sc.add s x dx
  let cov' ← shrinkCov x.size G m.der.H cov
  some (x', cov', back m)

/-- `KalmanFilter` (kalman_filter.h): the plant of `FilterBase<LinearSystemModel, LinearMeasurementModel>`. -/
noncomputable def kfPlant [DecidableEq K] (sc : SysClass T LinSysData X) (mc : K → MeasClass T LinMeasData Y) :
    Plant T DVec DMat K (Env K LinSysData X LinMeasData Y) :=
  mkPlant sc mc
    (fun e x cov u dt => kfPredict sc e.sys x cov u dt fun s => { e with sys := s })
    (fun e x cov z k dt => kfCorrect sc (mc k) e.sys (e.meas k) x cov z dt (e.setMeas k))

/-- `EKF` (ekf.h). -/
noncomputable def ekfPlant [DecidableEq K] (sc : SysClass T NonlinSysData X) (mc : K → MeasClass T NonlinMeasData Y) :
    Plant T DVec DMat K (Env K NonlinSysData X NonlinMeasData Y) :=
  mkPlant sc mc
    (fun e x cov u dt => ekfPredict sc e.sys x cov u dt fun s => { e with sys := s })
    (fun e x cov z k dt => ekfCorrect sc (mc k) e.sys (e.meas k) x cov z dt (e.setMeas k))

end StateEstimation
