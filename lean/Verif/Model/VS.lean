import Verif.Model.KF
import Verif.Model.UKF
import Verif.Model.Subset

/-!
# The variable-state filters `KalmanFilterVS`, `EKFVS`, `UKFVS`
-/

namespace StateEstimation

variable {T K X Y Z : Type}

/-- `KalmanFilterVS::myPredict`, kalman_filter_vs.cpp:8-41. -/
noncomputable def kfvsPredict (sc : SysClass T LinSysData X) (s : Sys LinSysData X) (x : DVec) (cov : DMat)
    (u : DVec) (dt : T) (back : Sys LinSysData X → Z) : Option (DVec × DMat × Z) := do
  let s ← s.update sc x u dt
  let xS ← getSubset x s.activeStates
  let uS ← getSubset u s.activeControls
  let covS ← getSubsetSq cov s.activeStates
  let AS ← getSubsetSq s.der.A s.activeStates
  let BS ← getSubset2 s.der.B s.activeStates s.activeControls
  let RcS ← getSubsetSq s.Rc s.activeControls
  let PS ← getSubset2 s.P s.activeStates []
  let VS ← getSubset2 s.V s.activeStates s.activeControls
  let Ax ← AS.mulVec xS
  let Bu ← BS.mulVec uS
  let AxFull ← convertSubsetToFullZeroed Ax s.activeStates s.stateSize
  let BuFull ← convertSubsetToFullZeroed Bu s.activeStates s.stateSize
  let x' ← sc.add s AxFull BuFull
  let covS' ← propagateCov AS covS PS s.Rp VS RcS
  let cov' ← convertSubsetToFullSq covS' cov s.activeStates
  some (x', cov', back s)

/-- `KalmanFilterVS::myCorrect`, kalman_filter_vs.cpp:59-93. -/
noncomputable def kfvsCorrect (sc : SysClass T LinSysData X) (mc : MeasClass T LinMeasData Y)
    (s : Sys LinSysData X) (m : Meas LinMeasData Y) (x : DVec) (cov : DMat) (z : DVec) (dt : T)
    (back : Meas LinMeasData Y → Z) : Option (DVec × DMat × Z) := do
  let m ← m.update mc x dt
  let xS ← getSubset x s.activeStates
  let covS ← getSubsetSq cov s.activeStates
  let CS ← getSubset2 m.der.C m.activeMeasurements s.activeStates
  let RS ← getSubsetSq m.cov m.activeMeasurements
  let G ← kalmanGain covS CS RS
  let zS ← CS.mulVec xS
  let zFull ← convertSubsetToFullZeroed zS m.activeMeasurements m.measurementSize
  let dzFull ← mc.sub m z zFull
  let dzS ← getSubset dzFull m.activeMeasurements
  let dxS ← G.mulVec dzS
  let dxFull ← convertSubsetToFullZeroed dxS s.activeStates s.stateSize
  let x' ← sc.add s x dxFull
  let covS' ← shrinkCov covS.rows G CS covS
  let cov' ← convertSubsetToFullSq covS' cov s.activeStates
  some (x', cov', back m)

/-- `EKFVS::myPredict`, ekf_vs.cpp:8-29. -/
noncomputable def ekfvsPredict (sc : SysClass T NonlinSysData X) (s : Sys NonlinSysData X) (x : DVec)
    (cov : DMat) (u : DVec) (dt : T) (back : Sys NonlinSysData X → Z) : Option (DVec × DMat × Z) := do
  let s ← s.update sc x u dt
  let covS ← getSubsetSq cov s.activeStates
  let GS ← getSubsetSq s.der.G s.activeStates
  let RcS ← getSubsetSq s.Rc s.activeControls
  let PS ← getSubset2 s.P s.activeStates []
  let VS ← getSubset2 s.V s.activeStates s.activeControls
  let covS' ← propagateCov GS covS PS s.Rp VS RcS
  let cov' ← convertSubsetToFullSq covS' cov s.activeStates
  some (s.der.g, cov', back s)

/-- `EKFVS::myCorrect`, ekf_vs.cpp:46-76. -/
noncomputable def ekfvsCorrect (sc : SysClass T NonlinSysData X) (mc : MeasClass T NonlinMeasData Y)
    (s : Sys NonlinSysData X) (m : Meas NonlinMeasData Y) (x : DVec) (cov : DMat) (z : DVec) (dt : T)
    (back : Meas NonlinMeasData Y → Z) : Option (DVec × DMat × Z) := do
  let m ← m.update mc x dt
  let covS ← getSubsetSq cov s.activeStates
  let HS ← getSubset2 m.der.H m.activeMeasurements s.activeStates
  let RS ← getSubsetSq m.cov m.activeMeasurements
  let G ← kalmanGain covS HS RS
  let dzFull ← mc.sub m z m.der.h
  let dzS ← getSubset dzFull m.activeMeasurements
  let dxS ← G.mulVec dzS
  let dxFull ← convertSubsetToFullZeroed dxS s.activeStates s.stateSize
  let x' ← sc.add s x dxFull
  let covS' ← shrinkCov covS.rows G HS covS
  let cov' ← convertSubsetToFullSq covS' cov s.activeStates
  some (x', cov', back m)

/-- Sigma point loop of the prediction, ukf_vs.cpp:71-84, from index `i` on.  `L` is `sigma_offset_subset`, `a` is
`activeStateSize()`, `offset` survives from one iteration to the next. -/
noncomputable def ukfvsPredictLoop (sc : SysClass T NonlinSysData X) (L : DMat) (x u : DVec) (dt : T) (a : Nat) :
    Nat → Nat → DVec → Sys NonlinSysData X → DMat → Option (Sys NonlinSysData X × DMat)
  | 0, _, _, s, pts => some (s, pts)
  | fuel + 1, i, offset, s, pts => do
    let c ← L.col? i
    let offset ← convertSubsetToFull c offset s.activeStates
    let xHigh ← sc.add s x offset
    let s ← s.update sc xHigh u dt
    let pts ← pts.setCol? (i + 1) s.der.g
    let xLow ← sc.sub s x offset
    let s ← s.update sc xLow u dt
    let pts ← pts.setCol? (i + 1 + a) s.der.g
    ukfvsPredictLoop sc L x u dt a fuel (i + 1) offset s pts

/-- `UKFVS::myPredict`, ukf_vs.cpp:51-110.  Simplification: the loop bound `activeStateSize()` is read once (before the
first update). -/
noncomputable def ukfvsPredict (llt : DMat → Option DMat) (junk : Nat → Nat → ℝ) (sc : SysClass T NonlinSysData X)
    (sp : SigmaParams) (s : Sys NonlinSysData X) (x : DVec) (cov : DMat) (u : DVec) (dt : T)
    (back : Sys NonlinSysData X → Z) : Option (DVec × DMat × Z) := do
  let a := s.activeStateSize
  let covS ← getSubset2 cov s.activeStates s.activeStates
  let L ← llt (covS.smul (a + sp.lambda))
  let pts := DMat.uninit junk s.stateSize sp.num
  let s ← s.update sc x u dt
  let pts ← pts.setCol? 0 s.der.g
  let r ← ukfvsPredictLoop sc L x u dt a a 0 (DVec.zero s.stateSize) s pts
  let s := r.1
  let pts := r.2
  let x' ← sc.wsum s sp.wMean pts
  let RcS ← getSubsetSq s.Rc s.activeControls
  let PS ← getSubset2 s.P s.activeStates []
  let VS ← getSubset2 s.V s.activeStates s.activeControls
  let covS' ← noiseCov PS s.Rp VS RcS
  let covS' ← covLoop sp.wCov (fun i => do
    let c ← pts.col? i
    let dx ← sc.sub s c x'
    let dxS ← getSubset dx s.activeStates
    some (dxS, dxS)) sp.num 0 covS'
  let cov' ← convertSubsetToFullSq covS' cov s.activeStates
  some (x', cov', back s)

/-- Sigma point loop of the correction, ukf_vs.cpp:155-168. -/
noncomputable def ukfvsCorrectLoop (sc : SysClass T NonlinSysData X) (mc : MeasClass T NonlinMeasData Y)
    (s : Sys NonlinSysData X) (L : DMat) (x : DVec) (dt : T) :
    Nat → Nat → DVec → Meas NonlinMeasData Y → DMat → DMat → Option (Meas NonlinMeasData Y × DMat × DMat)
  | 0, _, _, m, pts, obs => some (m, pts, obs)
  | fuel + 1, i, offset, m, pts, obs => do
    let c ← L.col? i
    let offset ← convertSubsetToFull c offset s.activeStates
    let xHigh ← sc.add s x offset
    let pts ← pts.setCol? (i + 1) xHigh
    let p ← pts.col? (i + 1)
    let m ← m.update mc p dt
    let obs ← obs.setCol? (i + 1) m.der.h
    let xLow ← sc.sub s x offset
    let pts ← pts.setCol? (i + 1 + s.activeStateSize) xLow
    let p ← pts.col? (i + 1 + s.activeStateSize)
    let m ← m.update mc p dt
    let obs ← obs.setCol? (i + 1 + s.activeStateSize) m.der.h
    ukfvsCorrectLoop sc mc s L x dt fuel (i + 1) offset m pts obs

/-- `UKFVS::myCorrect`, ukf_vs.cpp:132-206. -/
noncomputable def ukfvsCorrect (llt : DMat → Option DMat) (junk : Nat → Nat → ℝ) (sc : SysClass T NonlinSysData X)
    (mc : MeasClass T NonlinMeasData Y) (sp : SigmaParams) (s : Sys NonlinSysData X) (m : Meas NonlinMeasData Y)
    (x : DVec) (cov : DMat) (z : DVec) (dt : T) (back : Meas NonlinMeasData Y → Z) : Option (DVec × DMat × Z) := do
  let covS ← getSubsetSq cov s.activeStates
  let L ← llt (covS.smul (s.activeStateSize + sp.lambda))
  let pts := DMat.uninit junk s.stateSize sp.num
  let obs := DMat.uninit junk m.measurementSize sp.num
  let pts ← pts.setCol? 0 x
  let m ← m.update mc x dt
  let obs ← obs.setCol? 0 m.der.h
  let r ← ukfvsCorrectLoop sc mc s L x dt s.activeStateSize 0 (DVec.zero s.stateSize) m pts obs
  let m := r.1
  let pts := r.2.1
  let obs := r.2.2
  let zPred ← mc.wsum m sp.wMean obs
  let RS ← getSubsetSq m.cov m.activeMeasurements
  let S ← covLoop sp.wCov (fun i => do
    let c ← obs.col? i
    let dz ← mc.sub m c zPred
    let dzS ← getSubset dz m.activeMeasurements
    some (dzS, dzS)) sp.num 0 RS
  let cross ← covLoop sp.wCov (fun i => do
    let p ← pts.col? i
    let p0 ← pts.col? 0
    let dx ← sc.sub s p p0
    let dxS ← getSubset dx s.activeStates
    let c ← obs.col? i
    let dz ← mc.sub m c zPred
    let dzS ← getSubset dz m.activeMeasurements
    some (dxS, dzS)) sp.num 0 (DMat.zero s.activeStateSize m.activeMeasurementSize)
  let Si ← S.inverse
  let G ← cross.mul Si
  let dz ← mc.sub m z zPred
  let dzS ← getSubset dz m.activeMeasurements
  let dxS ← G.mulVec dzS
  let dxFull ← convertSubsetToFullZeroed dxS s.activeStates s.stateSize
  let x' ← sc.add s x dxFull
  let GS ← G.mul S
  let GSG ← GS.mul G.transpose
  let covS' ← covS.sub GSG
  let cov' ← convertSubsetToFullSq covS' cov s.activeStates
  some (x', cov', back m)

/-- `KalmanFilterVS` (kalman_filter_vs.h). -/
noncomputable def kfvsPlant [DecidableEq K] (sc : SysClass T LinSysData X) (mc : K → MeasClass T LinMeasData Y) :
    Plant T DVec DMat K (Env K LinSysData X LinMeasData Y) :=
  mkPlant sc mc
    (fun e x cov u dt => kfvsPredict sc e.sys x cov u dt fun s => { e with sys := s })
    (fun e x cov z k dt => kfvsCorrect sc (mc k) e.sys (e.meas k) x cov z dt (e.setMeas k))

/-- `EKFVS` (ekf_vs.h). -/
noncomputable def ekfvsPlant [DecidableEq K] (sc : SysClass T NonlinSysData X) (mc : K → MeasClass T NonlinMeasData Y) :
    Plant T DVec DMat K (Env K NonlinSysData X NonlinMeasData Y) :=
  mkPlant sc mc
    (fun e x cov u dt => ekfvsPredict sc e.sys x cov u dt fun s => { e with sys := s })
    (fun e x cov z k dt => ekfvsCorrect sc (mc k) e.sys (e.meas k) x cov z dt (e.setMeas k))

/-- `UKFVS` (ukf_vs.h). -/
noncomputable def ukfvsPlant [DecidableEq K] (llt : DMat → Option DMat) (junk : Nat → Nat → ℝ)
    (sc : SysClass T NonlinSysData X) (mc : K → MeasClass T NonlinMeasData Y) :
    Plant T DVec DMat K (Env K NonlinSysData X NonlinMeasData Y × SigmaParams) :=
  mkPlantWith sc mc
    (fun sp e x cov u dt => ukfvsPredict llt junk sc sp e.sys x cov u dt fun s => { e with sys := s })
    (fun sp e x cov z k dt => ukfvsCorrect llt junk sc (mc k) sp e.sys (e.meas k) x cov z dt (e.setMeas k))

/-- `UKFVS::setSigmaPointParameters`, ukf_vs.cpp:19-35: sized by the states that are active at the time of the call. -/
noncomputable def ukfvsSetSigma {DM XM : Type} (alpha kappa beta : ℝ) (e : Env K NonlinSysData X DM XM × SigmaParams) :
    Option (Env K NonlinSysData X DM XM × SigmaParams) :=
  (setSigma e.1.sys.activeStateSize e.1.sys.activeStateSize alpha kappa beta).map fun sp => (e.1, sp)

/-- `UKFVS::initializeSigmaPointParameters`, ukf_vs.cpp:47-49, called by the constructors only. -/
noncomputable def ukfvsInitSigma {DM XM : Type} (e : Env K NonlinSysData X DM XM) : Option SigmaParams :=
  setSigma e.sys.activeStateSize e.sys.activeStateSize 0.001 0 2

end StateEstimation
