import Verif.Model.Models

/-!
# `UKF`

The sigma point parameters are data members of the filter object; they live next to the model objects in the
environment of the plant (`mkPlantWith`), so that `setSigmaPointParameters` can be called between any two API calls.
The Cholesky factorisation `Eigen::LLT` is a parameter `llt`; what is assumed of it is `LltSpec` (Spec/Sigma.lean).
`junk` is the content of freshly allocated, uninitialised Eigen matrices.
-/

namespace StateEstimation

variable {T K X Y DS XS DM XM O Z : Type}

/-- `Eigen::MatrixXd(r, c)`: uninitialised. -/
def DMat.uninit (junk : Nat → Nat → ℝ) (r c : Nat) : DMat := ⟨r, c, fun i j => junk i j⟩

/-- Members `num_sigma_pts_`, `lambda_`, `w_mean_`, `w_cov_` of ukf.h / ukf_vs.h. -/
structure SigmaParams where
  num : Nat
  lambda : ℝ
  wMean : DVec
  wCov : DVec

/-- `setSigmaPointParameters`, ukf.cpp:18-34 with `n = g().size()` and `d = stateSize()`; ukf_vs.cpp:19-35 with
`n = d = activeStateSize()`.  Simplification: for `n + lambda = 0`, where the program's weights are infinite or NaN, the
result is `none`. -/
noncomputable def setSigma (n d : Nat) (alpha kappa beta : ℝ) : Option SigmaParams :=
  let num := 2 * d + 1
  let lambda := alpha ^ 2 * (n + kappa) - n
  if n + lambda = 0 then none
  else do
    let initW := 0.5 / (n + lambda)
    let wMean := DVec.const num initW
    let wCov := DVec.const num initW
    let wMean ← wMean.set? 0 (lambda / (n + lambda))
    let m0 ← wMean.get? 0
    let wCov ← wCov.set? 0 (m0 + 1 - alpha ^ 2 + beta)
    some ⟨num, lambda, wMean, wCov⟩

/-- `for i: acc += w(i) * a_i * b_i.transpose()` with `(a_i, b_i) = f i`: ukf.cpp:82-86, 128-131, 135-141,
ukf_vs.cpp:98-104, 163-167, 171-180. -/
noncomputable def covLoop (w : DVec) (f : Nat → Option (DVec × DVec)) : Nat → Nat → DMat → Option DMat
  | 0, _, acc => some acc
  | fuel + 1, i, acc => do
    let ab ← f i
    let wi ← w.get? i
    let acc ← acc.add (DMat.outer (ab.1.smul wi) ab.2)
    covLoop w f fuel (i + 1) acc

/-- `P * Rp * Pᵀ + V * Rc * Vᵀ`: ukf.cpp:79-81, ukf_vs.cpp:94-95. -/
noncomputable def noiseCov (P Rp V Rc : DMat) : Option DMat := do
  let b ← P.mul Rp
  let b ← b.mul P.transpose
  let d ← V.mul Rc
  let d ← d.mul V.transpose
  b.add d

/-- Sigma point loop of the prediction, ukf.cpp:59-73, from index `i` on.  `L` is `sigma_offset`, `x` the state before the
prediction. -/
noncomputable def ukfPredictLoop (sc : SysClass T NonlinSysData X) (L : DMat) (x u : DVec) (dt : T) :
    Nat → Nat → Sys NonlinSysData X → DMat → Option (Sys NonlinSysData X × DMat)
  | 0, _, s, pts => some (s, pts)
  | fuel + 1, i, s, pts => do
    let c ← L.col? i
    let xHigh ← sc.add s x c
    let s ← s.update sc xHigh u dt
    let pts ← pts.setCol? (i + 1) s.der.g
    let xLow ← sc.sub s x c
    let s ← s.update sc xLow u dt
    let pts ← pts.setCol? (i + 1 + s.stateSize) s.der.g
    ukfPredictLoop sc L x u dt fuel (i + 1) s pts

/-- `UKF::myPredict`, ukf.cpp:50-86.  Simplification: the bound of the loops is read once, `update` may not resize the
model. -/
noncomputable def ukfPredict (llt : DMat → Option DMat) (junk : Nat → Nat → ℝ) (sc : SysClass T NonlinSysData X)
    (sp : SigmaParams) (s : Sys NonlinSysData X) (x : DVec) (cov : DMat) (u : DVec) (dt : T)
    (back : Sys NonlinSysData X → Z) : Option (DVec × DMat × Z) := do
  let L ← llt (cov.smul (s.stateSize + sp.lambda))
  let pts := DMat.uninit junk s.stateSize sp.num
  let s ← s.update sc x u dt
  let pts ← pts.setCol? 0 s.der.g
  let sp' ← ukfPredictLoop sc L x u dt s.stateSize 0 s pts
  let s := sp'.1
  let pts := sp'.2
  let x' ← sc.wsum s sp.wMean pts
  let cov' ← noiseCov s.P s.Rp s.V s.Rc
  let cov' ← covLoop sp.wCov (fun i => do
    let c ← pts.col? i
    let dx ← sc.sub s c x'
    some (dx, dx)) sp.num 0 cov'
  some (x', cov', back s)

/-- Sigma point loop of the correction, ukf.cpp:107-119.  `d` is `system_model_->stateSize()`. -/
noncomputable def ukfCorrectLoop (sc : SysClass T NonlinSysData X) (mc : MeasClass T NonlinMeasData Y)
    (s : Sys NonlinSysData X) (L : DMat) (x : DVec) (dt : T) :
    Nat → Nat → Meas NonlinMeasData Y → DMat → DMat → Option (Meas NonlinMeasData Y × DMat × DMat)
  | 0, _, m, pts, obs => some (m, pts, obs)
  | fuel + 1, i, m, pts, obs => do
    let c ← L.col? i
    let xHigh ← sc.add s x c
    let pts ← pts.setCol? (i + 1) xHigh
    let p ← pts.col? (i + 1)
    let m ← m.update mc p dt
    let obs ← obs.setCol? (i + 1) m.der.h
    let xLow ← sc.sub s x c
    let pts ← pts.setCol? (i + 1 + s.stateSize) xLow
    let p ← pts.col? (i + 1 + s.stateSize)
    let m ← m.update mc p dt
    let obs ← obs.setCol? (i + 1 + s.stateSize) m.der.h
    ukfCorrectLoop sc mc s L x dt fuel (i + 1) m pts obs

/-- `UKF::myCorrect`, ukf.cpp:104-154. -/
noncomputable def ukfCorrect (llt : DMat → Option DMat) (junk : Nat → Nat → ℝ) (sc : SysClass T NonlinSysData X)
    (mc : MeasClass T NonlinMeasData Y) (sp : SigmaParams) (s : Sys NonlinSysData X) (m : Meas NonlinMeasData Y)
    (x : DVec) (cov : DMat) (z : DVec) (dt : T) (back : Meas NonlinMeasData Y → Z) : Option (DVec × DMat × Z) := do
  let L ← llt (cov.smul (s.stateSize + sp.lambda))
  let pts := DMat.uninit junk s.stateSize sp.num
  let obs := DMat.uninit junk m.measurementSize sp.num
  let pts ← pts.setCol? 0 x
  let m ← m.update mc x dt
  let obs ← obs.setCol? 0 m.der.h
  let r ← ukfCorrectLoop sc mc s L x dt s.stateSize 0 m pts obs
  let m := r.1
  let pts := r.2.1
  let obs := r.2.2
  let zPred ← mc.wsum m sp.wMean obs
  let S ← covLoop sp.wCov (fun i => do
    let c ← obs.col? i
    let dz ← mc.sub m c zPred
    some (dz, dz)) sp.num 0 m.cov
  let cross ← covLoop sp.wCov (fun i => do
    let p ← pts.col? i
    let p0 ← pts.col? 0
    let dx ← sc.sub s p p0
    let c ← obs.col? i
    let dz ← mc.sub m c zPred
    some (dx, dz)) sp.num 0 (DMat.zero m.stateSize m.measurementSize)
  let Si ← S.inverse
  let G ← cross.mul Si
  let dz ← mc.sub m z zPred
  let dx ← G.mulVec dz
  let x' ← sc.add s x dx
  let GS ← G.mul S
  let GSG ← GS.mul G.transpose
  let cov' ← cov.sub GSG
  some (x', cov', back m)

/-- A plant whose filter class has data members `O` of its own. -/
noncomputable def mkPlantWith [DecidableEq K] (sc : SysClass T DS XS) (mc : K → MeasClass T DM XM)
    (predict : O → Env K DS XS DM XM → DVec → DMat → DVec → T → Option (DVec × DMat × Env K DS XS DM XM))
    (correct : O → Env K DS XS DM XM → DVec → DMat → DVec → K → T → Option (DVec × DMat × Env K DS XS DM XM)) :
    Plant T DVec DMat K (Env K DS XS DM XM × O) :=
  let P := fun o => mkPlant sc mc (predict o) (correct o)
  { vsize := DVec.size
    emptyV := DVec.empty
    emptyM := DMat.empty
    zeroV := DVec.zero
    controlSize := fun e => (P e.2).controlSize e.1
    rc := fun e => (P e.2).rc e.1
    setRc := fun e R => ((P e.2).setRc e.1 R).map fun e' => (e', e.2)
    sysCheck := fun e => (P e.2).sysCheck e.1
    sysIsStationary := fun e => (P e.2).sysIsStationary e.1
    sysProcess := fun e x u => ((P e.2).sysProcess e.1 x u).map fun e' => (e', e.2)
    sysMake := fun e => (P e.2).sysMake e.1
    setMeasCov := fun e k R => ((P e.2).setMeasCov e.1 k R).map fun e' => (e', e.2)
    measCheck := fun e k => (P e.2).measCheck e.1 k
    measIsStationary := fun e k => (P e.2).measIsStationary e.1 k
    measProcess := fun e k x z => ((P e.2).measProcess e.1 k x z).map fun e' => (e', e.2)
    measMake := fun e k => (P e.2).measMake e.1 k
    myPredict := fun e x c u dt => ((P e.2).myPredict e.1 x c u dt).map fun r => (r.1, r.2.1, r.2.2, e.2)
    myCorrect := fun e x c z k dt => ((P e.2).myCorrect e.1 x c z k dt).map fun r => (r.1, r.2.1, r.2.2, e.2) }

/-- `UKF` (ukf.h). -/
noncomputable def ukfPlant [DecidableEq K] (llt : DMat → Option DMat) (junk : Nat → Nat → ℝ)
    (sc : SysClass T NonlinSysData X) (mc : K → MeasClass T NonlinMeasData Y) :
    Plant T DVec DMat K (Env K NonlinSysData X NonlinMeasData Y × SigmaParams) :=
  mkPlantWith sc mc
    (fun sp e x cov u dt => ukfPredict llt junk sc sp e.sys x cov u dt fun s => { e with sys := s })
    (fun sp e x cov z k dt => ukfCorrect llt junk sc (mc k) sp e.sys (e.meas k) x cov z dt (e.setMeas k))

/-- `UKF::setSigmaPointParameters(alpha, kappa, beta)`, ukf.cpp:18-34, as a change to the filter's environment. -/
noncomputable def ukfSetSigma (alpha kappa beta : ℝ) (e : Env K NonlinSysData X DM XM × SigmaParams) :
    Option (Env K NonlinSysData X DM XM × SigmaParams) :=
  (setSigma e.1.sys.der.g.size e.1.sys.stateSize alpha kappa beta).map fun sp => (e.1, sp)

/-- `UKF::initializeSigmaPointParameters`, ukf.cpp:46-48. -/
noncomputable def ukfInitSigma (e : Env K NonlinSysData X DM XM) : Option SigmaParams :=
  setSigma e.sys.der.g.size e.sys.stateSize 0.001 0 2

end StateEstimation
