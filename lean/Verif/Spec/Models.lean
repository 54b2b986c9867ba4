import Verif.Model.Models
import Mathlib.LinearAlgebra.Matrix.PosDef

/-!
# Specification vocabulary for the numeric properties

What "a well-formed model", "positive semidefinite" and "a well-formed estimate" mean.
-/

namespace StateEstimation

/-- A square symmetric matrix with `vᵀ A v ≥ 0` for every `v`. -/
def DMat.PSD (A : DMat) : Prop :=
  ∃ h : A.rows = A.cols, (A.val.submatrix id (Fin.cast h)).PosSemidef

/-- A square symmetric matrix with `vᵀ A v > 0` for every `v ≠ 0`. -/
def DMat.PD (A : DMat) : Prop :=
  ∃ h : A.rows = A.cols, (A.val.submatrix id (Fin.cast h)).PosDef

/-- `r × c`. -/
def DMat.Is (A : DMat) (r c : Nat) : Prop := A.rows = r ∧ A.cols = c

/-- `A_` is `n × n` and `B_` is `n × m`. -/
def LinSysData.Sized (n m : Nat) (d : LinSysData) : Prop := d.A.Is n n ∧ d.B.Is n m
/-- `x_pred_` has `n` entries and `G_` is `n × n`. -/
def NonlinSysData.Sized (n _m : Nat) (d : NonlinSysData) : Prop := d.g.size = n ∧ d.G.Is n n
/-- `C_` is `k × n`. -/
def LinMeasData.Sized (n k : Nat) (d : LinMeasData) : Prop := d.C.Is k n
/-- `z_pred_` has `k` entries and `H_` is `k × n`. -/
def NonlinMeasData.Sized (n k : Nat) (d : NonlinMeasData) : Prop := d.h.size = k ∧ d.H.Is k n

/-- A system model with `n` states and `m` controls whose matrices all have the advertised sizes (`dz` says it of the
linear or nonlinear part). -/
structure Sys.Sized {D X : Type} (dz : Nat → Nat → D → Prop) (n m : Nat) (s : Sys D X) : Prop where
  states : s.stateSize = n
  controls : s.controlDims = m
  der : dz n m s.der
  P : s.P.Is n s.Rp.rows
  Rp : s.Rp.Is s.Rp.rows s.Rp.rows
  V : s.V.Is n m
  Rc : s.Rc.Is m m

/-- A measurement model for `n` states with `k` measurements. -/
structure Meas.Sized {D X : Type} (dz : Nat → Nat → D → Prop) (n k : Nat) (s : Meas D X) : Prop where
  states : s.stateSize = n
  meas : s.measDims = k
  der : dz n k s.der
  cov : s.cov.Is k k

/-- `update` may change everything the subclass computes, but not the configuration. -/
structure Sys.SameConfig {D X : Type} (s s' : Sys D X) : Prop where
  fm : s'.fm = s.fm
  controlDims : s'.controlDims = s.controlDims
  activeControls : s'.activeControls = s.activeControls
  Rp : s'.Rp = s.Rp
  Rc : s'.Rc = s.Rc

/-- Same for measurement models. -/
structure Meas.SameConfig {D X : Type} (s s' : Meas D X) : Prop where
  fm : s'.fm = s.fm
  measDims : s'.measDims = s.measDims
  activeMeasurements : s'.activeMeasurements = s.activeMeasurements
  cov : s'.cov = s.cov

/-- The contract of a user's system model class: on a well-formed object and arguments of the right size, `myUpdate` and
`processStationaryInput` succeed, leave a well-formed object and do not touch the configuration; `addVectors`,
`subtractVectors` and `weightedSum` map state vectors to state vectors. -/
structure SysContract {T D X : Type} (dz : Nat → Nat → D → Prop) (c : SysClass T D X) : Prop where
  update : ∀ {n m} (s : Sys D X) x u dt, s.Sized dz n m → x.size = n → u.size = m →
    ∃ s', c.myUpdate s x u dt = some s' ∧ s'.Sized dz n m ∧ s.SameConfig s'
  add : ∀ {n m} (s : Sys D X) a b, s.Sized dz n m → a.size = n → b.size = n → ∃ r, c.add s a b = some r ∧ r.size = n
  sub : ∀ {n m} (s : Sys D X) a b, s.Sized dz n m → a.size = n → b.size = n → ∃ r, c.sub s a b = some r ∧ r.size = n
  wsum : ∀ {n m} (s : Sys D X) w A, s.Sized dz n m → A.Is n w.size → ∃ r, c.wsum s w A = some r ∧ r.size = n
  stationary : ∀ {n m} (s : Sys D X) x u, s.Sized dz n m → x.size = n → (u.size = m ∨ u.size = 0) →
    ∃ s', c.processStationary s x u = some s' ∧ s'.Sized dz n m ∧ s.SameConfig s'

/-- The contract of a user's measurement model class. -/
structure MeasContract {T D X : Type} (dz : Nat → Nat → D → Prop) (c : MeasClass T D X) : Prop where
  update : ∀ {n k} (s : Meas D X) x dt, s.Sized dz n k → x.size = n →
    ∃ s', c.myUpdate s x dt = some s' ∧ s'.Sized dz n k ∧ s.SameConfig s'
  sub : ∀ {n k} (s : Meas D X) a b, s.Sized dz n k → a.size = k → b.size = k → ∃ r, c.sub s a b = some r ∧ r.size = k
  wsum : ∀ {n k} (s : Meas D X) w A, s.Sized dz n k → A.Is k w.size → ∃ r, c.wsum s w A = some r ∧ r.size = k
  stationary : ∀ {n k} (s : Meas D X) x z, s.Sized dz n k → x.size = n → z.size = k →
    ∃ s', c.processStationary s x z = some s' ∧ s'.Sized dz n k ∧ s.SameConfig s'

/-- The user's `makeStationary` function, if any, keeps `Q` (e.g. "right sizes, positive semidefinite"). -/
def FilterModel.MakeKeeps (Q : DVec → DMat → Prop) (f : FilterModel) : Prop :=
  ∀ x c, Q x c → ∃ x' c', f.makeStationary x c = some (x', c') ∧ Q x' c'

/-- The Loewner order: `B - A` exists (sizes agree) and is positive semidefinite. -/
def DMat.Le (A B : DMat) : Prop := ∃ D, B.sub A = some D ∧ D.PSD

/-- Positive semidefinite process and control noise. -/
def NoisePSD (Rp Rc : DMat) : Prop := Rp.PSD ∧ Rc.PSD

/-- No condition on the noise. -/
def AnyNoise (_Rp _Rc : DMat) : Prop := True

/-- The class keeps the default vector operations of filter_model.cpp:87-106. -/
structure SysClass.PlainOps {T D X : Type} (c : SysClass T D X) : Prop where
  add : ∀ s, c.add s = DVec.add
  sub : ∀ s, c.sub s = DVec.sub
  wsum : ∀ s, c.wsum s = weightedSum

/-- Same for measurement models. -/
structure MeasClass.PlainOps {T D X : Type} (c : MeasClass T D X) : Prop where
  sub : ∀ s, c.sub s = DVec.sub
  wsum : ∀ s, c.wsum s = weightedSum

/-- An estimate of `n` states. -/
def Estimate (n : Nat) (x : DVec) (c : DMat) : Prop := x.size = n ∧ c.Is n n
/-- An estimate whose covariance is positive semidefinite. -/
def EstimatePSD (n : Nat) (x : DVec) (c : DMat) : Prop := Estimate n x c ∧ c.PSD
/-- An estimate whose covariance is positive definite. -/
def EstimatePD (n : Nat) (x : DVec) (c : DMat) : Prop := Estimate n x c ∧ c.PD

/-- All model objects behind a filter are well-formed; `kd` gives the number of measurements of each measurement model;
`N` is a condition on the noise covariances `Rp`, `Rc`. -/
structure Env.Ok {K DS XS DM XM : Type} (ds : Nat → Nat → DS → Prop) (dm : Nat → Nat → DM → Prop)
    (N : DMat → DMat → Prop) (Q : DVec → DMat → Prop) (n m : Nat) (kd : K → Nat) (e : Env K DS XS DM XM) : Prop where
  sys : e.sys.Sized ds n m
  noise : N e.sys.Rp e.sys.Rc
  sysMake : e.sys.fm.MakeKeeps Q
  meas : ∀ k, (e.meas k).Sized dm n (kd k)
  measMake : ∀ k, (e.meas k).fm.MakeKeeps Q

/-- API calls with well-formed arguments: estimates satisfying `Q`, controls of the right size (or empty),
measurements of the right size with a covariance satisfying `NM`, and user changes to the models that keep them
well-formed. -/
def Op.WellFormed {T K E : Type} (Q : DVec → DMat → Prop) (G : E → Prop) (m : Nat) (kd : K → Nat) (NM : DMat → Prop) :
    Op T DVec DMat K E → Prop
  | .init x c _ => Q x c
  | .predictControl u _ | .enqueueControl u _ => u.size = m ∨ u.size = 0
  | .correct z c _ mdl | .enqueueMeasurement z c _ mdl =>
      ∃ k, mdl = some k ∧ z.size = kd k ∧ c.Is (kd k) (kd k) ∧ NM c
  | .userModel g => ∀ e, G e → ∃ e', g e = some e' ∧ G e'
  | _ => True

end StateEstimation
