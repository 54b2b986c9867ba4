import Verif.Spec.DataFree

/-! # Specification vocabulary: the same filter with less certain inputs -/

namespace StateEstimation

variable {T K X Y : Type}

/-- The same system model object except for the numbers in the process and control noise covariances. -/
def Sys.SameButNoise {D X : Type} (s s' : Sys D X) : Prop :=
  s' = { s with Rp := s'.Rp, Rc := s'.Rc } ∧ s'.Rp.Is s.Rp.rows s.Rp.cols ∧ s'.Rc.Is s.Rc.rows s.Rc.cols
/-- The same measurement model object except for the numbers in the measurement covariance. -/
def Meas.SameButNoise {D X : Type} (s s' : Meas D X) : Prop :=
  s' = { s with cov := s'.cov } ∧ s'.cov.Is s.cov.rows s.cov.cols

/-- The system model's matrices (`A`, `B`, `P`, `V`) may depend on its configuration and on `dt`, but neither on the
numbers in state and control nor on the noise covariances. -/
def SysNoiseFree (sc : SysClass T LinSysData X) : Prop :=
  ∀ s s' x x' u u' dt r r', s.SameButNoise s' → x.size = x'.size → u.size = u'.size →
    sc.myUpdate s x u dt = some r → sc.myUpdate s' x' u' dt = some r' → r.SameButNoise r'

/-- Same for the matrix `C` of a measurement model. -/
def MeasNoiseFree (mc : MeasClass T LinMeasData Y) : Prop :=
  ∀ s s' x x' dt r r', s.SameButNoise s' → x.size = x'.size →
    mc.myUpdate s x dt = some r → mc.myUpdate s' x' dt = some r' → r.SameButNoise r'

/-- `A ≤ B` in the Loewner order, `A` (hence `B`) positive semidefinite. -/
def DMat.PSDLe (A B : DMat) : Prop := A.PSD ∧ A.Le B

/-- Two sets of models (`n` states, `m` controls, `kd k` measurements), the second with at least as much process and
control noise; no stationary predicates. -/
structure Env.Noisier (n m : Nat) (kd : K → Nat) (e e' : Env K LinSysData X LinMeasData Y) : Prop where
  sized : e.sys.Sized LinSysData.Sized n m
  sized' : e'.sys.Sized LinSysData.Sized n m
  sys : e.sys.SameButNoise e'.sys
  Rp : e.sys.Rp.PSDLe e'.sys.Rp
  Rc : e.sys.Rc.PSDLe e'.sys.Rc
  measSized : ∀ k, (e.meas k).Sized LinMeasData.Sized n (kd k)
  measSized' : ∀ k, (e'.meas k).Sized LinMeasData.Sized n (kd k)
  meas : ∀ k, (e.meas k).SameButNoise (e'.meas k)
  quiet : Quiet e

/-- The same call with any other numbers in state, control and measurement vectors, and with at least as large
covariances in the second run: of a new initial state, of a measurement (positive definite), of the noise in the models
after the user has changed them. -/
def Op.Noisier (n m : Nat) (kd : K → Nat) : Op T DVec DMat K (Env K LinSysData X LinMeasData Y) →
    Op T DVec DMat K (Env K LinSysData X LinMeasData Y) → Prop
  | .init x c t, .init x' c' t' => x.size = n ∧ x'.size = n ∧ c.Is n n ∧ c.PSDLe c' ∧ t = t'
  | .predictTime t, .predictTime t' => t = t'
  | .predictControl u t, .predictControl u' t' => u.size = u'.size ∧ (u.size = m ∨ u.size = 0) ∧ t = t'
  | .correct z c t k, .correct z' c' t' k' =>
      t = t' ∧ k = k' ∧ ∃ j, k = some j ∧ z.size = kd j ∧ z'.size = kd j ∧ c.Is (kd j) (kd j) ∧ c.PD ∧ c.Le c'
  | .enqueueControl u t, .enqueueControl u' t' => u.size = u'.size ∧ (u.size = m ∨ u.size = 0) ∧ t = t'
  | .enqueueMeasurement z c t k, .enqueueMeasurement z' c' t' k' =>
      t = t' ∧ k = k' ∧ ∃ j, k = some j ∧ z.size = kd j ∧ z'.size = kd j ∧ c.Is (kd j) (kd j) ∧ c.PD ∧ c.Le c'
  | .processQueues, .processQueues => True
  | .clearControlQueue, .clearControlQueue => True
  | .clearMeasurementQueue, .clearMeasurementQueue => True
  | .revertToState t, .revertToState t' => t = t'
  | .setParams p, .setParams p' => p = p'
  | .userModel g, .userModel g' => ∀ e e', e.Noisier n m kd e' → ∃ a a', g e = some a ∧ g' e' = some a' ∧ a.Noisier n m kd a'
  | _, _ => False

end StateEstimation
