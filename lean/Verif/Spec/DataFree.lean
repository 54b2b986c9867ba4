import Verif.Spec.Models
import Verif.Model.KF

/-! # Specification vocabulary: models whose matrices do not depend on the data, and calls that differ only in the data -/

namespace StateEstimation

variable {T K X Y : Type}

/-- The system model's matrices may depend on its configuration and on `dt`, but not on the numbers in the state and the
control; `myUpdate` leaves the stationary functions alone. -/
structure SysDataFree (sc : SysClass T LinSysData X) : Prop where
  ops : sc.PlainOps
  update : ∀ s x x' u u' dt, x.size = x'.size → u.size = u'.size → sc.myUpdate s x u dt = sc.myUpdate s x' u' dt
  fm : ∀ s x u dt s', sc.myUpdate s x u dt = some s' → s'.fm = s.fm

/-- Same for a measurement model. -/
structure MeasDataFree (mc : MeasClass T LinMeasData Y) : Prop where
  ops : mc.PlainOps
  update : ∀ s x x' dt, x.size = x'.size → mc.myUpdate s x dt = mc.myUpdate s x' dt
  fm : ∀ s x dt s', mc.myUpdate s x dt = some s' → s'.fm = s.fm

/-- No model has a stationary predicate. -/
def Quiet (e : Env K LinSysData X LinMeasData Y) : Prop :=
  e.sys.fm.checkStationary = false ∧ ∀ k, (e.meas k).fm.checkStationary = false

/-- The same call, except for the numbers in state, control and measurement vectors (their lengths agree).  The user
may change the models, in the same way on both sides, but sets no stationary predicate. -/
def SameButData : Op T DVec DMat K (Env K LinSysData X LinMeasData Y) →
    Op T DVec DMat K (Env K LinSysData X LinMeasData Y) → Prop
  | .init x c t, .init x' c' t' => x.size = x'.size ∧ c = c' ∧ t = t'
  | .predictTime t, .predictTime t' => t = t'
  | .predictControl u t, .predictControl u' t' => u.size = u'.size ∧ t = t'
  | .correct z c t m, .correct z' c' t' m' => z.size = z'.size ∧ c = c' ∧ t = t' ∧ m = m' ∧ m ≠ none
  | .enqueueControl u t, .enqueueControl u' t' => u.size = u'.size ∧ t = t'
  | .enqueueMeasurement z c t m, .enqueueMeasurement z' c' t' m' =>
      z.size = z'.size ∧ c = c' ∧ t = t' ∧ m = m' ∧ m ≠ none
  | .processQueues, .processQueues => True
  | .clearControlQueue, .clearControlQueue => True
  | .clearMeasurementQueue, .clearMeasurementQueue => True
  | .revertToState t, .revertToState t' => t = t'
  | .setParams p, .setParams p' => p = p'
  | .userModel g, .userModel g' => g = g' ∧ ∀ e e', Quiet e → g e = some e' → Quiet e'
  | _, _ => False

end StateEstimation
