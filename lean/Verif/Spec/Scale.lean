import Verif.Spec.Filter
import Verif.Model.VS

/-!
# All covariances multiplied by the same number

What the same problem looks like when every covariance - initial, process, control, measurement - is multiplied by `l`, and
everything else is left as it is.
-/

namespace StateEstimation

variable {T K D X Y DS XS DM XM : Type}

/-- The system model with its two noise covariances multiplied by `l`. -/
noncomputable def Sys.scaled (l : ℝ) (s : Sys D X) : Sys D X := { s with Rp := s.Rp.smul l, Rc := s.Rc.smul l }

/-- The measurement model with its covariance multiplied by `l`. -/
noncomputable def Meas.scaled (l : ℝ) (m : Meas D Y) : Meas D Y := { m with cov := m.cov.smul l }

/-- All models. -/
noncomputable def Env.scaled (l : ℝ) (e : Env K DS XS DM XM) : Env K DS XS DM XM :=
  ⟨e.sys.scaled l, fun k => (e.meas k).scaled l⟩

/-- The function the user installed for standstill (if any) treats covariances alike, whatever their size: with `l` times the
covariance it gives `l` times the covariance.  True if it keeps the covariance, or multiplies it with fixed matrices. -/
def FilterModel.Homogeneous (l : ℝ) (f : FilterModel) : Prop :=
  ∀ x c, f.makeStationary x (c.smul l) = (f.makeStationary x c).map fun r => (r.1, r.2.smul l)

/-- All standstill functions. -/
def Env.Homogeneous (l : ℝ) (e : Env K DS XS DM XM) : Prop :=
  e.sys.fm.Homogeneous l ∧ ∀ k, (e.meas k).fm.Homogeneous l

/-- A system model class whose `update` does not look at the noise covariances, leaves them and the standstill functions
alone, and whose vector addition does not depend on them. -/
structure SysClass.BlindToNoise (sc : SysClass T D X) : Prop where
  update : ∀ (l : ℝ) s x u dt, sc.myUpdate (s.scaled l) x u dt = (sc.myUpdate s x u dt).map (Sys.scaled l)
  updateFm : ∀ s x u dt s', sc.myUpdate s x u dt = some s' → s'.fm = s.fm
  stationary : ∀ (l : ℝ) s x u, sc.processStationary (s.scaled l) x u = (sc.processStationary s x u).map (Sys.scaled l)
  stationaryFm : ∀ s x u s', sc.processStationary s x u = some s' → s'.fm = s.fm
  add : ∀ (l : ℝ) s, sc.add (s.scaled l) = sc.add s

/-- The same for a measurement model class. -/
structure MeasClass.BlindToNoise (mc : MeasClass T D Y) : Prop where
  update : ∀ (l : ℝ) m x dt, mc.myUpdate (m.scaled l) x dt = (mc.myUpdate m x dt).map (Meas.scaled l)
  updateFm : ∀ m x dt m', mc.myUpdate m x dt = some m' → m'.fm = m.fm
  stationary : ∀ (l : ℝ) m x z, mc.processStationary (m.scaled l) x z = (mc.processStationary m x z).map (Meas.scaled l)
  stationaryFm : ∀ m x z m', mc.processStationary m x z = some m' → m'.fm = m.fm
  sub : ∀ (l : ℝ) m, mc.sub (m.scaled l) = mc.sub m

/-- The same call with its covariance (if it has one) multiplied by `l`; measurements name a sensor; a change of the models by
the user (`userModel`) is matched by a change that does the same to the scaled models. -/
def ScaledCall (l : ℝ) : Op T DVec DMat K (Env K DS XS DM XM) → Op T DVec DMat K (Env K DS XS DM XM) → Prop
  | .init x c t, .init x' c' t' => x' = x ∧ c' = c.smul l ∧ t' = t
  | .predictTime t, .predictTime t' => t' = t
  | .predictControl u t, .predictControl u' t' => u' = u ∧ t' = t
  | .correct z c t m, .correct z' c' t' m' => z' = z ∧ c' = c.smul l ∧ t' = t ∧ m' = m ∧ m.isSome = true
  | .enqueueControl u t, .enqueueControl u' t' => u' = u ∧ t' = t
  | .enqueueMeasurement z c t m, .enqueueMeasurement z' c' t' m' => z' = z ∧ c' = c.smul l ∧ t' = t ∧ m' = m ∧ m.isSome = true
  | .processQueues, .processQueues => True
  | .clearControlQueue, .clearControlQueue => True
  | .clearMeasurementQueue, .clearMeasurementQueue => True
  | .revertToState t, .revertToState t' => t' = t
  | .setParams p, .setParams p' => p' = p
  | .userModel g, .userModel g' => ∀ e, e.Homogeneous l → g' (e.scaled l) = (g e).map (Env.scaled l) ∧
      ∀ e', g e = some e' → e'.Homogeneous l
  | _, _ => False

/-- The second run ends with the same states at the same times as the first, current and remembered, and with `l` times the
covariances; or both abort. -/
def ScaledResult {E : Type} (l : ℝ) (a b : Option (Filter T DVec DMat K E)) : Prop :=
  match a, b with
  | some f, some g => g.getState = f.getState ∧ g.getStateTime = f.getStateTime ∧
      g.getCovariance = f.getCovariance.smul l ∧
      g.retained.map (fun s => (s.x, s.covariance, s.timestamp)) =
        f.retained.map fun s => (s.x, s.covariance.smul l, s.timestamp)
  | none, none => True
  | _, _ => False

end StateEstimation
