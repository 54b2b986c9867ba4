import Verif.Model.FilterBase

/-!
# What one input means

A specification of the effect of one input on the estimate, in terms of the callbacks of the models alone.  It does not
mention any function of the filter model: it says which callbacks are run, on what, in which order, and where their
results end up.  A relation, so that "the call fails" is "there is no result".
-/

namespace StateEstimation

variable {T V M K E : Type}

/-- What a user can tell about a filter by asking it and by predicting with it: estimate, covariance, time, the control in
use with its covariance, and the models. -/
@[ext] structure Est (T V M E : Type) where
  x : V
  cov : M
  time : T
  control : V
  controlCov : M
  models : E

/-- The estimate a filter holds. -/
def Filter.estimateOf (f : Filter T V M K E) : Est T V M E :=
  ⟨f.state.x, f.state.covariance, f.state.timestamp, f.prevControl, f.prevControlCov, f.env⟩

/-- The control a prediction uses when the caller supplies `u` (empty: none) with covariance `R`: the supplied one, else
the one in use, else zero with the covariance of the model. -/
def Est.ControlUsed (P : Plant T V M K E) (a : Est T V M E) (u : V) (R : M) (u' : V) (R' : M) : Prop :=
  if P.vsize u > 0 then u' = u ∧ R' = R
  else if P.vsize a.control > 0 then u' = a.control ∧ R' = a.controlCov
  else u' = P.zeroV (P.controlSize a.models) ∧ R' = P.rc a.models

/-- Propagating `a` over `dt` with supplied control data `u` and covariance `R` gives `x`, `c` and the models `e`.
Stationary: `processStationaryInput`, then `makeStationary`.  Otherwise `setControlCovariance`, then the prediction. -/
def Est.PropagatesTo (P : Plant T V M K E) (a : Est T V M E) (u : V) (R : M) (dt : T) (x : V) (c : M) (e : E) :
    Prop :=
  if P.sysCheck a.models = true ∧ P.sysIsStationary a.models a.x u = true then
    P.sysProcess a.models a.x u = some e ∧ P.sysMake e a.x a.cov = some (x, c)
  else
    ∃ u' R' e', a.ControlUsed P u R u' R' ∧ P.setRc a.models R' = some e' ∧
      P.myPredict e' a.x a.cov u' dt = some (x, c, e)

/-- The effect of a control input `u` with covariance `R` at time `t`: propagated over `t - now`, the time becomes
`now + (t - now)`, and a non-empty control becomes the one in use. -/
def Est.ControlEffect [TimeOps T] (P : Plant T V M K E) (a : Est T V M E) (u : V) (R : M) (t : T)
    (b : Est T V M E) : Prop :=
  a.PropagatesTo P u R (TimeOps.sub t a.time) b.x b.cov b.models ∧
  b.time = TimeOps.add a.time (TimeOps.sub t a.time) ∧
  if P.vsize u > 0 then b.control = u ∧ b.controlCov = R
  else b.control = a.control ∧ b.controlCov = a.controlCov

/-- Correcting `a` with the measurement `z` of model `m` and covariance `R` gives `b`: the covariance is set in the model,
then stationary callbacks or correction; time and control in use stay. -/
def Est.CorrectsTo (P : Plant T V M K E) (a : Est T V M E) (z : V) (R : M) (m : K) (dt : T)
    (b : Est T V M E) : Prop :=
  (∃ e, P.setMeasCov a.models m R = some e ∧
    if P.measCheck e m = true ∧ P.measIsStationary e m a.x z = true then
      P.measProcess e m a.x z = some b.models ∧ P.measMake b.models m a.x a.cov = some (b.x, b.cov)
    else P.myCorrect e a.x a.cov z m dt = some (b.x, b.cov, b.models)) ∧
  b.time = a.time ∧ b.control = a.control ∧ b.controlCov = a.controlCov

/-- The effect of a measurement at time `t`.  From the future: first a control effect with the control in use, then the
correction; the correction is told the original `t - now`.  Otherwise the correction alone. -/
def Est.MeasurementEffect [TimeOps T] (P : Plant T V M K E) (a : Est T V M E) (z : V) (R : M) (t : T) (m : K)
    (b : Est T V M E) : Prop :=
  if TimeOps.lt TimeOps.zero (TimeOps.sub t a.time) = true then
    ∃ p, a.ControlEffect P a.control a.controlCov t p ∧ p.CorrectsTo P z R m (TimeOps.sub t a.time) b
  else a.CorrectsTo P z R m (TimeOps.sub t a.time) b

/-- The effect of an input.  A measurement without model has no result. -/
def Est.Effect [TimeOps T] (P : Plant T V M K E) (a : Est T V M E) (i : FilterInput T V M K)
    (b : Est T V M E) : Prop :=
  if i.isControl = true then a.ControlEffect P i.data i.covariance i.timestamp b
  else ∃ m, i.model = some m ∧ a.MeasurementEffect P i.data i.covariance i.timestamp m b

/-- The effect of several inputs one after the other. -/
def Est.Effects [TimeOps T] (P : Plant T V M K E) : Est T V M E → List (FilterInput T V M K) →
    Est T V M E → Prop
  | a, [], b => b = a
  | a, i :: is, b => ∃ c, a.Effect P i c ∧ Est.Effects P c is b

/-- The remembered state `b` is the effect of the input stored with it on the remembered state `a` (for some control in
use and models at that moment). -/
def ProducedBy [TimeOps T] (P : Plant T V M K E) (a b : FilterState T V M K) : Prop :=
  ∃ (u : V) (R : M) (e : E) (b' : Est T V M E),
    (⟨a.x, a.covariance, a.timestamp, u, R, e⟩ : Est T V M E).Effect P b.prevInput b' ∧
      b'.x = b.x ∧ b'.cov = b.covariance ∧ b'.time = b.timestamp

end StateEstimation
