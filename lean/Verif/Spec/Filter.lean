import Verif.Model.FilterBase

/-!
# Specification vocabulary for `FilterBase`

Small, proof-free definitions used in the statements of the properties.
-/

namespace StateEstimation

variable {T V M K E : Type}

/-- The calls that feed data to the filter directly. -/
def Op.IsDirect : Op T V M K E → Prop
  | .predictTime _ | .predictControl _ _ | .correct _ _ _ _ => True
  | _ => False

/-- Every call except `processQueues` and changing the parameters. -/
def Op.IsUnqueued : Op T V M K E → Prop
  | .processQueues | .setParams _ => False
  | _ => True

/-- Putting something in a queue. -/
def Op.IsEnqueue : Op T V M K E → Prop
  | .enqueueControl _ _ | .enqueueMeasurement _ _ _ _ => True
  | _ => False

/-- All states the filter currently remembers, oldest first; the last one is the current state. -/
def Filter.retained (f : Filter T V M K E) : List (FilterState T V M K) := f.history ++ [f.state]

/-- All queued inputs. -/
def Filter.queued (f : Filter T V M K E) : List (FilterInput T V M K) := f.controlQueue ++ f.measQueue

/-- The input `predict(u, t)` builds. -/
def controlInput (P : Plant T V M K E) (f : Filter T V M K E) (u : V) (t : T) : FilterInput T V M K :=
  { data := u, covariance := P.rc f.env, timestamp := t, isControl := true, model := none }

/-- The input `correct(z, R, t, m)` builds. -/
def measurementInput (z : V) (R : M) (t : T) (m : Option K) : FilterInput T V M K :=
  { data := z, covariance := R, timestamp := t, isControl := false, model := m }

/-- The input a `predict(u, t)` or `correct(z, R, t, m)` call hands to the filter. -/
def Op.asInput (P : Plant T V M K E) (f : Filter T V M K E) : Op T V M K E → Option (FilterInput T V M K)
  | .predictControl u t => some (controlInput P f u t)
  | .correct z R t m => some (measurementInput z R t m)
  | _ => none

/-- The inputs applied since the oldest remembered state, in the order they were applied. -/
def Filter.inputs (f : Filter T V M K E) : List (FilterInput T V M K) :=
  f.retained.tail.map FilterState.prevInput

/-- The direct call that supplies the same data as a queued input. -/
def FilterInput.directCall (E : Type) (i : FilterInput T V M K) : Op T V M K E :=
  if i.isControl then .predictControl i.data i.timestamp else .correct i.data i.covariance i.timestamp i.model

/-- Everything but history and queues agrees: state, covariance, time, input last applied, control in use and its
covariance, models. -/
def Filter.SameEstimate (f g : Filter T V M K E) : Prop :=
  f.state = g.state ∧ f.prevControl = g.prevControl ∧ f.prevControlCov = g.prevControlCov ∧ f.env = g.env

/-- Only the filter itself changes the control covariance `Rc`, and only through `setControlCovariance`: the other
model callbacks leave it alone.  True of every model in the library. -/
structure RcStable (P : Plant T V M K E) : Prop where
  set : ∀ e R e', P.setRc e R = some e' → P.rc e' = R
  predict : ∀ e x c u dt x' c' e', P.myPredict e x c u dt = some (x', c', e') → P.rc e' = P.rc e
  correct : ∀ e x c z m dt x' c' e', P.myCorrect e x c z m dt = some (x', c', e') → P.rc e' = P.rc e
  sysProcess : ∀ e x u e', P.sysProcess e x u = some e' → P.rc e' = P.rc e
  measProcess : ∀ e m x z e', P.measProcess e m x z = some e' → P.rc e' = P.rc e
  setMeasCov : ∀ e m R e', P.setMeasCov e m R = some e' → P.rc e' = P.rc e

/-- The control covariance in use is `R`: it is the model's `Rc`, and the remembered control, if any, carries it. -/
def Filter.UsesRc (P : Plant T V M K E) (R : M) (f : Filter T V M K E) : Prop :=
  P.rc f.env = R ∧ (P.vsize f.prevControl > 0 → f.prevControlCov = R)

variable [TimeOps T]

/-- `b` was produced from `a` by applying the input stored with `b`. -/
def Produced (P : Plant T V M K E) (a b : FilterState T V M K) : Prop :=
  ∃ fa fb : Filter T V M K E, fa.state = a ∧ Filter.applyInput P fa b.prevInput = some fb ∧ fb.state = b

/-- Every queued input can be placed in time: it is not older than the current state, or an older state is
retained, or it is older than everything retained (and will be discarded). -/
def Filter.QueuesPlaceable (f : Filter T V M K E) : Prop :=
  ∀ i ∈ f.queued, TimeOps.le f.state.timestamp i.timestamp = true ∨
    (∃ s ∈ f.history, TimeOps.lt s.timestamp i.timestamp = true) ∨
    (f.history ≠ [] ∧ ∀ s ∈ f.history, TimeOps.lt i.timestamp s.timestamp = true)

/-- Filters reachable with `rewind_history = true`: `initialize` on any filter, then any sequence of calls and
parameter changes that leave `rewind_history` on, where `processQueues` is called only with queues that can be placed (what happens
otherwise is C22). -/
inductive ReachRewind (P : Plant T V M K E)
    (sort : List (FilterInput T V M K) → List (FilterInput T V M K)) : Filter T V M K E → Prop
  | start (f0 : Filter T V M K E) (x : V) (c : M) (t0 : T) :
      f0.params.rewindHistory = true → ReachRewind P sort (f0.init x c t0)
  | call (f g : Filter T V M K E) (op : Op T V M K E) :
      ReachRewind P sort f → op.IsUnqueued → f.step P sort op = some g → ReachRewind P sort g
  | params (f : Filter T V M K E) (p : Params T) :
      ReachRewind P sort f → p.rewindHistory = true → ReachRewind P sort { f with params := p }
  | queues (f g : Filter T V M K E) :
      ReachRewind P sort f → f.QueuesPlaceable → f.processQueues P sort = some g → ReachRewind P sort g

/-- The call does not supply anything older than the current state (queued inputs: all strictly later), and is not a
parameter change or a revert. -/
def Filter.InOrder (f : Filter T V M K E) : Op T V M K E → Prop
  | .predictControl _ t | .correct _ _ t _ => TimeOps.le f.state.timestamp t = true
  | .processQueues => ∀ i ∈ f.queued, TimeOps.lt f.state.timestamp i.timestamp = true
  | .setParams _ | .revertToState _ => False
  | _ => True

/-- Every call of the sequence is in order at the moment it is made. -/
def Filter.InOrderRun (P : Plant T V M K E) (sort : List (FilterInput T V M K) → List (FilterInput T V M K)) :
    Filter T V M K E → List (Op T V M K E) → Prop
  | _, [] => True
  | f, op :: ops => f.InOrder op ∧ ∀ g, f.step P sort op = some g → Filter.InOrderRun P sort g ops

end StateEstimation
