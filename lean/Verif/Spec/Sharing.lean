import Verif.Model.KF
import Verif.Model.UKF
import Verif.Spec.Filter

/-!
# Several filters using the same model objects

Filters hold pointers to the system model (filter_base.h:242) and are handed pointers to measurement models
(`correct`, `enqueuMeasurement`); nothing stops two filters from using the same objects.
-/

namespace StateEstimation

/-- Filters with an index `ι`, and the model objects they share. -/
structure Fleet (ι T V M K E C : Type) where
  filters : ι → Filter T V M K E
  shared : C

/-- What is shared: `get` takes the shared objects out of the models of a filter, `put` puts them in. -/
structure Sharing (E C : Type) where
  get : E → C
  put : E → C → E

variable {ι T V M K E C : Type} [DecidableEq ι]

/-- The calls made on filter `i`, in their order. -/
def callsOn {α : Type} (i : ι) (calls : List (ι × α)) : List α := (calls.filter fun c => c.1 = i).map Prod.snd

section run
variable [TimeOps T]

/-- One call on filter `i` of the fleet: it finds the shared objects as the other filters left them. -/
def Fleet.step (P : Plant T V M K E) (L : Sharing E C) (sort : List (FilterInput T V M K) → List (FilterInput T V M K))
    (fl : Fleet ι T V M K E C) (i : ι) (op : Op T V M K E) : Option (Fleet ι T V M K E C) :=
  let f := fl.filters i
  (Filter.step P sort { f with env := L.put f.env fl.shared } op).map fun g =>
    ⟨fun j => if j = i then g else fl.filters j, L.get g.env⟩

/-- Any interleaving of calls. -/
def Fleet.run (P : Plant T V M K E) (L : Sharing E C) (sort : List (FilterInput T V M K) → List (FilterInput T V M K)) :
    Fleet ι T V M K E C → List (ι × Op T V M K E) → Option (Fleet ι T V M K E C)
  | fl, [] => some fl
  | fl, (i, op) :: calls => (fl.step P L sort i op).bind fun fl => fl.run P L sort calls

/-- Same estimates: the current one and all remembered ones. -/
def SameEstimates (f g : Filter T V M K E) : Prop :=
  f.getState = g.getState ∧ f.getCovariance = g.getCovariance ∧ f.getStateTime = g.getStateTime ∧
    f.retained.map (fun s => (s.x, s.covariance, s.timestamp)) = g.retained.map fun s => (s.x, s.covariance, s.timestamp)

/-- The filters of the fleet do not notice each other: a call aborts only if it aborts in one of the filters used alone, and
every filter has the estimates it has alone. -/
def Independent (P : Plant T V M K E) (L : Sharing E C) (sort : List (FilterInput T V M K) → List (FilterInput T V M K))
    (fl : Fleet ι T V M K E C) (calls : List (ι × Op T V M K E)) : Prop :=
  match fl.run P L sort calls with
  | some fl' => ∀ i, ∃ g, (fl.filters i).run P sort (callsOn i calls) = some g ∧ SameEstimates (fl'.filters i) g
  | none => ∃ i, (fl.filters i).run P sort (callsOn i calls) = none

end run

/-- A measurement model class that computes its prediction and Jacobian from what the user configured (`cfg`), the state and
the time step only.  `cfg` determines everything but the covariance and the cached results. -/
structure MeasClass.Stateless {D X : Type} (mc : MeasClass T D X) {G : Type} (cfg : Meas D X → G) : Prop where
  seen : ∀ m m', cfg m = cfg m' → m.fm = m'.fm ∧ m.measDims = m'.measDims ∧ m.activeMeasurements = m'.activeMeasurements
  setCov : ∀ m R, cfg { m with cov := R } = cfg m
  update : ∀ m m' x dt, cfg m = cfg m' → m.cov = m'.cov →
    match mc.myUpdate m x dt, mc.myUpdate m' x dt with
    | none, none => True
    | some r, some r' => r.der = r'.der ∧ r.cov = m.cov ∧ r'.cov = m.cov ∧ cfg r = cfg m ∧ cfg r' = cfg m
    | _, _ => False
  sub : ∀ m m', cfg m = cfg m' → mc.sub m = mc.sub m'
  wsum : ∀ m m', cfg m = cfg m' → mc.wsum m = mc.wsum m'
  stationary : ∀ m m' x z, cfg m = cfg m' →
    match mc.processStationary m x z, mc.processStationary m' x z with
    | none, none => True
    | some r, some r' => cfg r = cfg m ∧ cfg r' = cfg m
    | _, _ => False

/-- A system model class that computes its prediction, Jacobians and noise matrices from what the user configured (`cfg`,
which includes the covariances), the state, the control and the time step only. -/
structure SysClass.Stateless {D X : Type} (sc : SysClass T D X) {G : Type} (cfg : Sys D X → G) : Prop where
  seen : ∀ s s', cfg s = cfg s' → s.fm = s'.fm ∧ s.controlDims = s'.controlDims ∧ s.Rc = s'.Rc ∧ s.Rp = s'.Rp ∧
    s.activeControls = s'.activeControls
  update : ∀ s s' x u dt, cfg s = cfg s' →
    match sc.myUpdate s x u dt, sc.myUpdate s' x u dt with
    | none, none => True
    | some r, some r' => r.der = r'.der ∧ r.P = r'.P ∧ r.V = r'.V ∧ cfg r = cfg s ∧ cfg r' = cfg s
    | _, _ => False
  add : ∀ s s', cfg s = cfg s' → sc.add s = sc.add s'
  sub : ∀ s s', cfg s = cfg s' → sc.sub s = sc.sub s'
  wsum : ∀ s s', cfg s = cfg s' → sc.wsum s = sc.wsum s'
  stationary : ∀ s s' x u, cfg s = cfg s' →
    match sc.processStationary s x u, sc.processStationary s' x u with
    | none, none => True
    | some r, some r' => cfg r = cfg s ∧ cfg r' = cfg s
    | _, _ => False

/-- Only the measurement models are shared; every filter has its own system model. -/
def shareSensors {K DS XS DM XM : Type} : Sharing (Env K DS XS DM XM) (K → Meas DM XM) :=
  ⟨fun e => e.meas, fun e m => { e with meas := m }⟩

/-- All model objects are shared. -/
def shareAll {E : Type} : Sharing E E := ⟨id, fun _ e => e⟩

/-- The same for filters with data members of their own (`UKF`), which are not shared. -/
def Sharing.withOwn {E C O : Type} (L : Sharing E C) : Sharing (E × O) C := ⟨fun e => L.get e.1, fun e c => (L.put e.1 c, e.2)⟩

/-- The call names a measurement model (no null pointer). -/
def Op.NamesSensor : Op T V M K E → Prop
  | .correct _ _ _ m => m.isSome = true
  | .enqueueMeasurement _ _ _ m => m.isSome = true
  | _ => True

/-- The call is not a change of the models by the user. -/
def Op.LeavesModels : Op T V M K E → Prop
  | .userModel _ => False
  | _ => True

/-- If the call is a change of the models by the user, it changes only what satisfies `ok`. -/
def Op.ChangesOnly (ok : (E → Option E) → Prop) : Op T V M K E → Prop
  | .userModel g => ok g
  | _ => True

end StateEstimation
