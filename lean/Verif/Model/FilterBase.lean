import Verif.Model.Time

/-!
# Model of `FilterBase` (include/state_estimation/filters/filter_base.h, filter_base.hpp)

Function by function.  `Option` is used for abnormal termination: `none` stands for a failed `assert`, a
dereferenced null or stale pointer, an out-of-range access, an exception, or any other undefined behaviour
reached through the model callbacks.

Type parameters: `T` time, `V` vectors (`Eigen::VectorXd`), `M` matrices (`Eigen::MatrixXd`),
`K` measurement model handles (`MeasT*`, non-null), `E` the mutable model objects behind `system_model_` and
the measurement model pointers (Rc, covariance, cached Jacobians, ...).
Debug output (`#ifdef DEBUG_STATE_ESTIMATION`) and the `std::cerr` lines are not modelled.
-/

namespace StateEstimation

/-- filter_base.h:38-59 `FilterInput`.  `model = none` is `nullptr` (filter_base.h:48,53). -/
structure FilterInput (T V M K : Type) where
  data : V
  covariance : M
  timestamp : T
  isControl : Bool
  model : Option K
deriving DecidableEq, Repr

/-- filter_base.h:64-73 `FilterState`. -/
structure FilterState (T V M K : Type) where
  x : V
  covariance : M
  timestamp : T
  prevInput : FilterInput T V M K
deriving DecidableEq, Repr

/-- filter_base.h:77-86 `Parameters`. -/
structure Params (T : Type) where
  rewindHistory : Bool
  historyWindow : T
  allowPast : Bool
deriving DecidableEq, Repr

/-- Everything `FilterBase` reaches through virtual functions and model pointers. -/
structure Plant (T V M K E : Type) where
  /-- `Eigen::VectorXd::size()`, used in hpp:337,343. -/
  vsize : V → Nat
  /-- `Eigen::VectorXd()`, hpp:61 and the initial `prev_control_` (filter_base.h:246). -/
  emptyV : V
  /-- `Eigen::MatrixXd()`, the initial `prev_control_covariance_` (filter_base.h:247). -/
  emptyM : M
  /-- `Eigen::VectorXd::Zero(n)`, hpp:348. -/
  zeroV : Nat → V
  /-- `system_model_->controlSize()`, hpp:348, system_model.cpp:23. -/
  controlSize : E → Nat
  /-- `system_model_->Rc()`, hpp:61,79,98,160,349, system_model.cpp:77. -/
  rc : E → M
  /-- `system_model_->setControlCovariance`, hpp:365, asserts in system_model.cpp:69. -/
  setRc : E → M → Option E
  /-- `system_model_->checkStationary()`, hpp:352, filter_model.cpp:63. -/
  sysCheck : E → Bool
  /-- `system_model_->isStationary(x, data)`, hpp:353, filter_model.cpp:67 (user callback, const). -/
  sysIsStationary : E → V → V → Bool
  /-- `system_model_->processStationaryInput(x, data)`, hpp:368 (virtual, may change the model). -/
  sysProcess : E → V → V → Option E
  /-- `system_model_->makeStationary(&x, &cov)`, hpp:369, filter_model.cpp:71 (const on the model). -/
  sysMake : E → V → M → Option (V × M)
  /-- `model->setCovariance(cov)`, hpp:391, assert in measurement_model.cpp:64. -/
  setMeasCov : E → K → M → Option E
  /-- `model->checkStationary()`, hpp:393. -/
  measCheck : E → K → Bool
  /-- `model->isStationary(x, data)`, hpp:394. -/
  measIsStationary : E → K → V → V → Bool
  /-- `model->processStationaryInput(x, data)`, hpp:406. -/
  measProcess : E → K → V → V → Option E
  /-- `model->makeStationary(&x, &cov)`, hpp:407. -/
  measMake : E → K → V → M → Option (V × M)
  /-- `myPredict(u, dt)` on state and covariance, filter_base.h:236, hpp:366; may change the models. -/
  myPredict : E → V → M → V → T → Option (V × M × E)
  /-- `myCorrect(z, model, dt)`, filter_base.h:239, hpp:404. -/
  myCorrect : E → V → M → V → K → T → Option (V × M × E)

/-- The data members of `FilterBase` (filter_base.h:242-249, 297-301) together with the mutable models.
`history` is the deque front (oldest) first. -/
structure Filter (T V M K E : Type) where
  params : Params T
  state : FilterState T V M K
  prevControl : V
  prevControlCov : M
  env : E
  history : List (FilterState T V M K)
  controlQueue : List (FilterInput T V M K)
  measQueue : List (FilterInput T V M K)
deriving DecidableEq, Repr

variable {T V M K E : Type} [TimeOps T]

/-- `FilterInput()` defaults, filter_base.h:40-50: empty data, time 0, a control, null model. -/
def FilterInput.default (P : Plant T V M K E) : FilterInput T V M K :=
  { data := P.emptyV, covariance := P.emptyM, timestamp := TimeOps.zero, isControl := true, model := none }

namespace Filter

/-- `clear()`, filter_base.hpp:244-249. -/
def clear (f : Filter T V M K E) : Filter T V M K E :=
  { f with history := [], controlQueue := [], measQueue := [] }

/-- `initialize(x, cov, timestamp)`, filter_base.hpp:26-40.  Note what it does not touch: `prev_control_`,
`prev_control_covariance_` and `filter_state_.prev_input`. -/
def init (f : Filter T V M K E) (x : V) (cov : M) (t : T) : Filter T V M K E :=
  let f := f.clear
  { f with state := { f.state with x := x, covariance := cov, timestamp := t } }

/-- Constructor `FilterBase(system_model, x, cov, timestamp)`, filter_base.hpp:9-14: default member values
(filter_base.h:40-86, 242-249), then `initialize`.  The parameters are a model argument because the user can
set them through `parameters()` (hpp:16-24) at any time. -/
def construct (P : Plant T V M K E) (params : Params T) (env : E) (x : V) (cov : M) (t : T) :
    Filter T V M K E :=
  init
    { params := params
      state := { x := P.emptyV, covariance := P.emptyM, timestamp := TimeOps.zero,
                 prevInput := FilterInput.default P }
      prevControl := P.emptyV
      prevControlCov := P.emptyM
      env := env
      history := []
      controlQueue := []
      measQueue := [] } x cov t

/-- `getState()`, filter_base.hpp:42-45. -/
def getState (f : Filter T V M K E) : V := f.state.x
/-- `getCovariance()`, filter_base.hpp:47-50. -/
def getCovariance (f : Filter T V M K E) : M := f.state.covariance
/-- `getStateTime()`, filter_base.hpp:52-55. -/
def getStateTime (f : Filter T V M K E) : T := f.state.timestamp

/-- `applyControlInput(input)`, filter_base.hpp:330-374.  `setControlCovariance` happens only on the
non-stationary branch; the stationary predicate sees `input.data` (possibly empty), not the control in use. -/
def applyControlInput (P : Plant T V M K E) (f : Filter T V M K E) (inp : FilterInput T V M K) :
    Option (Filter T V M K E) :=
  let dt := TimeOps.sub inp.timestamp f.state.timestamp
  -- hpp:337-350: choose control and covariance, remember a non-empty control
  let sel : V × M × Filter T V M K E :=
    if P.vsize inp.data > 0 then
      (inp.data, inp.covariance,
        { f with prevControl := inp.data, prevControlCov := inp.covariance })
    else if P.vsize f.prevControl > 0 then
      (f.prevControl, f.prevControlCov, f)
    else
      (P.zeroV (P.controlSize f.env), P.rc f.env, f)
  let u := sel.1
  let cov := sel.2.1
  let f := sel.2.2
  if !(P.sysCheck f.env && P.sysIsStationary f.env f.state.x inp.data) then
    -- hpp:365-366
    match P.setRc f.env cov with
    | none => none
    | some env =>
      match P.myPredict env f.state.x f.state.covariance u dt with
      | none => none
      | some (x, c, env) => some { f with state := { f.state with x := x, covariance := c }, env := env }
  else
    -- hpp:368-369
    match P.sysProcess f.env f.state.x inp.data with
    | none => none
    | some env =>
      match P.sysMake env f.state.x f.state.covariance with
      | none => none
      | some (x, c) => some { f with state := { f.state with x := x, covariance := c }, env := env }

/-- `filter_state_.timestamp += dt`, filter_base.hpp:315 and 387. -/
def advanceClock (f : Filter T V M K E) (dt : T) : Filter T V M K E :=
  { f with state := { f.state with timestamp := TimeOps.add f.state.timestamp dt } }

/-- Second half of `applyMeasurementInput`, filter_base.hpp:390-411, on the (possibly advanced) filter. -/
def correctAt (P : Plant T V M K E) (f : Filter T V M K E) (inp : FilterInput T V M K) (dt : T) :
    Option (Filter T V M K E) :=
  match inp.model with
  | none => none  -- null pointer dereferenced in hpp:391
  | some m =>
    match P.setMeasCov f.env m inp.covariance with
    | none => none
    | some env =>
      if !(P.measCheck env m && P.measIsStationary env m f.state.x inp.data) then
        match P.myCorrect env f.state.x f.state.covariance inp.data m dt with
        | none => none
        | some (x, c, env) => some { f with state := { f.state with x := x, covariance := c }, env := env }
      else
        match P.measProcess env m f.state.x inp.data with
        | none => none
        | some env =>
          match P.measMake env m f.state.x f.state.covariance with
          | none => none
          | some (x, c) => some { f with state := { f.state with x := x, covariance := c }, env := env }

/-- `applyMeasurementInput(input)`, filter_base.hpp:376-412.  `myCorrect` receives the `dt` computed before the
state was advanced. -/
def applyMeasurementInput (P : Plant T V M K E) (f : Filter T V M K E) (inp : FilterInput T V M K) :
    Option (Filter T V M K E) :=
  let dt := TimeOps.sub inp.timestamp f.state.timestamp
  if TimeOps.lt TimeOps.zero dt then
    -- hpp:384-387: advance with the previous control
    match applyControlInput P f
        { data := f.prevControl, covariance := f.prevControlCov, timestamp := inp.timestamp,
          isControl := true, model := none } with
    | none => none
    | some g => correctAt P (g.advanceClock dt) inp dt
  else correctAt P f inp dt

/-- `applyInput(input)`, filter_base.hpp:306-328. -/
def applyInput (P : Plant T V M K E) (f : Filter T V M K E) (inp : FilterInput T V M K) :
    Option (Filter T V M K E) :=
  let f := if f.params.rewindHistory then { f with history := f.history ++ [f.state] } else f
  let dt := TimeOps.sub inp.timestamp f.state.timestamp
  if inp.isControl then
    match applyControlInput P f inp with
    | none => none
    | some g =>
      let g := g.advanceClock dt
      some { g with state := { g.state with prevInput := inp } }
  else
    match applyMeasurementInput P f inp with
    | none => none
    | some g => some { g with state := { g.state with prevInput := inp } }

/-- The loop of `pruneHistory`, filter_base.hpp:436-442.  First argument: base index of the reverse iterator, so
`*iter` is element `k`, and `rend()` is reached at `0`. -/
def pruneLoop (cutoff : T) : Nat → List (FilterState T V M K) → Option (List (FilterState T V M K))
  | 0, h => some h
  | k + 1, h =>
    match h[k]? with
    | none => none
    | some s =>
      if TimeOps.lt s.timestamp cutoff then
        match h with
        | [] => none
        | a :: t => pruneLoop cutoff k (a :: t).dropLast
      else some h

/-- `pruneHistory()`, filter_base.hpp:422-443. -/
def pruneHistory (f : Filter T V M K E) : Option (Filter T V M K E) :=
  if !f.params.rewindHistory then some f
  else
    let cutoff := TimeOps.sub f.state.timestamp f.params.historyWindow
    match pruneLoop cutoff f.history.length f.history with
    | none => none
    | some h => some { f with history := h }

/-- The loop of `applyBatchInputs`, filter_base.hpp:416-418. -/
def applyAll (P : Plant T V M K E) : Filter T V M K E → List (FilterInput T V M K) →
    Option (Filter T V M K E)
  | f, [] => some f
  | f, i :: is =>
    match applyInput P f i with
    | none => none
    | some g => applyAll P g is

/-- `applyBatchInputs(inputs)`, filter_base.hpp:414-420. -/
def applyBatchInputs (P : Plant T V M K E) (f : Filter T V M K E) (is : List (FilterInput T V M K)) :
    Option (Filter T V M K E) :=
  match applyAll P f is with
  | none => none
  | some g => g.pruneHistory

/-- The loop of `rewindHistory`, filter_base.hpp:281-286: no `break`, at most one `pop_back` per step.  Returns
the remaining history and the extracted states, newest first. -/
def rewindLoop (b : Bound T) : Nat → List (FilterState T V M K) → List (FilterState T V M K) →
    Option (List (FilterState T V M K) × List (FilterState T V M K))
  | 0, h, acc => some (h, acc)
  | k + 1, h, acc =>
    match h[k]? with
    | none => none
    | some s =>
      if b.leTime s.timestamp then
        match h with
        | [] => none
        | a :: t => rewindLoop b k (a :: t).dropLast (acc ++ [s])
      else rewindLoop b k h acc

/-- `rewindHistory(timestamp, post_states)`, filter_base.hpp:251-304.  Returns the filter, the returned flag and
the states appended to `*post_states` (oldest first). -/
def rewindHistory (f : Filter T V M K E) (b : Bound T) :
    Option (Filter T V M K E × Bool × List (FilterState T V M K)) :=
  if b.gt f.state.timestamp then some (f, true, [])
  else
    match f.history with
    | [] => some (f, false, [])
    | front :: rest =>
      if b.gt front.timestamp then
        match rewindLoop b (front :: rest).length (front :: rest) [f.state] with
        | none => none
        | some (h, acc) =>
          -- hpp:293-294: back() and pop_back() of the remaining history
          match h.getLast? with
          | none => none
          | some s => some ({ f with state := s, history := h.dropLast }, true, acc.reverse)
      else some (f, false, [])

/-- `predict(timestamp)`, filter_base.hpp:57-71. -/
def predictTime (P : Plant T V M K E) (f : Filter T V M K E) (t : T) : Option (Filter T V M K E) :=
  if TimeOps.lt f.state.timestamp t then
    match applyInput P f { data := P.emptyV, covariance := P.rc f.env, timestamp := t,
                           isControl := true, model := none } with
    | none => none
    | some g => g.pruneHistory
  else some f

/-- The rewind branch shared by `predict(u, t)` (filter_base.hpp:89-113) and `correct` (132-153): the code is the
same except for the construction of the input. -/
def insertInput (P : Plant T V M K E) (f : Filter T V M K E) (inp : FilterInput T V M K) :
    Option (Filter T V M K E) :=
  if TimeOps.lt inp.timestamp f.state.timestamp then
    match f.rewindHistory (some inp.timestamp) with
    | none => none
    | some (_, false, _) => some f  -- early return; `rewindHistory` returning false left the filter unchanged
    | some (g, true, post) => applyBatchInputs P g (inp :: post.map FilterState.prevInput)
  else applyBatchInputs P f [inp]

/-- `predict(u, timestamp)`, filter_base.hpp:73-114. -/
def predictControl (P : Plant T V M K E) (f : Filter T V M K E) (u : V) (t : T) :
    Option (Filter T V M K E) :=
  let inp : FilterInput T V M K :=
    { data := u, covariance := P.rc f.env, timestamp := t, isControl := true, model := none }
  if !f.params.rewindHistory then
    if TimeOps.le f.state.timestamp t then
      match applyInput P f inp with
      | none => none
      | some g => g.pruneHistory
    else some f
  else insertInput P f inp

/-- `correct(z, covariance, timestamp, model)`, filter_base.hpp:116-154. -/
def correct (P : Plant T V M K E) (f : Filter T V M K E) (z : V) (cov : M) (t : T) (m : Option K) :
    Option (Filter T V M K E) :=
  let inp : FilterInput T V M K :=
    { data := z, covariance := cov, timestamp := t, isControl := false, model := m }
  if !f.params.rewindHistory then
    let dt := TimeOps.sub t f.state.timestamp
    if f.params.allowPast || TimeOps.le TimeOps.zero dt then
      match applyInput P f inp with
      | none => none
      | some g => g.pruneHistory
    else some f
  else insertInput P f inp

/-- `enqueuControl(u, timestamp)`, filter_base.hpp:156-161. -/
def enqueueControl (P : Plant T V M K E) (f : Filter T V M K E) (u : V) (t : T) : Filter T V M K E :=
  { f with controlQueue := f.controlQueue ++
      [{ data := u, covariance := P.rc f.env, timestamp := t, isControl := true, model := none }] }

/-- `enqueuMeasurement(z, covariance, timestamp, model)`, filter_base.hpp:163-168. -/
def enqueueMeasurement (f : Filter T V M K E) (z : V) (cov : M) (t : T) (m : Option K) :
    Filter T V M K E :=
  { f with measQueue := f.measQueue ++
      [{ data := z, covariance := cov, timestamp := t, isControl := false, model := m }] }

/-- `clearControlQueue()`, filter_base.hpp:215-218. -/
def clearControlQueue (f : Filter T V M K E) : Filter T V M K E := { f with controlQueue := [] }
/-- `clearMeasurementQueue()`, filter_base.hpp:220-223. -/
def clearMeasurementQueue (f : Filter T V M K E) : Filter T V M K E := { f with measQueue := [] }

/-- `pruneQueue(queue)`, filter_base.hpp:445-456: the erase loop is a filter. -/
def pruneQueue (f : Filter T V M K E) (q : List (FilterInput T V M K)) : List (FilterInput T V M K) :=
  match f.params.rewindHistory, f.history with
  | true, front :: _ => q.filter (fun i => !TimeOps.lt i.timestamp front.timestamp)
  | _, _ => q

/-- filter_base.hpp:185-191. -/
def oldestQueued (cq mq : List (FilterInput T V M K)) : Bound T :=
  mq.foldl (fun b i => Bound.min b i.timestamp) (cq.foldl (fun b i => Bound.min b i.timestamp) none)

/-- `processQueues()`, filter_base.hpp:170-213.  `sort` stands for `std::sort` with the comparator of line 208,
which is not stable: theorems quantify over every `sort` returning an ordered permutation.  The result of
`rewindHistory` (line 197) is ignored, as in the code. -/
def processQueues (P : Plant T V M K E)
    (sort : List (FilterInput T V M K) → List (FilterInput T V M K)) (f : Filter T V M K E) :
    Option (Filter T V M K E) :=
  let cq := f.pruneQueue f.controlQueue
  let mq := f.pruneQueue f.measQueue
  let f := { f with controlQueue := cq, measQueue := mq }
  let r : Option (Filter T V M K E × List (FilterState T V M K)) :=
    if f.params.rewindHistory then
      match f.rewindHistory (oldestQueued cq mq) with
      | none => none
      | some (g, _, post) => some (g, post)
    else some (f, [])
  match r with
  | none => none
  | some (g, post) =>
    match applyBatchInputs P g (sort (post.map FilterState.prevInput ++ cq ++ mq)) with
    | none => none
    | some g => some g.clearControlQueue.clearMeasurementQueue

/-- `revertToState(timestamp)`, filter_base.hpp:225-242. -/
def revertToState (f : Filter T V M K E) (t : T) : Option (Filter T V M K E × Bool) :=
  match f.rewindHistory (some t) with
  | none => none
  | some (g, true, _) => some (g.clearControlQueue.clearMeasurementQueue, true)
  | some (g, false, _) => some (g, false)

end Filter

/-- The public API of `FilterBase` as data (filter_base.h:102-214), plus `setParams` (writing through
`parameters()`, hpp:16-19) and `userModel` (the user changing the model objects between filter calls, e.g.
`setControlCovariance`, `setTf`, `setActiveStates`). -/
inductive Op (T V M K E : Type) where
  | init (x : V) (cov : M) (t : T)
  | predictTime (t : T)
  | predictControl (u : V) (t : T)
  | correct (z : V) (cov : M) (t : T) (m : Option K)
  | enqueueControl (u : V) (t : T)
  | enqueueMeasurement (z : V) (cov : M) (t : T) (m : Option K)
  | processQueues
  | clearControlQueue
  | clearMeasurementQueue
  | revertToState (t : T)
  | setParams (p : Params T)
  | userModel (g : E → Option E)

/-- One API call; `none` if it terminates abnormally. -/
def Filter.step (P : Plant T V M K E)
    (sort : List (FilterInput T V M K) → List (FilterInput T V M K))
    (f : Filter T V M K E) : Op T V M K E → Option (Filter T V M K E)
  | .init x c t => some (f.init x c t)
  | .predictTime t => f.predictTime P t
  | .predictControl u t => f.predictControl P u t
  | .correct z c t m => f.correct P z c t m
  | .enqueueControl u t => some (f.enqueueControl P u t)
  | .enqueueMeasurement z c t m => some (f.enqueueMeasurement z c t m)
  | .processQueues => f.processQueues P sort
  | .clearControlQueue => some f.clearControlQueue
  | .clearMeasurementQueue => some f.clearMeasurementQueue
  | .revertToState t => (f.revertToState t).map Prod.fst
  | .setParams p => some { f with params := p }
  | .userModel g => (g f.env).map fun e => { f with env := e }

/-- A sequence of API calls. -/
def Filter.run (P : Plant T V M K E)
    (sort : List (FilterInput T V M K) → List (FilterInput T V M K)) :
    Filter T V M K E → List (Op T V M K E) → Option (Filter T V M K E)
  | f, [] => some f
  | f, op :: ops =>
    match f.step P sort op with
    | none => none
    | some g => Filter.run P sort g ops

/-- What `std::sort` with `A.timestamp < B.timestamp` (hpp:207-208) guarantees: an ordered permutation.  Nothing
about equal time stamps. -/
def IsTimeSort (sort : List (FilterInput T V M K) → List (FilterInput T V M K)) : Prop :=
  ∀ l, (sort l).Perm l ∧ (sort l).Pairwise (fun a b => TimeOps.lt b.timestamp a.timestamp = false)

end StateEstimation
