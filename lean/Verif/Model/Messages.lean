import Verif.Model.FilterBase

/-!
# What the filters write to `std::cerr`

`Model/FilterBase.lean` leaves the output out.  Here the functions that write to `std::cerr` (`predict(u, t)`,
filter_base.hpp:103-105, and `correct`, filter_base.hpp:142-145) are modelled once more, with the messages they write; all
other functions of the library write nothing unless `DEBUG_STATE_ESTIMATION` is defined, and that output (`std::cout`) is
not modelled.  A message is represented by its kind and the time stamp it contains, not by its text
(`std::to_string(timestamp)` prints six decimals of it).
-/

namespace StateEstimation

/-- The two messages, each with the time stamp it shows. -/
inductive Complaint (T : Type) where
  /-- "Cannot apply control input with timestamp ... because it is older than any states in the filter's history",
  filter_base.hpp:103-105. -/
  | control (t : T)
  /-- "Cannot apply measurement input with timestamp ...", filter_base.hpp:142-145. -/
  | measurement (t : T)
deriving DecidableEq, Repr

namespace Filter
variable {T V M K E : Type} [TimeOps T]

/-- The rewind branch of `predict(u, t)` (filter_base.hpp:89-113) and `correct` (132-153) with the message of lines 103-105
and 142-145. -/
def insertInputSaying (P : Plant T V M K E) (f : Filter T V M K E) (inp : FilterInput T V M K) (say : Complaint T) :
    Option (Filter T V M K E × List (Complaint T)) :=
  if TimeOps.lt inp.timestamp f.state.timestamp then
    match f.rewindHistory (some inp.timestamp) with
    | none => none
    | some (_, false, _) => some (f, [say])
    | some (g, true, post) => (applyBatchInputs P g (inp :: post.map FilterState.prevInput)).map fun h => (h, [])
  else (applyBatchInputs P f [inp]).map fun h => (h, [])

/-- `predict(u, timestamp)`, filter_base.hpp:73-114, with its messages. -/
def predictControlSaying (P : Plant T V M K E) (f : Filter T V M K E) (u : V) (t : T) :
    Option (Filter T V M K E × List (Complaint T)) :=
  let inp : FilterInput T V M K :=
    { data := u, covariance := P.rc f.env, timestamp := t, isControl := true, model := none }
  if !f.params.rewindHistory then
    if TimeOps.le f.state.timestamp t then
      ((applyInput P f inp).bind fun g => g.pruneHistory).map fun h => (h, [])
    else some (f, [])
  else insertInputSaying P f inp (.control t)

/-- `correct(z, covariance, timestamp, model)`, filter_base.hpp:116-154, with its messages. -/
def correctSaying (P : Plant T V M K E) (f : Filter T V M K E) (z : V) (cov : M) (t : T) (m : Option K) :
    Option (Filter T V M K E × List (Complaint T)) :=
  let inp : FilterInput T V M K :=
    { data := z, covariance := cov, timestamp := t, isControl := false, model := m }
  if !f.params.rewindHistory then
    let dt := TimeOps.sub t f.state.timestamp
    if f.params.allowPast || TimeOps.le TimeOps.zero dt then
      ((applyInput P f inp).bind fun g => g.pruneHistory).map fun h => (h, [])
    else some (f, [])
  else insertInputSaying P f inp (.measurement t)

/-- One API call with what it writes to `std::cerr`.  `processQueues` (filter_base.hpp:170-213) drops inputs older than the
history in `pruneQueue` (445-456) and ignores the result of `rewindHistory` (197); neither writes anything. -/
def stepSaying (P : Plant T V M K E) (sort : List (FilterInput T V M K) → List (FilterInput T V M K))
    (f : Filter T V M K E) : Op T V M K E → Option (Filter T V M K E × List (Complaint T))
  | .predictControl u t => f.predictControlSaying P u t
  | .correct z c t m => f.correctSaying P z c t m
  | op => (f.step P sort op).map fun g => (g, [])

/-- A sequence of API calls with everything written to `std::cerr`, in order. -/
def runSaying (P : Plant T V M K E) (sort : List (FilterInput T V M K) → List (FilterInput T V M K)) :
    Filter T V M K E → List (Op T V M K E) → Option (Filter T V M K E × List (Complaint T))
  | f, [] => some (f, [])
  | f, op :: ops =>
    match f.stepSaying P sort op with
    | none => none
    | some (g, said) => (runSaying P sort g ops).map fun r => (r.1, said ++ r.2)

end Filter
end StateEstimation
