import Verif.Spec.Filter

/-!
# Counting model evaluations

The expensive part of every call is running the filter equations (`myPredict`, `myCorrect`) or the stationary callbacks
(`processStationaryInput`).  `Plant.metered` is the same plant with a counter next to the models that every such run
increments and nothing reads.
-/

namespace StateEstimation

variable {T V M K E : Type}

/-- The same callbacks, and a counter of how often the filter equations or the stationary callbacks were run. -/
@[reducible] def Plant.metered (P : Plant T V M K E) : Plant T V M K (E × Nat) where
  vsize := P.vsize
  emptyV := P.emptyV
  emptyM := P.emptyM
  zeroV := P.zeroV
  controlSize e := P.controlSize e.1
  rc e := P.rc e.1
  setRc e R := (P.setRc e.1 R).map fun e' => (e', e.2)
  sysCheck e := P.sysCheck e.1
  sysIsStationary e := P.sysIsStationary e.1
  sysProcess e x u := (P.sysProcess e.1 x u).map fun e' => (e', e.2 + 1)
  sysMake e := P.sysMake e.1
  setMeasCov e k R := (P.setMeasCov e.1 k R).map fun e' => (e', e.2)
  measCheck e := P.measCheck e.1
  measIsStationary e := P.measIsStationary e.1
  measProcess e k x z := (P.measProcess e.1 k x z).map fun e' => (e', e.2 + 1)
  measMake e := P.measMake e.1
  myPredict e x c u dt := (P.myPredict e.1 x c u dt).map fun r => (r.1, r.2.1, (r.2.2, e.2 + 1))
  myCorrect e x c z k dt := (P.myCorrect e.1 x c z k dt).map fun r => (r.1, r.2.1, (r.2.2, e.2 + 1))

/-- The same call on the metered filter; the user's own changes to the models are not counted. -/
def Op.metered : Op T V M K E → Op T V M K (E × Nat)
  | .init x c t => .init x c t
  | .predictTime t => .predictTime t
  | .predictControl u t => .predictControl u t
  | .correct z c t m => .correct z c t m
  | .enqueueControl u t => .enqueueControl u t
  | .enqueueMeasurement z c t m => .enqueueMeasurement z c t m
  | .processQueues => .processQueues
  | .clearControlQueue => .clearControlQueue
  | .clearMeasurementQueue => .clearMeasurementQueue
  | .revertToState t => .revertToState t
  | .setParams p => .setParams p
  | .userModel g => .userModel fun e => (g e.1).map fun e' => (e', e.2)

/-- A filter over the models alone, with the counter set to `n`. -/
def Filter.metered (f : Filter T V M K E) (n : Nat) : Filter T V M K (E × Nat) :=
  ⟨f.params, f.state, f.prevControl, f.prevControlCov, (f.env, n), f.history, f.controlQueue, f.measQueue⟩

/-- Forget the counter. -/
def Filter.unmetered (f : Filter T V M K (E × Nat)) : Filter T V M K E :=
  ⟨f.params, f.state, f.prevControl, f.prevControlCov, f.env.1, f.history, f.controlQueue, f.measQueue⟩

/-- How often the filter equations or stationary callbacks were run so far. -/
def Filter.work (f : Filter T V M K (E × Nat)) : Nat := f.env.2

variable [LinearOrder T]

/-- The states a late input at time `t` undoes: in rewind mode, if `t` is before the current time, the remembered states at
or after `t`. -/
def Filter.undone (f : Filter T V M K E) (t : T) : List (FilterState T V M K) :=
  if f.params.rewindHistory = true ∧ t < f.state.timestamp then f.retained.filter fun s => decide (t ≤ s.timestamp) else []

/-- The states `processQueues` undoes: in rewind mode, the remembered ones at or after some queued input. -/
def Filter.undoneByQueues (f : Filter T V M K E) : List (FilterState T V M K) :=
  if f.params.rewindHistory = true then
    f.retained.filter fun s => f.queued.any fun i => decide (i.timestamp ≤ s.timestamp)
  else []

/-- How often the filter equations may be run in one call: a prediction runs them once, a correction at most twice (it may
have to predict first), every undone input is repeated and so costs at most two, and the other calls do not run them. -/
def Filter.workBound (f : Filter T V M K E) : Op T V M K E → Nat
  | .predictTime _ => 1
  | .predictControl _ t => 1 + 2 * (f.undone t).length
  | .correct _ _ t _ => 2 + 2 * (f.undone t).length
  | .processQueues => 2 * (f.queued.length + f.undoneByQueues.length)
  | _ => 0

end StateEstimation
