import Verif.Model.FilterBase

/-!
# Specification vocabulary: the same filter, inputs and calls on another clock

`φ` translates time stamps, `ψ` durations (the history window, the step length `dt` the models see).
-/

namespace StateEstimation

variable {T T' V M K E : Type}

/-- the same input on another clock -/
def FilterInput.mapTime (φ : T → T') (i : FilterInput T V M K) : FilterInput T' V M K :=
  ⟨i.data, i.covariance, φ i.timestamp, i.isControl, i.model⟩

/-- the same state on another clock -/
def FilterState.mapTime (φ : T → T') (s : FilterState T V M K) : FilterState T' V M K :=
  ⟨s.x, s.covariance, φ s.timestamp, s.prevInput.mapTime φ⟩

/-- the same parameters on another clock -/
def Params.mapTime (ψ : T → T') (p : Params T) : Params T' := ⟨p.rewindHistory, ψ p.historyWindow, p.allowPast⟩

/-- the same filter on another clock -/
def Filter.mapTime (φ ψ : T → T') (f : Filter T V M K E) : Filter T' V M K E :=
  { params := f.params.mapTime ψ
    state := f.state.mapTime φ
    prevControl := f.prevControl
    prevControlCov := f.prevControlCov
    env := f.env
    history := f.history.map (·.mapTime φ)
    controlQueue := f.controlQueue.map (·.mapTime φ)
    measQueue := f.measQueue.map (·.mapTime φ) }

/-- the same call on another clock -/
def Op.mapTime (φ ψ : T → T') : Op T V M K E → Op T' V M K E
  | .init x c t => .init x c (φ t)
  | .predictTime t => .predictTime (φ t)
  | .predictControl u t => .predictControl u (φ t)
  | .correct z c t m => .correct z c (φ t) m
  | .enqueueControl u t => .enqueueControl u (φ t)
  | .enqueueMeasurement z c t m => .enqueueMeasurement z c (φ t) m
  | .processQueues => .processQueues
  | .clearControlQueue => .clearControlQueue
  | .clearMeasurementQueue => .clearMeasurementQueue
  | .revertToState t => .revertToState (φ t)
  | .setParams p => .setParams (p.mapTime ψ)
  | .userModel g => .userModel g

/-- The models, which only see the step length `dt`, on a clock whose values are read through `φ`. -/
def Plant.onClock (φ : T → T') (P : Plant T' V M K E) : Plant T V M K E :=
  { P with
    myPredict := fun e x c u dt => P.myPredict e x c u (φ dt)
    myCorrect := fun e x c z m dt => P.myCorrect e x c z m (φ dt) }

end StateEstimation
