import Verif.Model.FilterBase
import Verif.Spec.Filter

/-!
# The part of the filter that applying one input can read or write

`Core` is the estimate, its time, the remembered control and the models.  `applyInput` is shown to factor
through it (`applyInput_eq`), which separates the estimation step from the bookkeeping of history and queues.
-/

set_option linter.unusedSectionVars false

namespace StateEstimation

variable {T V M K E : Type} [TimeOps T]

/-- Estimate, time, remembered control and models. -/
structure Core (T V M E : Type) where
  x : V
  cov : M
  ts : T
  pc : V
  pcc : M
  env : E

namespace Core

/-- control step without the clock -/
def control (P : Plant T V M K E) (c : Core T V M E) (inp : FilterInput T V M K) :
    Option (Core T V M E) :=
  let dt := TimeOps.sub inp.timestamp c.ts
  let sel : V × M × V × M :=
    if P.vsize inp.data > 0 then (inp.data, inp.covariance, inp.data, inp.covariance)
    else if P.vsize c.pc > 0 then (c.pc, c.pcc, c.pc, c.pcc)
    else (P.zeroV (P.controlSize c.env), P.rc c.env, c.pc, c.pcc)
  if !(P.sysCheck c.env && P.sysIsStationary c.env c.x inp.data) then
    match P.setRc c.env sel.2.1 with
    | none => none
    | some env =>
      match P.myPredict env c.x c.cov sel.1 dt with
      | none => none
      | some (x, cv, env) => some ⟨x, cv, c.ts, sel.2.2.1, sel.2.2.2, env⟩
  else
    match P.sysProcess c.env c.x inp.data with
    | none => none
    | some env =>
      match P.sysMake env c.x c.cov with
      | none => none
      | some (x, cv) => some ⟨x, cv, c.ts, sel.2.2.1, sel.2.2.2, env⟩

/-- measurement step after the state has been advanced -/
def meas (P : Plant T V M K E) (c : Core T V M E) (inp : FilterInput T V M K) (dt : T) :
    Option (Core T V M E) :=
  match inp.model with
  | none => none
  | some m =>
    match P.setMeasCov c.env m inp.covariance with
    | none => none
    | some env =>
      if !(P.measCheck env m && P.measIsStationary env m c.x inp.data) then
        match P.myCorrect env c.x c.cov inp.data m dt with
        | none => none
        | some (x, cv, env) => some { c with x := x, cov := cv, env := env }
      else
        match P.measProcess env m c.x inp.data with
        | none => none
        | some env =>
          match P.measMake env m c.x c.cov with
          | none => none
          | some (x, cv) => some { c with x := x, cov := cv, env := env }

/-- advance the clock -/
def tick (c : Core T V M E) (dt : T) : Core T V M E := { c with ts := TimeOps.add c.ts dt }

/-- the input used to advance the state to a measurement -/
def advInput (c : Core T V M E) (t : T) : FilterInput T V M K :=
  { data := c.pc, covariance := c.pcc, timestamp := t, isControl := true, model := none }

/-- one input -/
def apply (P : Plant T V M K E) (c : Core T V M E) (inp : FilterInput T V M K) :
    Option (Core T V M E) :=
  let dt := TimeOps.sub inp.timestamp c.ts
  if inp.isControl then (control P c inp).map (·.tick dt)
  else if TimeOps.lt TimeOps.zero dt then
    ((control P c (c.advInput inp.timestamp)).map (·.tick dt)).bind (fun c => meas P c inp dt)
  else meas P c inp dt

/-- several inputs -/
def applyList (P : Plant T V M K E) : Core T V M E → List (FilterInput T V M K) → Option (Core T V M E)
  | c, [] => some c
  | c, i :: is => (apply P c i).bind (fun c => applyList P c is)

end Core

namespace Filter

/-- projection -/
def core (f : Filter T V M K E) : Core T V M E :=
  ⟨f.state.x, f.state.covariance, f.state.timestamp, f.prevControl, f.prevControlCov, f.env⟩

/-- history after one more input -/
def pushed (f : Filter T V M K E) : List (FilterState T V M K) :=
  if f.params.rewindHistory then f.history ++ [f.state] else f.history

/-- put a core back -/
def withCore (f : Filter T V M K E) (c : Core T V M E) (pi : FilterInput T V M K) : Filter T V M K E :=
  { f with
    state := ⟨c.x, c.cov, c.ts, pi⟩
    prevControl := c.pc
    prevControlCov := c.pcc
    env := c.env }

@[simp] theorem core_withCore (f : Filter T V M K E) (c pi) : (f.withCore c pi).core = c := rfl
@[simp] theorem withCore_params (f : Filter T V M K E) (c pi) : (f.withCore c pi).params = f.params := rfl
@[simp] theorem withCore_history (f : Filter T V M K E) (c pi) : (f.withCore c pi).history = f.history := rfl
@[simp] theorem withCore_cq (f : Filter T V M K E) (c pi) :
    (f.withCore c pi).controlQueue = f.controlQueue := rfl
@[simp] theorem withCore_mq (f : Filter T V M K E) (c pi) :
    (f.withCore c pi).measQueue = f.measQueue := rfl
@[simp] theorem withCore_state (f : Filter T V M K E) (c pi) :
    (f.withCore c pi).state = ⟨c.x, c.cov, c.ts, pi⟩ := rfl

theorem applyControlInput_eq (P : Plant T V M K E) (f : Filter T V M K E) (inp : FilterInput T V M K) :
    applyControlInput P f inp
      = (Core.control P f.core inp).map (fun c => f.withCore c f.state.prevInput) := by
  unfold applyControlInput Core.control core
  dsimp only
  by_cases h1 : P.vsize inp.data > 0
  · simp only [h1, if_true]
    split
    · cases h2 : P.setRc f.env inp.covariance with
      | none => rfl
      | some e =>
        dsimp only
        cases h3 : P.myPredict e f.state.x f.state.covariance inp.data
            (TimeOps.sub inp.timestamp f.state.timestamp) <;> rfl
    · cases h2 : P.sysProcess f.env f.state.x inp.data with
      | none => rfl
      | some e =>
        dsimp only
        cases h3 : P.sysMake e f.state.x f.state.covariance <;> rfl
  · simp only [h1, if_false]
    by_cases h4 : P.vsize f.prevControl > 0
    · simp only [h4, if_true]
      split
      · cases h2 : P.setRc f.env f.prevControlCov with
        | none => rfl
        | some e =>
          dsimp only
          cases h3 : P.myPredict e f.state.x f.state.covariance f.prevControl
              (TimeOps.sub inp.timestamp f.state.timestamp) <;> rfl
      · cases h2 : P.sysProcess f.env f.state.x inp.data with
        | none => rfl
        | some e =>
          dsimp only
          cases h3 : P.sysMake e f.state.x f.state.covariance <;> rfl
    · simp only [h4, if_false]
      split
      · cases h2 : P.setRc f.env (P.rc f.env) with
        | none => rfl
        | some e =>
          dsimp only
          cases h3 : P.myPredict e f.state.x f.state.covariance (P.zeroV (P.controlSize f.env))
              (TimeOps.sub inp.timestamp f.state.timestamp) <;> rfl
      · cases h2 : P.sysProcess f.env f.state.x inp.data with
        | none => rfl
        | some e =>
          dsimp only
          cases h3 : P.sysMake e f.state.x f.state.covariance <;> rfl

theorem correctAt_eq (P : Plant T V M K E) (g : Filter T V M K E) (inp : FilterInput T V M K) (dt : T) :
    correctAt P g inp dt = (Core.meas P g.core inp dt).map (fun c => g.withCore c g.state.prevInput) := by
  unfold correctAt Core.meas core
  dsimp only
  cases inp.model with
  | none => rfl
  | some m =>
    dsimp only
    cases P.setMeasCov g.env m inp.covariance with
    | none => rfl
    | some e =>
      dsimp only
      split
      · cases P.myCorrect e g.state.x g.state.covariance inp.data m dt <;> rfl
      · cases P.measProcess e m g.state.x inp.data with
        | none => rfl
        | some e2 =>
          dsimp only
          cases P.measMake e2 m g.state.x g.state.covariance <;> rfl

theorem applyMeasurementInput_eq (P : Plant T V M K E) (f : Filter T V M K E)
    (inp : FilterInput T V M K) :
    applyMeasurementInput P f inp
      = (if TimeOps.lt TimeOps.zero (TimeOps.sub inp.timestamp f.state.timestamp) then
          ((Core.control P f.core (f.core.advInput inp.timestamp)).map
            (·.tick (TimeOps.sub inp.timestamp f.state.timestamp))).bind
            (fun c => Core.meas P c inp (TimeOps.sub inp.timestamp f.state.timestamp))
        else Core.meas P f.core inp (TimeOps.sub inp.timestamp f.state.timestamp)).map
          (fun c => f.withCore c f.state.prevInput) := by
  unfold applyMeasurementInput
  dsimp only
  split
  · rw [applyControlInput_eq]
    have hadv : (⟨f.prevControl, f.prevControlCov, inp.timestamp, true, none⟩ : FilterInput T V M K)
        = f.core.advInput inp.timestamp := rfl
    rw [hadv]
    cases h : Core.control P f.core (f.core.advInput inp.timestamp) with
    | none => rfl
    | some c =>
      simp only [Option.map_some, Option.bind_some]
      rw [correctAt_eq]
      rfl
  · rw [correctAt_eq]

theorem applyInput_eq (P : Plant T V M K E) (f : Filter T V M K E) (inp : FilterInput T V M K) :
    applyInput P f inp
      = (Core.apply P f.core inp).map (fun c => { f.withCore c inp with history := f.pushed }) := by
  unfold applyInput Core.apply
  dsimp only
  have hp : (if f.params.rewindHistory then { f with history := f.history ++ [f.state] } else f)
      = { f with history := f.pushed } := by
    unfold pushed; split <;> rfl
  rw [hp]
  have hcore : (({ f with history := f.pushed } : Filter T V M K E)).core = f.core := rfl
  have hts : f.core.ts = f.state.timestamp := rfl
  rw [hts]
  split
  · rw [applyControlInput_eq, hcore]
    cases Core.control P f.core inp <;> rfl
  · rw [applyMeasurementInput_eq, hcore]
    dsimp only
    generalize (if TimeOps.lt TimeOps.zero (TimeOps.sub inp.timestamp f.state.timestamp) = true then
      ((Core.control P f.core (f.core.advInput inp.timestamp)).map
          (·.tick (TimeOps.sub inp.timestamp f.state.timestamp))).bind
            (fun c => Core.meas P c inp (TimeOps.sub inp.timestamp f.state.timestamp))
      else Core.meas P f.core inp (TimeOps.sub inp.timestamp f.state.timestamp)) = r
    cases r <;> rfl

theorem applyAll_core (P : Plant T V M K E) (f : Filter T V M K E) (is : List (FilterInput T V M K)) :
    (applyAll P f is).map core = Core.applyList P f.core is := by
  induction is generalizing f with
  | nil => rfl
  | cons i is ih =>
    unfold applyAll Core.applyList
    rw [applyInput_eq]
    cases h : Core.apply P f.core i with
    | none => rfl
    | some c => simp only [Option.map_some, Option.bind_some]; rw [ih]; rfl

end Filter

end StateEstimation
