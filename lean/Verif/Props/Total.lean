import Verif.Lemmas.PlantInv
import Verif.Examples.Toy

/-! # C13, whole-API form: the filter itself never fails -/

set_option linter.unusedSectionVars false

namespace StateEstimation
namespace Props

variable {T V M K E : Type} [TimeOps T]

/-- None of the model callbacks fails. -/
structure CallbacksTotal (P : Plant T V M K E) : Prop where
  setRc : ∀ e R, (P.setRc e R).isSome = true
  sysProcess : ∀ e x u, (P.sysProcess e x u).isSome = true
  sysMake : ∀ e x c, (P.sysMake e x c).isSome = true
  setMeasCov : ∀ e m R, (P.setMeasCov e m R).isSome = true
  measProcess : ∀ e m x z, (P.measProcess e m x z).isSome = true
  measMake : ∀ e m x c, (P.measMake e m x c).isSome = true
  myPredict : ∀ e x c u dt, (P.myPredict e x c u dt).isSome = true
  myCorrect : ∀ e x c z m dt, (P.myCorrect e x c z m dt).isSome = true

/-- The caller passes a measurement model (not a null pointer) and its own changes to the models do not fail. -/
def WellCalled : Op T V M K E → Prop
  | .correct _ _ _ m | .enqueueMeasurement _ _ _ m => m.isSome = true
  | .userModel g => ∀ e, (g e).isSome = true
  | _ => True

theorem optP_of_isSome {tot : Prop} {α : Type} {p : α → Prop} {o : Option α} (h : o.isSome = true) (hp : ∀ a, p a) :
    OptP tot p o := by
  cases o with
  | none => simp at h
  | some a => exact hp a

/-- **C13, whole API.**  If no model callback fails and every measurement comes with a model, then *no* sequence of API
calls ever ends abnormally: no out-of-range element of the history, no `back()` of an empty history, whatever the
time stamps (including NaN), the parameters (changed at will between calls) and the order of calls. -/
theorem C13_no_call_fails [SaneTime T] (P : Plant T V M K E) (hP : CallbacksTotal P) (hempty : P.vsize P.emptyV = 0)
    (sort : List (FilterInput T V M K) → List (FilterInput T V M K)) (hsort : ∀ l, (sort l).Perm l)
    (f : Filter T V M K E) (x : V) (c : M) (t : T) (ops : List (Op T V M K E)) (hops : ∀ op ∈ ops, WellCalled op) :
    ((f.init x c t).run P sort ops).isSome = true := by
  have hinv : PlantInv P True (fun _ _ => True) (fun _ => True) (fun _ => True) (fun _ => True)
      (fun _ _ _ => True) := {
    empty := hempty
    rc := fun _ _ => trivial
    zero := fun _ _ => trivial
    setRc := fun e c _ _ => optP_of_isSome (hP.setRc e c) (fun _ => trivial)
    predict := fun e x c u dt _ _ _ => optP_of_isSome (hP.myPredict e x c u dt) (fun _ => ⟨trivial, trivial⟩)
    sysStationary := fun e x c d _ _ _ => optP_of_isSome (hP.sysProcess e x d)
      (fun e' => ⟨trivial, optP_of_isSome (hP.sysMake e' x c) (fun _ => trivial)⟩)
    setMeasCov := fun e m z c _ _ => optP_of_isSome (hP.setMeasCov e m c) (fun e' => ⟨trivial,
      fun x p dt _ => optP_of_isSome (hP.myCorrect e' x p z m dt) (fun _ => ⟨trivial, trivial⟩),
      fun x p _ => optP_of_isSome (hP.measProcess e' m x z)
        (fun e'' => ⟨trivial, optP_of_isSome (hP.measMake e'' m x p) (fun _ => trivial)⟩)⟩) }
  have := hinv.run sort hsort f trivial (fun _ => ⟨trivial, trivial⟩) x c t trivial ops (by
    intro op hop
    have hw := hops op hop
    cases op with
    | correct z c t m =>
      obtain ⟨k, hk⟩ := Option.isSome_iff_exists.mp hw
      exact ⟨k, hk, trivial⟩
    | enqueueMeasurement z c t m =>
      obtain ⟨k, hk⟩ := Option.isSome_iff_exists.mp hw
      exact ⟨k, hk, trivial⟩
    | userModel g => exact fun e _ => optP_of_isSome (hw e) (fun _ => trivial)
    | init x c t => trivial
    | predictTime t => trivial
    | predictControl u t => exact fun _ => trivial
    | enqueueControl u t => exact fun _ => trivial
    | processQueues => trivial
    | clearControlQueue => trivial
    | clearMeasurementQueue => trivial
    | revertToState t => trivial
    | setParams p => trivial)
  cases h : (f.init x c t).run P sort ops with
  | none => rw [h] at this; exact absurd trivial this
  | some g => rfl

/-- The toy plant meets the hypotheses. -/
example : CallbacksTotal toy ∧ toy.vsize toy.emptyV = 0 ∧ SaneTime ℤ :=
  ⟨⟨fun _ _ => rfl, fun _ _ _ => rfl, fun _ _ _ => rfl, fun _ _ _ => rfl, fun _ _ _ _ => rfl, fun _ _ _ _ => rfl,
    fun _ _ _ _ _ => rfl, fun _ _ _ _ _ _ => rfl⟩, rfl, inferInstance⟩

/-- The hypothesis on null pointers is needed: `correct` with a null model dereferences it. -/
example : toyRun toyPlain [.correct [1] 0 1 none] = none := by decide

end Props
end StateEstimation
