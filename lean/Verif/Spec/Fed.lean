import Verif.Spec.Filter

/-! # Specification vocabulary: what a caller does without resetting the filter -/

namespace StateEstimation

variable {T K : Type}

/-- The call only feeds data to the filter or changes models: no `initialize`, `revertToState`, parameter change, and not
`processQueues`. -/
def Op.FeedsOn {V M E : Type} : Op T V M K E → Prop
  | .init _ _ _ | .revertToState _ | .setParams _ | .processQueues => False
  | _ => True

/-- `g` results from `f` by any number of well-formed calls that feed data, and of `processQueues` (with rewinding on: with
queues that can be placed in time, C22). -/
inductive FedTo [TimeOps T] {V M E : Type} (P : Plant T V M K E)
    (sort : List (FilterInput T V M K) → List (FilterInput T V M K)) (wf : Op T V M K E → Prop) (f : Filter T V M K E) :
    Filter T V M K E → Prop
  | refl : FedTo P sort wf f f
  | call (g h : Filter T V M K E) (op : Op T V M K E) :
      FedTo P sort wf f g → wf op → op.FeedsOn → g.step P sort op = some h → FedTo P sort wf f h
  | queues (g h : Filter T V M K E) :
      FedTo P sort wf f g → (g.params.rewindHistory = true → g.QueuesPlaceable) → g.processQueues P sort = some h →
        FedTo P sort wf f h

end StateEstimation
