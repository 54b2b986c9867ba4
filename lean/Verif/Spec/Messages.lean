import Verif.Spec.Filter
import Verif.Model.Messages

/-! # Specification vocabulary for the error messages -/

namespace StateEstimation
variable {T V M K E : Type}

/-- The message the documentation of the code promises for a call that has to be refused. -/
def Op.complaint : Op T V M K E → List (Complaint T)
  | .predictControl _ t => [.control t]
  | .correct _ _ t _ => [.measurement t]
  | _ => []

/-- The input is older than everything the filter remembers: older than the estimate, and no remembered state (the current
one included) is strictly older than the input. -/
def Filter.TooOld [LT T] (f : Filter T V M K E) (t : T) : Prop :=
  t < f.getStateTime ∧ ¬ ∃ s ∈ f.retained, s.timestamp < t

/-- The call went back to a remembered state (or stayed at the current one) and applied the input there, followed by the inputs
that had been applied after that state. -/
def Filter.Applied [TimeOps T] (P : Plant T V M K E) (f : Filter T V M K E) (inp : FilterInput T V M K) (g : Filter T V M K E) :
    Prop :=
  ∃ older s newer, f.retained = older ++ s :: newer ∧
    Filter.applyBatchInputs P { f with state := s, history := older } (inp :: newer.map FilterState.prevInput) = some g

end StateEstimation
