import Verif.Spec.Sharing
import Verif.Model.VS

/-!
# Uninitialised memory

`Eigen::MatrixXd(r, c)` leaves its entries uninitialised (ukf.cpp:56, 107-108; ukf_vs.cpp:66, 147-148): whatever the heap
held before.  The model has the content of such memory as a parameter `junk`; a result does not depend on it if it is the same
for any two contents.
-/

namespace StateEstimation

/-- `update` and `processStationaryInput` leave alone the part of the model that only its setters change: number of states,
active states, stationary functions. -/
structure SysClass.KeepsModel {T D X : Type} (sc : SysClass T D X) : Prop where
  update : ∀ s x u dt s', sc.myUpdate s x u dt = some s' → s'.fm = s.fm
  stationary : ∀ s x u s', sc.processStationary s x u = some s' → s'.fm = s.fm

variable {T V M K E : Type} [TimeOps T]

/-- The same result: either both programs reach the end with the same estimates, or both abort. -/
def SameResult (a b : Option (Filter T V M K E)) : Prop :=
  match a, b with
  | some f, some g => SameEstimates f g
  | none, none => True
  | _, _ => False

/-- User changes of the models that keep `Good`. -/
def Keeps (Good : E → Prop) (g : E → Option E) : Prop := ∀ e e', Good e → g e = some e' → Good e'

/-- As many sigma points as the filter class needs for the number of states: what `UKF`'s constructors and
`setSigmaPointParameters` establish. -/
def FitsStates {DS XS DM XM : Type} (e : Env K DS XS DM XM × SigmaParams) : Prop := e.2.num = 2 * e.1.sys.stateSize + 1

/-- As many sigma points as there are active states: what `UKFVS`'s constructors and `setSigmaPointParameters` establish. -/
def FitsActive {DS XS DM XM : Type} (e : Env K DS XS DM XM × SigmaParams) : Prop :=
  e.2.num = 2 * e.1.sys.activeStateSize + 1

end StateEstimation
