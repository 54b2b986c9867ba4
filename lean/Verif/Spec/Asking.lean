import Verif.Spec.LinearUse

/-!
# Specification vocabulary: asking a filter for predictions in between

A user calls `predict(t)` to see the estimate at time `t`.  `Asked ops ops'` says that `ops'` are the calls `ops` with
such questions in between.
-/

namespace StateEstimation

variable {T V M K E : Type}

/-- A call to which the filter goes with the control it has been using: a measurement at `t` or later, or a prediction to `t`
or later. -/
def Op.GoesOnTo [LE T] (t : T) : Op T V M K E → Prop
  | .correct _ _ s _ | .predictTime s => t ≤ s
  | _ => False

/-- `Asked ops ops'`: the calls `ops'` are `ops` with calls `predict(t)` inserted, each before a measurement or prediction of
time `t` or later (not before a new control, and not after the last call). -/
inductive Asked [LE T] : List (Op T V M K E) → List (Op T V M K E) → Prop
  | nil : Asked [] []
  | call (op : Op T V M K E) {ops ops' : List (Op T V M K E)} : Asked ops ops' → Asked (op :: ops) (op :: ops')
  | ask (t : T) {op : Op T V M K E} {ops ops' : List (Op T V M K E)} :
      op.GoesOnTo t → Asked (op :: ops) ops' → Asked (op :: ops) (.predictTime t :: ops')

/-- Predicting over two periods with the same control is predicting over both at once: same state and covariance, or abnormal
termination both ways.  For the model objects described by `cfg`. -/
def SplitsTime [LT T] [TimeOps T] (P : Plant T V M K E) (cfg : E → Prop) : Prop :=
  ∀ e x c u (t0 t1 t2 : T), cfg e → t0 < t1 → t1 < t2 →
    match (P.myPredict e x c u (TimeOps.sub t1 t0)).bind (fun r => P.myPredict r.2.2 r.1 r.2.1 u (TimeOps.sub t2 t1)),
      P.myPredict e x c u (TimeOps.sub t2 t0) with
    | none, none => True
    | some r, some q => r.1 = q.1 ∧ r.2.1 = q.2.1
    | _, _ => False

/-- The call does not turn `rewind_history` on. -/
def Op.StaysOff : Op T V M K E → Prop
  | .setParams p => p.rewindHistory = false
  | _ => True

/-- Corrections do not depend on the time since the last input. -/
def IgnoresElapsed (P : Plant T V M K E) : Prop :=
  ∀ e x c z k (a b : T), P.myCorrect e x c z k a = P.myCorrect e x c z k b

/-- A linear model whose matrices for a period are those for its parts put together: `A` and `B` are the solution of a linear
differential equation with constant control, and the noise is as much as the parts together bring in (`W Rp Wᵀ` grows with
time, as for continuous white noise). -/
structure LinearUse.Flows [LT T] [TimeOps T] {n m p : Nat} {kd : K → Nat} (L : LinearUse T K n m p kd) : Prop where
  state : ∀ t0 t1 t2 : T, t0 < t1 → t1 < t2 →
    L.A (TimeOps.sub t2 t0) = L.A (TimeOps.sub t2 t1) * L.A (TimeOps.sub t1 t0)
  control : ∀ t0 t1 t2 : T, t0 < t1 → t1 < t2 →
    L.B (TimeOps.sub t2 t0) = L.A (TimeOps.sub t2 t1) * L.B (TimeOps.sub t1 t0) + L.B (TimeOps.sub t2 t1)
  noise : ∀ t0 t1 t2 : T, t0 < t1 → t1 < t2 →
    let N := fun d => L.W d * L.Rp * (L.W d).transpose + L.V d * L.Rc * (L.V d).transpose
    N (TimeOps.sub t2 t0) = L.A (TimeOps.sub t2 t1) * N (TimeOps.sub t1 t0) * (L.A (TimeOps.sub t2 t1)).transpose
      + N (TimeOps.sub t2 t1)

end StateEstimation
