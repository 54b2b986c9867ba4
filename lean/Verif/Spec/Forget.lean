import Verif.Spec.History
import Verif.Spec.Filter

/-!
# Specification vocabulary: two filters that start from different beliefs
-/

namespace StateEstimation

open Matrix

variable {T K X Y : Type}

/-- The same call in two runs (`n` states, `m` controls, `kd k` measurements), with any numbers in the vectors.  The (positive
definite) covariances of measurements agree; a new initial covariance may differ, but the first run's is at most `l` times the
second's.  The user does not change the models in between. -/
def Op.UpToFactor {E : Type} (l : ℝ) (n m : Nat) (kd : K → Nat) : Op T DVec DMat K E → Op T DVec DMat K E → Prop
  | .init x c t, .init x' c' t' => x.size = n ∧ x'.size = n ∧ c.Is n n ∧ c.PSD ∧ c.Le (c'.smul l) ∧ t' = t
  | .predictTime t, .predictTime t' => t' = t
  | .predictControl u t, .predictControl u' t' => (u.size = m ∨ u.size = 0) ∧ u'.size = u.size ∧ t' = t
  | .correct z c t k, .correct z' c' t' k' =>
      t' = t ∧ k' = k ∧ c' = c ∧ ∃ j, k = some j ∧ z.size = kd j ∧ z'.size = kd j ∧ c.Is (kd j) (kd j) ∧ c.PD
  | .enqueueControl u t, .enqueueControl u' t' => (u.size = m ∨ u.size = 0) ∧ u'.size = u.size ∧ t' = t
  | .enqueueMeasurement z c t k, .enqueueMeasurement z' c' t' k' =>
      t' = t ∧ k' = k ∧ c' = c ∧ ∃ j, k = some j ∧ z.size = kd j ∧ z'.size = kd j ∧ c.Is (kd j) (kd j) ∧ c.PD
  | .processQueues, .processQueues => True
  | .clearControlQueue, .clearControlQueue => True
  | .clearMeasurementQueue, .clearMeasurementQueue => True
  | .revertToState t, .revertToState t' => t' = t
  | .setParams p, .setParams p' => p' = p
  | _, _ => False

/-- The same event twice, with any data. -/
inductive Event.SameKind {n m : Nat} : Event n m → Event n m → Prop
  | move {p : Nat} (A B W V Rp Rc u u') : Event.SameKind (.move (p := p) A B W V Rp Rc u) (.move A B W V Rp Rc u')
  | measure {k : Nat} (C R z z') : Event.SameKind (.measure (k := k) C R z) (.measure C R z')

/-- Every motion brings in noise `Q = W Rp Wᵀ + V Rc Vᵀ`, at least `eps` times the uncertainty `A Pc Aᵀ` that is carried over,
and not so much that the ceiling `Pc` is exceeded: `eps A Pc Aᵀ ≤ Q` and `A Pc Aᵀ + Q ≤ Pc`. -/
def Event.Stirs {n m : Nat} (eps : ℝ) (Pc : Matrix (Fin n) (Fin n) ℝ) : Event n m → Prop
  | .move A _ W V Rp Rc _ =>
      (W * Rp * Wᵀ + V * Rc * Vᵀ - eps • (A * Pc * Aᵀ)).PosSemidef ∧
      (Pc - (A * Pc * Aᵀ + (W * Rp * Wᵀ + V * Rc * Vᵀ))).PosSemidef
  | .measure _ _ _ => True

/-- Number of motions in a history. -/
def motions {n m : Nat} : List (Event n m) → Nat
  | [] => 0
  | .move _ _ _ _ _ _ _ :: l => motions l + 1
  | .measure _ _ _ :: l => motions l

end StateEstimation
