import Verif.Model.NaNData
import Verif.Spec.DataFree
import Verif.Spec.Fed

/-! # Specification vocabulary: vectors with NaN -/

namespace StateEstimation

namespace NVec

/-- no entry is NaN -/
def Clean (v : NVec) : Prop := ∀ i, v.val i ≠ .nan
/-- some entry is NaN -/
def HasNaN (v : NVec) : Prop := ∃ i, v.val i = .nan
/-- every entry is NaN -/
def AllNaN (v : NVec) : Prop := ∀ i, v.val i = .nan

/-- `w` is `v` with some number in place of each NaN. -/
def FilledBy (v : NVec) (w : DVec) : Prop :=
  ∃ h : v.size = w.size, ∀ i r, v.val i = .num r → w.val (Fin.cast h i) = r

end NVec

variable {T K X Y : Type}

/-- The same call, with numbers in place of the NaNs.  The user may change the models, in the same way on both sides, but
sets no stationary predicate. -/
def SameButNaN : Op T NVec DMat K (Env K LinSysData X LinMeasData Y) →
    Op T DVec DMat K (Env K LinSysData X LinMeasData Y) → Prop
  | .init x c t, .init x' c' t' => x.FilledBy x' ∧ c = c' ∧ t = t'
  | .predictTime t, .predictTime t' => t = t'
  | .predictControl u t, .predictControl u' t' => u.FilledBy u' ∧ t = t'
  | .correct z c t m, .correct z' c' t' m' => z.FilledBy z' ∧ c = c' ∧ t = t' ∧ m = m' ∧ m ≠ none
  | .enqueueControl u t, .enqueueControl u' t' => u.FilledBy u' ∧ t = t'
  | .enqueueMeasurement z c t m, .enqueueMeasurement z' c' t' m' =>
      z.FilledBy z' ∧ c = c' ∧ t = t' ∧ m = m' ∧ m ≠ none
  | .processQueues, .processQueues => True
  | .clearControlQueue, .clearControlQueue => True
  | .clearMeasurementQueue, .clearMeasurementQueue => True
  | .revertToState t, .revertToState t' => t = t'
  | .setParams p, .setParams p' => p = p'
  | .userModel g, .userModel g' => g = g' ∧ ∀ e e', Quiet e → g e = some e' → Quiet e'
  | _, _ => False

/-- Well-formed model objects for `n` states, `m` controls and sensors with `kd k` measurements, without stationary
predicates. -/
structure NaNOk (n m : Nat) (kd : K → Nat) (e : Env K LinSysData X LinMeasData Y) : Prop where
  sys : e.sys.Sized LinSysData.Sized n m
  meas : ∀ k, (e.meas k).Sized LinMeasData.Sized n (kd k)
  quiet : Quiet e

/-- Well-formed calls: `N` says which measurement vectors are used; initial states and controls contain no NaN. -/
def NaNOp (N : NVec → Prop) (n m : Nat) (kd : K → Nat) : Op T NVec DMat K (Env K LinSysData X LinMeasData Y) → Prop
  | .init x c _ => x.size = n ∧ x.Clean ∧ c.Is n n
  | .predictControl u _ | .enqueueControl u _ => (u.size = m ∨ u.size = 0) ∧ u.Clean
  | .correct z c _ mdl | .enqueueMeasurement z c _ mdl =>
      ∃ k, mdl = some k ∧ z.size = kd k ∧ N z ∧ c.Is (kd k) (kd k)
  | .userModel g => ∀ e e', NaNOk n m kd e → g e = some e' → NaNOk n m kd e'
  | _ => True

end StateEstimation
