import Verif.Spec.Forget

/-!
# Specification vocabulary: what a stretch of motions and measurements shows, and what its noise reaches

Lists of events are newest first, as in `Spec/History`.
-/

namespace StateEstimation

open Matrix

variable {n m : Nat}

/-- Where a state (or a difference of two states) is after the motions of the stretch, without controls and noise. -/
def carried : List (Event n m) → (Fin n → ℝ) → (Fin n → ℝ)
  | [], x => x
  | .move A _ _ _ _ _ _ :: l, x => A *ᵥ carried l x
  | .measure _ _ _ :: l, x => carried l x

/-- A difference `x` of two states before the stretch makes no difference to any reading of the stretch. -/
def Unseen : List (Event n m) → (Fin n → ℝ) → Prop
  | [], _ => True
  | .move _ _ _ _ _ _ _ :: l, x => Unseen l x
  | .measure C _ _ :: l, x => C *ᵥ carried l x = 0 ∧ Unseen l x

/-- The readings of the stretch determine the state at its end: a difference that none of them shows is gone at the end. -/
def Shows (evs : List (Event n m)) : Prop := ∀ x, Unseen evs x → carried evs x = 0

/-- The combination `v` of the states at the end of the stretch is not affected by the noise of any of its motions. -/
def Calm : List (Event n m) → (Fin n → ℝ) → Prop
  | [], _ => True
  | .move A _ W V Rp Rc _ :: l, v => (W * Rp * Wᵀ + V * Rc * Vᵀ) *ᵥ v = 0 ∧ Calm l (Aᵀ *ᵥ v)
  | .measure _ _ _ :: l, v => Calm l v

/-- The noise of the motions of the stretch affects every combination of the states at its end. -/
def Stirred (evs : List (Event n m)) : Prop := ∀ v, Calm evs v → v = 0

end StateEstimation
