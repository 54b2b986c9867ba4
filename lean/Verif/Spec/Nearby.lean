import Verif.Spec.History

/-!
# Specification vocabulary: data and models that differ a little

Two uses of a filter are near each other if they consist of the same events with nearly the same numbers.
-/

namespace StateEstimation

open Matrix

/-- Each component of `b` is within `δ` of that of `a`. -/
def NearVec (δ : ℝ) {a : Nat} (v w : Fin a → ℝ) : Prop := ∀ i, |w i - v i| ≤ δ

/-- Each entry of `N` is within `δ` of that of `M`. -/
def NearMat (δ : ℝ) {a b : Nat} (M N : Matrix (Fin a) (Fin b) ℝ) : Prop := ∀ i j, |N i j - M i j| ≤ δ

/-- The same kind of event, with all matrices, covariances and data within `δ`. -/
inductive Event.Near {n m : Nat} (δ : ℝ) : Event n m → Event n m → Prop
  | move {p : Nat} {A A' B B' W W' V V' Rp Rp' Rc Rc' u u'} : NearMat δ A A' → NearMat δ B B' → NearMat δ W W' →
      NearMat δ V V' → NearMat δ Rp Rp' → NearMat δ Rc Rc' → NearVec δ u u' →
      Event.Near δ (.move (p := p) A B W V Rp Rc u) (.move (p := p) A' B' W' V' Rp' Rc' u')
  | measure {k : Nat} {C C' R R' z z'} : NearMat δ C C' → NearMat δ R R' → NearVec δ z z' →
      Event.Near δ (.measure (k := k) C R z) (.measure (k := k) C' R' z')

end StateEstimation
