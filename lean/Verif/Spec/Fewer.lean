import Verif.Spec.History

/-! # Specification vocabulary: the same history with some measurements left out -/

namespace StateEstimation

open Matrix

/-- `Fewer evs' evs`: `evs'` is `evs` without some of its measurements.  Controls and measured values may differ. -/
inductive Fewer {n m : Nat} : List (Event n m) → List (Event n m) → Prop
  | start : Fewer [] []
  | move {evs' evs p A B W V Rp Rc} (u' u : Fin m → ℝ) : Fewer evs' evs →
      Fewer (.move (p := p) A B W V Rp Rc u' :: evs') (.move A B W V Rp Rc u :: evs)
  | both {evs' evs k} {C : Matrix (Fin k) (Fin n) ℝ} {R} (z' z : Fin k → ℝ) : Fewer evs' evs →
      Fewer (.measure C R z' :: evs') (.measure C R z :: evs)
  | leaveOut {evs' evs k} {C : Matrix (Fin k) (Fin n) ℝ} {R} (z : Fin k → ℝ) : Fewer evs' evs →
      Fewer evs' (.measure C R z :: evs)

end StateEstimation
