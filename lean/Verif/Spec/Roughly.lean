import Verif.Spec.Forget
import Verif.Spec.Follows

/-! # Specification vocabulary: a true state that obeys the models up to bounded disturbances -/

namespace StateEstimation

open Matrix

/-- `Roughly D E y0 evs y`: while the filter was told `evs` (newest first), the true state went from `y0` to `y`; at every motion it
moved as modelled except for a disturbance of length at most `D`, and every measurement was off by at most `E` (in length).  The
disturbances need not have anything to do with the noise of the models. -/
inductive Roughly {n m : Nat} (D E : ℝ) (y0 : Fin n → ℝ) : List (Event n m) → (Fin n → ℝ) → Prop
  | start : Roughly D E y0 [] y0
  | move {evs y p A B W V Rp Rc u d} : Roughly D E y0 evs y → len d ≤ D →
      Roughly D E y0 (.move (p := p) A B W V Rp Rc u :: evs) (A *ᵥ y + B *ᵥ u + d)
  | measure {evs y k} {C : Matrix (Fin k) (Fin n) ℝ} {R} {z e : Fin k → ℝ} : Roughly D E y0 evs y → z = C *ᵥ y + e →
      len e ≤ E → Roughly D E y0 (.measure C R z :: evs) y

end StateEstimation
