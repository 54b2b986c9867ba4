import Verif.Spec.Forget
import Mathlib.Analysis.Real.Sqrt

/-! # Specification vocabulary: what the true state did, without probability -/

namespace StateEstimation

open Matrix

/-- In every direction the error `d` is at most `r` standard deviations of the covariance `P`. -/
def WithinSigmas {a : Nat} (r : ℝ) (P : Matrix (Fin a) (Fin a) ℝ) (d : Fin a → ℝ) : Prop :=
  ∀ v : Fin a → ℝ, |v ⬝ᵥ d| ≤ r * √(v ⬝ᵥ P *ᵥ v)

/-- `Happened eps x0 P0 evs y r`: while the filter was told `evs` (newest first), the true state went to `y`, and the errors in
what it was told were never worse than they are counted in `r`:

* `start`: the first state was within `r` standard deviations of the initial belief;
* `move`: it moved as modelled, except for a disturbance `d` within `dd` standard deviations of the modelled noise; of the former
  error only a fraction `1 / √(1 + eps)` counts;
* `measure`: the measurement was off by at most `ee` standard deviations of its covariance. -/
inductive Happened {n m : Nat} (eps : ℝ) (x0 : Fin n → ℝ) (P0 : Matrix (Fin n) (Fin n) ℝ) :
    List (Event n m) → (Fin n → ℝ) → ℝ → Prop
  | start {y r} : 0 ≤ r → WithinSigmas r P0 (y - x0) → Happened eps x0 P0 [] y r
  | move {evs y r p A B W V Rp Rc u d dd} : Happened eps x0 P0 evs y r → 0 ≤ dd →
      WithinSigmas dd (W * Rp * Wᵀ + V * Rc * Vᵀ) d →
      Happened eps x0 P0 (.move (p := p) A B W V Rp Rc u :: evs) (A *ᵥ y + B *ᵥ u + d) (r / √(1 + eps) + dd)
  | measure {evs y r k} {C : Matrix (Fin k) (Fin n) ℝ} {R z ee} : Happened eps x0 P0 evs y r → 0 ≤ ee →
      WithinSigmas ee R (z - C *ᵥ y) → Happened eps x0 P0 (.measure C R z :: evs) y (r + ee)

/-- The true state started at `y0`, moved and was measured exactly as modelled; it is now `y`. -/
inductive Exactly {n m : Nat} (y0 : Fin n → ℝ) : List (Event n m) → (Fin n → ℝ) → Prop
  | start : Exactly y0 [] y0
  | move {evs y p A B W V Rp Rc u} : Exactly y0 evs y →
      Exactly y0 (.move (p := p) A B W V Rp Rc u :: evs) (A *ᵥ y + B *ᵥ u)
  | measure {evs y k} {C : Matrix (Fin k) (Fin n) ℝ} {R} : Exactly y0 evs y → Exactly y0 (.measure C R (C *ᵥ y) :: evs) y

/-- Number of measurements since the last motion. -/
def sinceMotion {n m : Nat} : List (Event n m) → Nat
  | .measure _ _ _ :: l => sinceMotion l + 1
  | _ => 0

/-- `BoundedErrors D E N y evs`: the true state went to `y`; every disturbance was within `D` and every measurement error
within `E` standard deviations, and at most `N` measurements came between two motions. -/
inductive BoundedErrors {n m : Nat} (D E : ℝ) (N : Nat) (y0 : Fin n → ℝ) : List (Event n m) → (Fin n → ℝ) → Prop
  | start : BoundedErrors D E N y0 [] y0
  | move {evs y p A B W V Rp Rc u d} : BoundedErrors D E N y0 evs y → WithinSigmas D (W * Rp * Wᵀ + V * Rc * Vᵀ) d →
      BoundedErrors D E N y0 (.move (p := p) A B W V Rp Rc u :: evs) (A *ᵥ y + B *ᵥ u + d)
  | measure {evs y k} {C : Matrix (Fin k) (Fin n) ℝ} {R z} : BoundedErrors D E N y0 evs y → sinceMotion evs < N →
      WithinSigmas E R (z - C *ᵥ y) → BoundedErrors D E N y0 (.measure C R z :: evs) y

end StateEstimation
