import Verif.Spec.Experiment
import Verif.Spec.History

/-!
# Specification vocabulary: a random world that behaves as the filter's models say

`Recorded` (in `Spec/History`) says what a filter has been told.  `World` says where that came from: for each outcome `ω`
a true state, moved and measured with random noise.
-/

namespace StateEstimation

open Matrix MeasureTheory

variable {Ω : Type} [MeasurableSpace Ω]

/-- What the user knows: the constant 1 and the values in `data`, and everything computed linearly from them. -/
def Known (data : Set (Ω → ℝ)) {a : Nat} (y : Ω → Fin a → ℝ) : Prop :=
  ∀ i, (fun ω => y ω i) ∈ Submodule.span ℝ (insert (fun _ => 1) data)

/-- `World μ rule x0 P0 evs x past data`: for each outcome `ω` the events `evs ω` have happened (newest first), the true
state is `x ω`; `past` are the noises so far and `data` the measured values so far.  `rule data u` says which controls may be
used once `data` has been measured.

* `start`: the true state is `x0` plus an error of mean zero and covariance `P0`.
* `move`: the true state moves by `A`, `B`, `W`, `V` with process noise of covariance `Rp` and control noise of covariance
  `Rc`.
* `measure`: the measured value is `C x` plus noise of the positive definite covariance `R`.

All noises have mean zero and are uncorrelated with the noises before them; their distribution is free. -/
inductive World (μ : Measure Ω) {n m : Nat} (rule : Set (Ω → ℝ) → (Ω → Fin m → ℝ) → Prop) (x0 : Fin n → ℝ)
    (P0 : Matrix (Fin n) (Fin n) ℝ) : (Ω → List (Event n m)) → (Ω → Fin n → ℝ) → Set (Ω → ℝ) → Set (Ω → ℝ) → Prop
  | start (x : Ω → Fin n → ℝ) : IsNoise μ ∅ P0 (fun ω => x ω - x0) →
      World μ rule x0 P0 (fun _ => []) x (addNoise ∅ (fun ω => x ω - x0)) ∅
  | move {evs x past data} {p : Nat} (A : Matrix (Fin n) (Fin n) ℝ) (B : Matrix (Fin n) (Fin m) ℝ)
      (W : Matrix (Fin n) (Fin p) ℝ) (V : Matrix (Fin n) (Fin m) ℝ) (Rp : Matrix (Fin p) (Fin p) ℝ)
      (Rc : Matrix (Fin m) (Fin m) ℝ) (u : Ω → Fin m → ℝ) (w : Ω → Fin p → ℝ) (v : Ω → Fin m → ℝ) :
      World μ rule x0 P0 evs x past data → rule data u → IsNoise μ past Rp w → IsNoise μ (addNoise past w) Rc v →
      World μ rule x0 P0 (fun ω => .move A B W V Rp Rc (u ω) :: evs ω)
        (fun ω => A *ᵥ x ω + B *ᵥ u ω + W *ᵥ w ω + V *ᵥ v ω) (addNoise (addNoise past w) v) data
  | measure {evs x past data} {k : Nat} (C : Matrix (Fin k) (Fin n) ℝ) (R : Matrix (Fin k) (Fin k) ℝ) (ν : Ω → Fin k → ℝ) :
      World μ rule x0 P0 evs x past data → R.PosDef → IsNoise μ past R ν →
      World μ rule x0 P0 (fun ω => .measure C R (C *ᵥ x ω + ν ω) :: evs ω) x (addNoise past ν)
        (addNoise data (fun ω => C *ᵥ x ω + ν ω))

end StateEstimation
