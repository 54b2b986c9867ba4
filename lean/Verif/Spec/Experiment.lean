import Verif.Spec.DataFree
import Mathlib.MeasureTheory.Function.L1Space.Integrable
import Mathlib.MeasureTheory.Integral.Bochner.Basic

/-!
# Specification vocabulary: a random experiment with a Kalman filter

A probability space, a true state that moves according to the filter's own model with random noise, and sensors that
measure the true state with random noise.  For each outcome `ω` a filter is run on the data of that outcome.
-/

namespace StateEstimation

open Matrix MeasureTheory

variable {Ω : Type} [MeasurableSpace Ω]

/-- `w` is a random vector with finite second moments, mean zero and covariance `Q`, uncorrelated with everything in
`past`. -/
structure IsNoise (μ : Measure Ω) (past : Set (Ω → ℝ)) {a : Nat} (Q : Matrix (Fin a) (Fin a) ℝ) (w : Ω → Fin a → ℝ) : Prop where
  finite : ∀ i, MemLp (fun ω => w ω i) 2 μ
  mean : ∀ i, ∫ ω, w ω i ∂μ = 0
  cov : ∀ i j, ∫ ω, w ω i * w ω j ∂μ = Q i j
  white : ∀ s ∈ past, ∀ i, ∫ ω, w ω i * s ω ∂μ = 0

/-- The random variables that have occurred so far, with the components of `w` added. -/
def addNoise (past : Set (Ω → ℝ)) {a : Nat} (w : Ω → Fin a → ℝ) : Set (Ω → ℝ) :=
  past ∪ {s | ∃ i, s = fun ω => w ω i}

variable {T K X Y : Type} [DecidableEq K] [LinearOrder T] [ExactTime T]

/-- `Experiment μ sc mc n m kd f X past`: after some calls, the filter of outcome `ω` is `f ω`, the true state is `X ω`,
and `past` are the noises used so far.

* `start`: filters constructed with the same belief `x0`, `P0`; the true state is `x0` plus an error of covariance `P0`.
* `predict`: at a time not in the past the control `u ω` (which may depend on the outcome, e.g. be computed from the
  filter's own estimates) is passed to `predict(u, t)`; the true state moves by the model's matrices `A`, `B`, `W` (`P()` in the code),
  `V` for this step, with process noise of covariance `Rp` and control noise of covariance `Rc`, the ones set in the model.
* `correct`: a sensor measures the true state, `z = C X + noise`, with noise of the positive definite covariance `R`
  passed to `correct(z, R, t, j)` at the current time. -/
inductive Experiment (μ : Measure Ω) (sc : SysClass T LinSysData X) (mc : K → MeasClass T LinMeasData Y) (n m : Nat)
    (kd : K → Nat) : (Ω → Filter T DVec DMat K (Env K LinSysData X LinMeasData Y)) → (Ω → Fin n → ℝ) → Set (Ω → ℝ) → Prop
  | start (params : Params T) (e : Env K LinSysData X LinMeasData Y) (x0 : Fin n → ℝ) (P0 : Matrix (Fin n) (Fin n) ℝ) (t : T)
      (x : Ω → Fin n → ℝ) :
      e.sys.Sized LinSysData.Sized n m → (∀ j, (e.meas j).Sized LinMeasData.Sized n (kd j)) → Quiet e →
      IsNoise μ ∅ P0 (fun ω => x ω - x0) →
      Experiment μ sc mc n m kd (fun _ => Filter.construct (kfPlant sc mc) params e (.of x0) (.of P0) t) x
        (addNoise ∅ (fun ω => x ω - x0))
  | predict {f x past} (f' : Ω → Filter T DVec DMat K (Env K LinSysData X LinMeasData Y)) (u : Ω → Fin m → ℝ) (t : T) {p : Nat}
      (A : Matrix (Fin n) (Fin n) ℝ) (B : Matrix (Fin n) (Fin m) ℝ) (W : Matrix (Fin n) (Fin p) ℝ)
      (V : Matrix (Fin n) (Fin m) ℝ) (Rp : Matrix (Fin p) (Fin p) ℝ) (Rc : Matrix (Fin m) (Fin m) ℝ)
      (w : Ω → Fin p → ℝ) (v : Ω → Fin m → ℝ) :
      Experiment μ sc mc n m kd f x past → 0 < m →
      (∀ ω, (f ω).getStateTime ≤ t) →
      (∀ ω, (f ω).predictControl (kfPlant sc mc) (.of (u ω)) t = some (f' ω)) →
      (∀ ω, (f' ω).env.sys.der = ⟨.of A, .of B⟩ ∧ (f' ω).env.sys.P = .of W ∧ (f' ω).env.sys.V = .of V) →
      (∀ ω, (f ω).env.sys.Rp = .of Rp ∧ (f ω).env.sys.Rc = .of Rc) →
      IsNoise μ past Rp w → IsNoise μ (addNoise past w) Rc v →
      Experiment μ sc mc n m kd f' (fun ω => A *ᵥ x ω + B *ᵥ u ω + W *ᵥ w ω + V *ᵥ v ω) (addNoise (addNoise past w) v)
  | correct {f x past} (f' : Ω → Filter T DVec DMat K (Env K LinSysData X LinMeasData Y)) (j : K)
      (C : Matrix (Fin (kd j)) (Fin n) ℝ) (R : Matrix (Fin (kd j)) (Fin (kd j)) ℝ) (ν : Ω → Fin (kd j) → ℝ) :
      Experiment μ sc mc n m kd f x past →
      (∀ ω, (f ω).correct (kfPlant sc mc) (.of (C *ᵥ x ω + ν ω)) (.of R) (f ω).getStateTime (some j) = some (f' ω)) →
      (∀ ω, ((f' ω).env.meas j).der.C = .of C) → R.PosDef → IsNoise μ past R ν →
      Experiment μ sc mc n m kd f' x (addNoise past ν)

end StateEstimation
