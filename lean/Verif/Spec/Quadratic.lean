import Verif.Spec.Sigma
import Mathlib.Probability.Moments.Covariance

/-! # Specification vocabulary: quadratic models and random states -/

namespace StateEstimation

open Matrix MeasureTheory ProbabilityTheory

/-- The quadratic function with constant part `c`, linear part `B` and, for output `i`, quadratic part `qᵀ (Q i) q`. -/
noncomputable def quadratic {n : Nat} {ι : Type} (c : ι → ℝ) (B : Matrix ι (Fin n) ℝ) (Q : ι → Matrix (Fin n) (Fin n) ℝ)
    (q : Fin n → ℝ) : ι → ℝ := fun i => c i + (∑ a, B i a * q a) + ∑ a, ∑ b, Q i a b * (q a * q b)

section
variable {T X Y : Type}

/-- With the control `u` and elapsed time `dt`, the model's `g()` is the quadratic function `c`, `B`, `Q` of the state it
was last updated with. -/
def SysQuadratic (sc : SysClass T NonlinSysData X) (n m : Nat) (s0 : Sys NonlinSysData X) (u : DVec) (dt : T) (c : Fin n → ℝ)
    (B : Matrix (Fin n) (Fin n) ℝ) (Q : Fin n → Matrix (Fin n) (Fin n) ℝ) : Prop :=
  ∀ (q : Fin n → ℝ) (t : Sys NonlinSysData X), s0.UpdatedAt sc n m (.of q) u dt t → t.der.g = .of (quadratic c B Q q)

/-- Same for a sensor's `h()`. -/
def MeasQuadratic (mc : MeasClass T NonlinMeasData Y) (n k : Nat) (s0 : Meas NonlinMeasData Y) (dt : T) (c : Fin k → ℝ)
    (B : Matrix (Fin k) (Fin n) ℝ) (Q : Fin k → Matrix (Fin n) (Fin n) ℝ) : Prop :=
  ∀ (q : Fin n → ℝ) (t : Meas NonlinMeasData Y), s0.UpdatedAt mc n k (.of q) dt t → t.der.h = .of (quadratic c B Q q)

end

variable {Ω : Type} [MeasurableSpace Ω]

/-- `X` is a random vector with finite second moments, mean `x` and covariance `P`. -/
structure HasMoments (μ : Measure Ω) {n : Nat} (x : Fin n → ℝ) (P : Matrix (Fin n) (Fin n) ℝ) (X : Ω → Fin n → ℝ) : Prop where
  finite : ∀ i, MemLp (fun ω => X ω i) 2 μ
  mean : ∀ i, ∫ ω, X ω i ∂μ = x i
  cov : ∀ i j, cov[fun ω => X ω i, fun ω => X ω j; μ] = P i j

/-- The distribution is not skewed: it has finite fourth moments and its third central moments vanish (as those of every
distribution that is symmetric about its mean). -/
structure NotSkewed (μ : Measure Ω) {n : Nat} (x : Fin n → ℝ) (X : Ω → Fin n → ℝ) : Prop where
  finite : ∀ i, MemLp (fun ω => X ω i) 4 μ
  third : ∀ a b c, ∫ ω, (X ω a - x a) * (X ω b - x b) * (X ω c - x c) ∂μ = 0

/-- The fourth central moment is three times the square of the variance, as that of the normal distribution (one
dimension). -/
def NormalTails (μ : Measure Ω) (x P : ℝ) (X : Ω → ℝ) : Prop := ∫ ω, (X ω - x) ^ 4 ∂μ = 3 * P ^ 2

/-- The covariance matrix of two random vectors. -/
noncomputable def covMat (μ : Measure Ω) {a b : Nat} (X : Ω → Fin a → ℝ) (Y : Ω → Fin b → ℝ) : Matrix (Fin a) (Fin b) ℝ :=
  Matrix.of fun i j => cov[fun ω => X ω i, fun ω => Y ω j; μ]

end StateEstimation
