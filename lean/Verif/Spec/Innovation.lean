import Verif.Spec.Experiment

/-!
# Specification vocabulary: the innovations of a Kalman filter

What a user computes to see whether a filter is tuned correctly: just before each `correct(z, R, t, j)` the difference
between the measurement and what the estimate leads to expect, `z - C x`, together with the covariance the filter claims
for it, `C P Cᵀ + R`.
-/

namespace StateEstimation

open Matrix MeasureTheory

variable {Ω : Type} [MeasurableSpace Ω]

/-- A difference between a measurement and its expectation, and the covariance claimed for it. -/
structure Innovation (Ω : Type) where
  size : Nat
  value : Ω → Fin size → ℝ
  claimed : Matrix (Fin size) (Fin size) ℝ

variable {T K X Y : Type} [DecidableEq K] [LinearOrder T] [ExactTime T]

/-- An `Experiment` during which the innovations are written down, newest first. -/
inductive Logged (μ : Measure Ω) (sc : SysClass T LinSysData X) (mc : K → MeasClass T LinMeasData Y) (n m : Nat)
    (kd : K → Nat) : (Ω → Filter T DVec DMat K (Env K LinSysData X LinMeasData Y)) → (Ω → Fin n → ℝ) → Set (Ω → ℝ) →
      List (Innovation Ω) → Prop
  | start (params : Params T) (e : Env K LinSysData X LinMeasData Y) (x0 : Fin n → ℝ) (P0 : Matrix (Fin n) (Fin n) ℝ) (t : T)
      (x : Ω → Fin n → ℝ) :
      e.sys.Sized LinSysData.Sized n m → (∀ j, (e.meas j).Sized LinMeasData.Sized n (kd j)) → Quiet e →
      IsNoise μ ∅ P0 (fun ω => x ω - x0) →
      Logged μ sc mc n m kd (fun _ => Filter.construct (kfPlant sc mc) params e (.of x0) (.of P0) t) x
        (addNoise ∅ (fun ω => x ω - x0)) []
  | predict {f x past log} (f' : Ω → Filter T DVec DMat K (Env K LinSysData X LinMeasData Y)) (u : Ω → Fin m → ℝ) (t : T) {p : Nat}
      (A : Matrix (Fin n) (Fin n) ℝ) (B : Matrix (Fin n) (Fin m) ℝ) (W : Matrix (Fin n) (Fin p) ℝ)
      (V : Matrix (Fin n) (Fin m) ℝ) (Rp : Matrix (Fin p) (Fin p) ℝ) (Rc : Matrix (Fin m) (Fin m) ℝ)
      (w : Ω → Fin p → ℝ) (v : Ω → Fin m → ℝ) :
      Logged μ sc mc n m kd f x past log → 0 < m →
      (∀ ω, (f ω).getStateTime ≤ t) →
      (∀ ω, (f ω).predictControl (kfPlant sc mc) (.of (u ω)) t = some (f' ω)) →
      (∀ ω, (f' ω).env.sys.der = ⟨.of A, .of B⟩ ∧ (f' ω).env.sys.P = .of W ∧ (f' ω).env.sys.V = .of V) →
      (∀ ω, (f ω).env.sys.Rp = .of Rp ∧ (f ω).env.sys.Rc = .of Rc) →
      IsNoise μ past Rp w → IsNoise μ (addNoise past w) Rc v →
      Logged μ sc mc n m kd f' (fun ω => A *ᵥ x ω + B *ᵥ u ω + W *ᵥ w ω + V *ᵥ v ω) (addNoise (addNoise past w) v) log
  | correct {f x past log} (f' : Ω → Filter T DVec DMat K (Env K LinSysData X LinMeasData Y)) (j : K)
      (C : Matrix (Fin (kd j)) (Fin n) ℝ) (R : Matrix (Fin (kd j)) (Fin (kd j)) ℝ) (ν : Ω → Fin (kd j) → ℝ)
      (xh : Ω → Fin n → ℝ) (P : Matrix (Fin n) (Fin n) ℝ) :
      Logged μ sc mc n m kd f x past log →
      (∀ ω, (f ω).correct (kfPlant sc mc) (.of (C *ᵥ x ω + ν ω)) (.of R) (f ω).getStateTime (some j) = some (f' ω)) →
      (∀ ω, ((f' ω).env.meas j).der.C = .of C) → R.PosDef → IsNoise μ past R ν →
      (∀ ω, (f ω).getState = .of (xh ω) ∧ (f ω).getCovariance = .of P) →
      Logged μ sc mc n m kd f' x (addNoise past ν) (⟨kd j, fun ω => C *ᵥ x ω + ν ω - C *ᵥ xh ω, C * P * Cᵀ + R⟩ :: log)

end StateEstimation
