import Verif.Spec.Experiment
import Mathlib.LinearAlgebra.Matrix.PosDef

/-!
# Specification vocabulary: a random experiment with a Kalman filter that is told other covariances than the true ones

Like `Experiment` (Spec/Experiment.lean), but the covariances told to the filter (of the initial state, of the process and
control noise in the model, of a measurement) are compared with the true ones by a relation `rel told actual` and need not be equal.
-/

namespace StateEstimation

open Matrix MeasureTheory

/-- Every variance told to the filter is at least the actual one, in every direction. -/
def Overstated {a : Nat} (told actual : Matrix (Fin a) (Fin a) ℝ) : Prop := (told - actual).PosSemidef

/-- What is told to the filter is a covariance and at most the actual one, in every direction. -/
def Understated {a : Nat} (told actual : Matrix (Fin a) (Fin a) ℝ) : Prop := told.PosSemidef ∧ (actual - told).PosSemidef

variable {Ω : Type} [MeasurableSpace Ω] {T K X Y : Type} [DecidableEq K] [LinearOrder T] [ExactTime T]

/-- `Trial rel μ sc mc n m kd f x past`: after some calls, the filter of outcome `ω` is `f ω`, the true state is `x ω`,
and `past` are the noises used so far.  Constructors as in `Experiment`; `Q0`, `Qp`, `Qc`, `Q` are the covariances of the actual
noises, `P0`, `Rp`, `Rc`, `R` those the filter is told. -/
inductive Trial (rel : ∀ {a : Nat}, Matrix (Fin a) (Fin a) ℝ → Matrix (Fin a) (Fin a) ℝ → Prop) (μ : Measure Ω)
    (sc : SysClass T LinSysData X) (mc : K → MeasClass T LinMeasData Y) (n m : Nat) (kd : K → Nat) :
    (Ω → Filter T DVec DMat K (Env K LinSysData X LinMeasData Y)) → (Ω → Fin n → ℝ) → Set (Ω → ℝ) → Prop
  | start (params : Params T) (e : Env K LinSysData X LinMeasData Y) (x0 : Fin n → ℝ) (P0 Q0 : Matrix (Fin n) (Fin n) ℝ) (t : T)
      (x : Ω → Fin n → ℝ) :
      e.sys.Sized LinSysData.Sized n m → (∀ j, (e.meas j).Sized LinMeasData.Sized n (kd j)) → Quiet e →
      rel P0 Q0 → IsNoise μ ∅ Q0 (fun ω => x ω - x0) →
      Trial rel μ sc mc n m kd (fun _ => Filter.construct (kfPlant sc mc) params e (.of x0) (.of P0) t) x
        (addNoise ∅ (fun ω => x ω - x0))
  | predict {f x past} (f' : Ω → Filter T DVec DMat K (Env K LinSysData X LinMeasData Y)) (u : Ω → Fin m → ℝ) (t : T) {p : Nat}
      (A : Matrix (Fin n) (Fin n) ℝ) (B : Matrix (Fin n) (Fin m) ℝ) (W : Matrix (Fin n) (Fin p) ℝ)
      (V : Matrix (Fin n) (Fin m) ℝ) (Rp Qp : Matrix (Fin p) (Fin p) ℝ) (Rc Qc : Matrix (Fin m) (Fin m) ℝ)
      (w : Ω → Fin p → ℝ) (v : Ω → Fin m → ℝ) :
      Trial rel μ sc mc n m kd f x past → 0 < m →
      (∀ ω, (f ω).getStateTime ≤ t) →
      (∀ ω, (f ω).predictControl (kfPlant sc mc) (.of (u ω)) t = some (f' ω)) →
      (∀ ω, (f' ω).env.sys.der = ⟨.of A, .of B⟩ ∧ (f' ω).env.sys.P = .of W ∧ (f' ω).env.sys.V = .of V) →
      (∀ ω, (f ω).env.sys.Rp = .of Rp ∧ (f ω).env.sys.Rc = .of Rc) →
      rel Rp Qp → rel Rc Qc →
      IsNoise μ past Qp w → IsNoise μ (addNoise past w) Qc v →
      Trial rel μ sc mc n m kd f' (fun ω => A *ᵥ x ω + B *ᵥ u ω + W *ᵥ w ω + V *ᵥ v ω) (addNoise (addNoise past w) v)
  | correct {f x past} (f' : Ω → Filter T DVec DMat K (Env K LinSysData X LinMeasData Y)) (j : K)
      (C : Matrix (Fin (kd j)) (Fin n) ℝ) (R Q : Matrix (Fin (kd j)) (Fin (kd j)) ℝ) (ν : Ω → Fin (kd j) → ℝ) :
      Trial rel μ sc mc n m kd f x past →
      (∀ ω, (f ω).correct (kfPlant sc mc) (.of (C *ᵥ x ω + ν ω)) (.of R) (f ω).getStateTime (some j) = some (f' ω)) →
      (∀ ω, ((f' ω).env.meas j).der.C = .of C) → R.PosDef → rel R Q → IsNoise μ past Q ν →
      Trial rel μ sc mc n m kd f' x (addNoise past ν)

end StateEstimation
