import Verif.Spec.Quadratic
import Verif.Spec.Follows

/-! # Specification vocabulary: how far a nonlinear function is from its expansions -/

namespace StateEstimation

open Matrix

section
variable {T X Y : Type}

/-- With the control `u` and elapsed time `dt`, the model's `g()` is the function `γ` of the state it was last updated with. -/
def SysIs (sc : SysClass T NonlinSysData X) (n m : Nat) (s0 : Sys NonlinSysData X) (u : DVec) (dt : T) (γ : (Fin n → ℝ) → (Fin n → ℝ)) : Prop :=
  ∀ (q : Fin n → ℝ) (t : Sys NonlinSysData X), s0.UpdatedAt sc n m (.of q) u dt t → t.der.g = .of (γ q)

/-- Same for a sensor's `h()`. -/
def MeasIs (mc : MeasClass T NonlinMeasData Y) (n k : Nat) (s0 : Meas NonlinMeasData Y) (dt : T) (η : (Fin n → ℝ) → (Fin k → ℝ)) : Prop :=
  ∀ (q : Fin n → ℝ) (t : Meas NonlinMeasData Y), s0.UpdatedAt mc n k (.of q) dt t → t.der.h = .of (η q)

end

/-- `γ` is linear about `x`, up to `bend` times the square of the distance. -/
def BendsAt {n a : Nat} (bend : ℝ) (x : Fin n → ℝ) (γ : (Fin n → ℝ) → (Fin a → ℝ)) : Prop :=
  ∃ J : Matrix (Fin a) (Fin n) ℝ, ∀ q i, |γ q i - γ x i - (J *ᵥ (q - x)) i| ≤ bend * len (q - x) ^ 2

/-- `γ` is quadratic about `x`, up to `bend` times the third power of the distance. -/
def TwistsAt {n a : Nat} (bend : ℝ) (x : Fin n → ℝ) (γ : (Fin n → ℝ) → (Fin a → ℝ)) : Prop :=
  ∃ (c : Fin a → ℝ) (B : Matrix (Fin a) (Fin n) ℝ) (Q : Fin a → Matrix (Fin n) (Fin n) ℝ),
    ∀ q i, |γ q i - quadratic c B Q q i| ≤ bend * len (q - x) ^ 3

end StateEstimation
