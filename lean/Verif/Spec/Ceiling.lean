import Verif.Spec.Models

/-!
# Specification vocabulary: a ceiling for the covariance
-/

namespace StateEstimation

open Matrix

/-- Noise at most `Rpmax` and `Rcmax`, in the Loewner order. -/
def NoiseUpTo {p m : Nat} (Rpmax : Matrix (Fin p) (Fin p) ℝ) (Rcmax : Matrix (Fin m) (Fin m) ℝ) (Rp Rc : DMat) : Prop :=
  (Rp.PSD ∧ Rp.Le (.of Rpmax)) ∧ (Rc.PSD ∧ Rc.Le (.of Rcmax))

/-- An estimate of `n` states whose covariance is at most `Pmax`. -/
def EstimateUpTo {n : Nat} (Pmax : Matrix (Fin n) (Fin n) ℝ) (x : DVec) (c : DMat) : Prop :=
  EstimatePSD n x c ∧ c.Le (.of Pmax)

/-- Predicting from `Pmax` with noise `Rpmax`, `Rcmax` gives at most `Pmax`, whatever the state, control and time step; `jac`
reads the state transition matrix (`A` of a linear model, `G` of a nonlinear one). -/
def SysClass.Holds {T D X : Type} (sc : SysClass T D X) (dz : Nat → Nat → D → Prop) (jac : D → DMat) {n p m : Nat}
    (Pmax : Matrix (Fin n) (Fin n) ℝ) (Rpmax : Matrix (Fin p) (Fin p) ℝ) (Rcmax : Matrix (Fin m) (Fin m) ℝ) : Prop :=
  ∀ s x u dt s', s.Sized dz n m → s.Rp.Is p p → sc.myUpdate s x u dt = some s' →
    ∃ (A : Matrix (Fin n) (Fin n) ℝ) (W : Matrix (Fin n) (Fin p) ℝ) (V : Matrix (Fin n) (Fin m) ℝ),
      jac s'.der = .of A ∧ s'.P = .of W ∧ s'.V = .of V ∧
        (Pmax - (A * Pmax * Aᵀ + W * Rpmax * Wᵀ + V * Rcmax * Vᵀ)).PosSemidef

end StateEstimation
