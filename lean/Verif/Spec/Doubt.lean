import Verif.Spec.Models
import Verif.Spec.Subset

/-! # Specification vocabulary: models that never make a filter certain -/

namespace StateEstimation

open Matrix

/-- The noise covariances: `Rp` as demanded by `N`, `Rc` positive semidefinite. -/
def NoiseWith (N : DMat → Prop) (Rp Rc : DMat) : Prop := N Rp ∧ Rc.PSD

/-- No combination of the (active) states is wiped out by the motion without process noise acting on it: `v A = 0` and
`v W Rp = 0` only for `v = 0`.  `trans` is the state transition matrix of the class (`A` or the Jacobian `G`), `W` the noise
Jacobian `P`, all restricted to the states `σ`.  Holds for instance whenever the transition matrix is invertible, and whenever
the process noise reaches every state. -/
def SysClass.KeepsDoubt {T D X : Type} (dz : Nat → Nat → D → Prop) (trans : D → DMat) (N : DMat → Prop) (sc : SysClass T D X)
    {n ns : Nat} (σ : Fin ns → Fin n) (m : Nat) : Prop :=
  ∀ (s : Sys D X) (x u : DVec) (dt : T) (s' : Sys D X) (p : Nat) (A : Matrix (Fin n) (Fin n) ℝ) (W : Matrix (Fin n) (Fin p) ℝ)
    (Rp : Matrix (Fin p) (Fin p) ℝ), s.Sized dz n m → N s.Rp → x.size = n → u.size = m → sc.myUpdate s x u dt = some s' →
    trans s'.der = .of A → s'.P = .of W → s.Rp = .of Rp →
    ∀ v : Fin ns → ℝ, v ᵥ* A.submatrix σ σ = 0 → (v ᵥ* W.submatrix σ id) ᵥ* Rp = 0 → v = 0

end StateEstimation
