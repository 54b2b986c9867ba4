import Verif.Model.Subset
import Verif.Spec.Models
import Mathlib.Data.List.OfFn
import Mathlib.Algebra.BigOperators.Fin

/-! # Specification vocabulary for active subsets -/

namespace StateEstimation

open Matrix

/-- The index list `l` selects, out of `n` indices, the `k` pairwise distinct indices `σ 0, σ 1, ...`, in this order; the
empty list selects everything. -/
structure Selects (l : List Nat) {n k : Nat} (σ : Fin k → Fin n) : Prop where
  list : (if l = [] then List.range n else l) = List.ofFn fun i => (σ i).val
  inj : Function.Injective σ

/-- `full'` is `full` with the selected entries replaced by `sub`. -/
structure OverwritesVec {n k : Nat} (σ : Fin k → Fin n) (sub : Fin k → ℝ) (full full' : Fin n → ℝ) : Prop where
  selected : ∀ i, full' (σ i) = sub i
  others : ∀ a, (∀ i, σ i ≠ a) → full' a = full a

/-- `full'` is `full` with the entries whose row and column are both selected replaced by `sub`. -/
structure OverwritesMat {r c k l : Nat} (σ : Fin k → Fin r) (τ : Fin l → Fin c) (sub : Matrix (Fin k) (Fin l) ℝ)
    (full full' : Matrix (Fin r) (Fin c) ℝ) : Prop where
  selected : ∀ i j, full' (σ i) (τ j) = sub i j
  others : ∀ a b, (∀ i j, ¬ (σ i = a ∧ τ j = b)) → full' a b = full a b

/-- The full vector with the entries `sub` at the selected positions and zero elsewhere (for pairwise distinct `σ i`). -/
noncomputable def spread {n k : Nat} (σ : Fin k → Fin n) (sub : Fin k → ℝ) : Fin n → ℝ :=
  fun a => ∑ i, if σ i = a then sub i else 0

/-- `A P Aᵀ + W Rp Wᵀ + V Rc Vᵀ` restricted to the selected states (`σ`) and controls (`τ`). -/
noncomputable abbrev subPropagate {n m ns ms p : Nat} (σ : Fin ns → Fin n) (τ : Fin ms → Fin m) (A cov : Matrix (Fin n) (Fin n) ℝ)
    (W : Matrix (Fin n) (Fin p) ℝ) (Rp : Matrix (Fin p) (Fin p) ℝ) (V : Matrix (Fin n) (Fin m) ℝ)
    (Rc : Matrix (Fin m) (Fin m) ℝ) : Matrix (Fin ns) (Fin ns) ℝ :=
  A.submatrix σ σ * cov.submatrix σ σ * (A.submatrix σ σ)ᵀ + W.submatrix σ id * Rp * (W.submatrix σ id)ᵀ
    + V.submatrix σ τ * Rc.submatrix τ τ * (V.submatrix σ τ)ᵀ

/-- The active states of the models are those listed by `σ`; the active controls and measurements may be any lists of
pairwise distinct indices in range. -/
structure Env.Selecting {K DS XS DM XM : Type} {n ns : Nat} (σ : Fin ns → Fin n) (m : Nat) (kd : K → Nat)
    (e : Env K DS XS DM XM) : Prop where
  states : Selects e.sys.activeStates σ
  controls : ∃ ms, ∃ τ : Fin ms → Fin m, Selects e.sys.activeControls τ
  meas : ∀ k, ∃ ks, ∃ ρ : Fin ks → Fin (kd k), Selects (e.meas k).activeMeasurements ρ

/-- An estimate of `n` states with a symmetric covariance whose block of the states listed by `σ` is positive
semidefinite. -/
def ActivePSD {n ns : Nat} (σ : Fin ns → Fin n) (x : DVec) (c : DMat) : Prop :=
  x.size = n ∧ ∃ P : Matrix (Fin n) (Fin n) ℝ, c = .of P ∧ Pᵀ = P ∧ (P.submatrix σ σ).PosSemidef

/-- An estimate of `n` states with a positive semidefinite covariance, in which the states listed by `σ` are uncorrelated
with the others. -/
def SeparatedPSD {n ns : Nat} (σ : Fin ns → Fin n) (x : DVec) (c : DMat) : Prop :=
  x.size = n ∧ ∃ P : Matrix (Fin n) (Fin n) ℝ, c = .of P ∧ P.PosSemidef ∧ ∀ i b, (∀ j, σ j ≠ b) → P (σ i) b = 0

/-- Same, with a positive definite block of the listed states. -/
def ActivePD {n ns : Nat} (σ : Fin ns → Fin n) (x : DVec) (c : DMat) : Prop :=
  x.size = n ∧ ∃ P : Matrix (Fin n) (Fin n) ℝ, c = .of P ∧ Pᵀ = P ∧ (P.submatrix σ σ).PosDef

/-- Same, with a positive definite block of the listed states. -/
def SeparatedPD {n ns : Nat} (σ : Fin ns → Fin n) (x : DVec) (c : DMat) : Prop :=
  SeparatedPSD σ x c ∧ ActivePD σ x c

end StateEstimation
