import Verif.Model.Eigen
import Mathlib.Analysis.Real.Sqrt

/-!
# `Eigen::LLT`

Everywhere else in the model the Cholesky factorisation of the unscented filters is a parameter with an assumed
specification (`LltSpec`, Spec/Sigma.lean).  This file writes down what Eigen computes: the column by column algorithm
`llt_inplace<Scalar, Lower>::unblocked` of Eigen/src/Cholesky/LLT.h, in exact real arithmetic.  ukf.cpp:52-53, 107-108 and
ukf_vs.cpp:62-63, 144-145 call `.llt().matrixL()` and never look at `.info()`: when the algorithm meets a pivot that is not
positive it returns, and `matrixL()` is the lower triangle of the half-finished work matrix.
Simplification: the blocked variant Eigen switches to for 32 or more states is not modelled; on positive definite
matrices it computes the same factor.
-/

namespace StateEstimation

/-- One pass of the loop: `mat(k, k) = r` and column `k` below the diagonal, `A21 -= A20 * A10.adjoint(); A21 /= r`. -/
noncomputable def lltColumn (k : Nat) (r : ℝ) (A : Nat → Nat → ℝ) : Nat → Nat → ℝ := fun i j =>
  if j = k then
    if i = k then r
    else if k < i then (A i k - ∑ l ∈ Finset.range k, A i l * A k l) / r
    else A i j
  else A i j

/-- The pivot `mat(k, k) - A10.squaredNorm()`. -/
noncomputable def lltPivot (k : Nat) (A : Nat → Nat → ℝ) : ℝ := A k k - ∑ l ∈ Finset.range k, A k l * A k l

/-- `for (k = 0; k < size; ++k) { ...; if (x <= 0) return k; ... }`; `fuel = size - k`. -/
noncomputable def lltLoop : Nat → Nat → (Nat → Nat → ℝ) → Nat → Nat → ℝ
  | 0, _, A => A
  | fuel + 1, k, A =>
    if lltPivot k A ≤ 0 then A
    else lltLoop fuel (k + 1) (lltColumn k (Real.sqrt (lltPivot k A)) A)

/-- `matrixL()`: the lower triangle of the work matrix. -/
noncomputable def lltLower {n : Nat} (M : Matrix (Fin n) (Fin n) ℝ) : Matrix (Fin n) (Fin n) ℝ := fun i j =>
  if j ≤ i then lltLoop n 0 (fun a b => if h : a < n ∧ b < n then M ⟨a, h.1⟩ ⟨b, h.2⟩ else 0) i j else 0

/-- `M.llt().matrixL()`, ukf.cpp:52-53, 107-108, ukf_vs.cpp:62-63, 144-145; a matrix that is not square is an `eigen_assert`. -/
noncomputable def eigenLlt (M : DMat) : Option DMat :=
  if h : M.cols = M.rows then some (.of (lltLower (fun i j : Fin M.rows => M.val i (Fin.cast h.symm j)))) else none

theorem eigenLlt_of {n : Nat} (M : Matrix (Fin n) (Fin n) ℝ) : eigenLlt (.of M) = some (.of (lltLower M)) := by
  simp only [eigenLlt, DMat.of, dite_true]
  rfl

end StateEstimation
