import Verif.Model.Geometry
import Mathlib.Analysis.Matrix.Spectrum
import Mathlib.Data.Fin.Tuple.Sort

/-! # Consequences of the specification of the eigensolver, and that it can be met -/

namespace StateEstimation

open Matrix

/-- The specification of the eigensolver can be met, at every size. -/
theorem eigenSpec_exists (n : Nat) : ∃ solver : Matrix (Fin n) (Fin n) ℝ → EigenResult n, EigenSpec solver := by
  have key : ∀ A : Matrix (Fin n) (Fin n) ℝ, ∃ r : EigenResult n, Aᵀ = A →
      (∀ j, A *ᵥ r.vectors.col j = r.values j • r.vectors.col j) ∧ r.vectorsᵀ * r.vectors = 1 ∧ Monotone r.values := by
    intro A
    by_cases h : Aᵀ = A
    · have hA : A.IsHermitian := by rw [IsHermitian, conjTranspose_eq_transpose_of_trivial, h]
      let σ := Tuple.sort hA.eigenvalues
      refine ⟨⟨hA.eigenvalues ∘ σ, (hA.eigenvectorUnitary : Matrix (Fin n) (Fin n) ℝ).submatrix id σ⟩, fun _ => ⟨?_, ?_, ?_⟩⟩
      · intro j
        have := hA.mulVec_eigenvectorBasis (σ j)
        have c : ((hA.eigenvectorUnitary : Matrix (Fin n) (Fin n) ℝ).submatrix id σ).col j = ⇑(hA.eigenvectorBasis (σ j)) := by
          funext i; rfl
        rw [c]; exact this
      · have u := Unitary.star_mul_self hA.eigenvectorUnitary
        have u' : (hA.eigenvectorUnitary : Matrix (Fin n) (Fin n) ℝ)ᵀ * (hA.eigenvectorUnitary : Matrix (Fin n) (Fin n) ℝ) = 1 := by
          have := congrArg Subtype.val u
          rw [← conjTranspose_eq_transpose_of_trivial]
          exact this
        show ((hA.eigenvectorUnitary : Matrix (Fin n) (Fin n) ℝ).submatrix id σ)ᵀ *
          (hA.eigenvectorUnitary : Matrix (Fin n) (Fin n) ℝ).submatrix id σ = 1
        ext i j
        have := congrFun (congrFun u' (σ i)) (σ j)
        rw [Matrix.mul_apply] at this ⊢
        simp only [submatrix_apply, transpose_apply, id]
        simp only [transpose_apply] at this
        rw [this, Matrix.one_apply, Matrix.one_apply]
        simp [σ.injective.eq_iff]
      · exact Tuple.monotone_sort hA.eigenvalues
    · exact ⟨⟨0, 0⟩, fun e => absurd e h⟩
  choose f hf using key
  exact ⟨f, ⟨fun A h => (hf A h).1, fun A h => (hf A h).2.1, fun A h => (hf A h).2.2⟩⟩

variable {n : Nat} {solver : Matrix (Fin n) (Fin n) ℝ → EigenResult n}

theorem eigen_mul (hs : EigenSpec solver) {A : Matrix (Fin n) (Fin n) ℝ} (hA : Aᵀ = A) :
    A * (solver A).vectors = (solver A).vectors * diagonal (solver A).values := by
  ext i j
  have := congrFun (hs.eigen A hA j) i
  rw [mul_diagonal, mul_comm]
  simpa [Matrix.mul_apply, mulVec, dotProduct, Matrix.col] using this

theorem eigen_decomp (hs : EigenSpec solver) {A : Matrix (Fin n) (Fin n) ℝ} (hA : Aᵀ = A) :
    A = (solver A).vectors * diagonal (solver A).values * (solver A).vectorsᵀ := by
  rw [← eigen_mul hs hA, Matrix.mul_assoc, mul_eq_one_comm.mp (hs.orthonormal A hA), Matrix.mul_one]

/-- Quadratic forms in the eigenbasis. -/
theorem eigen_quadratic (hs : EigenSpec solver) {A : Matrix (Fin n) (Fin n) ℝ} (hA : Aᵀ = A) (p : Fin n → ℝ) :
    p ⬝ᵥ (A *ᵥ p) = ∑ j, (solver A).values j * (((solver A).vectorsᵀ *ᵥ p) j) ^ 2 ∧
    p ⬝ᵥ p = ∑ j, (((solver A).vectorsᵀ *ᵥ p) j) ^ 2 := by
  set V := (solver A).vectors with hV
  set l := (solver A).values
  constructor
  · have : A *ᵥ p = V *ᵥ (diagonal l *ᵥ (Vᵀ *ᵥ p)) := by
      rw [mulVec_mulVec, mulVec_mulVec, ← eigen_decomp hs hA]
    rw [this, dotProduct_mulVec, ← mulVec_transpose]
    simp only [dotProduct, mulVec_diagonal]
    exact Finset.sum_congr rfl fun j _ => by ring
  · have o : V * Vᵀ = 1 := mul_eq_one_comm.mp (hs.orthonormal A hA)
    conv_lhs => rhs; rw [← one_mulVec p, ← o, ← mulVec_mulVec]
    rw [dotProduct_mulVec, ← mulVec_transpose]
    simp only [dotProduct]
    exact Finset.sum_congr rfl fun j _ => by ring

end StateEstimation
