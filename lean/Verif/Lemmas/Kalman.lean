import Verif.Spec.Models

/-! # Typed matrix algebra of the Kalman filter -/

set_option linter.unusedSectionVars false

namespace StateEstimation
namespace Kalman

open Matrix

variable {ι κ μ : Type} [Fintype ι] [Fintype κ] [Fintype μ] [DecidableEq ι] [DecidableEq κ]

theorem psd_conj {P : Matrix ι ι ℝ} (hP : P.PosSemidef) (A : Matrix κ ι ℝ) : (A * P * Aᵀ).PosSemidef := by
  have := hP.mul_mul_conjTranspose_same A
  rwa [conjTranspose_eq_transpose_of_trivial] at this

theorem psd_symm {P : Matrix ι ι ℝ} (hP : P.PosSemidef) : Pᵀ = P := by
  have := hP.isHermitian
  rwa [IsHermitian, conjTranspose_eq_transpose_of_trivial] at this

/-- innovation covariance -/
noncomputable def innov (P : Matrix ι ι ℝ) (C : Matrix κ ι ℝ) (R : Matrix κ κ ℝ) : Matrix κ κ ℝ := C * (P * Cᵀ) + R

/-- gain -/
noncomputable def gain (P : Matrix ι ι ℝ) (C : Matrix κ ι ℝ) (R : Matrix κ κ ℝ) : Matrix ι κ ℝ :=
  P * Cᵀ * (innov P C R)⁻¹

/-- corrected covariance -/
noncomputable def post (P : Matrix ι ι ℝ) (C : Matrix κ ι ℝ) (R : Matrix κ κ ℝ) : Matrix ι ι ℝ :=
  (1 - gain P C R * C) * P

theorem innov_pd {P : Matrix ι ι ℝ} (hP : P.PosSemidef) (C : Matrix κ ι ℝ) {R : Matrix κ κ ℝ} (hR : R.PosDef) :
    (innov P C R).PosDef := by
  unfold innov
  rw [← Matrix.mul_assoc]
  exact PosDef.posSemidef_add (psd_conj hP C) hR

theorem pd_isUnit_det {S : Matrix κ κ ℝ} (hS : S.PosDef) : IsUnit S.det :=
  (Matrix.isUnit_iff_isUnit_det S).mp hS.isUnit

theorem gain_mul_innov {P : Matrix ι ι ℝ} {C : Matrix κ ι ℝ} {R : Matrix κ κ ℝ} (hS : IsUnit (innov P C R).det) :
    gain P C R * innov P C R = P * Cᵀ := by
  unfold gain
  rw [Matrix.mul_assoc, Matrix.nonsing_inv_mul _ hS, Matrix.mul_one]

theorem gain_transpose {P : Matrix ι ι ℝ} (hP : Pᵀ = P) {C : Matrix κ ι ℝ} {R : Matrix κ κ ℝ}
    (hS : IsUnit (innov P C R).det) (hR : Rᵀ = R) : innov P C R * (gain P C R)ᵀ = C * P := by
  have h := congrArg Matrix.transpose (gain_mul_innov hS)
  have hSt : (innov P C R)ᵀ = innov P C R := by
    unfold innov; simp [Matrix.transpose_mul, Matrix.transpose_add, hP, hR, Matrix.mul_assoc]
  rw [Matrix.transpose_mul, hSt, Matrix.transpose_mul, Matrix.transpose_transpose, hP] at h
  exact h

/-- `(I - K C) P = P - K S Kᵀ`. -/
theorem post_eq {P : Matrix ι ι ℝ} (hP : Pᵀ = P) {C : Matrix κ ι ℝ} {R : Matrix κ κ ℝ}
    (hS : IsUnit (innov P C R).det) (hR : Rᵀ = R) :
    post P C R = P - gain P C R * innov P C R * (gain P C R)ᵀ := by
  unfold post
  rw [Matrix.sub_mul, Matrix.one_mul, Matrix.mul_assoc, Matrix.mul_assoc, gain_transpose hP hS hR]

/-- For every gain `L`, the covariance of the error after using it is the filter's plus a nonnegative excess. -/
theorem joseph {P : Matrix ι ι ℝ} (hP : Pᵀ = P) {C : Matrix κ ι ℝ} {R : Matrix κ κ ℝ}
    (hS : IsUnit (innov P C R).det) (hR : Rᵀ = R) (L : Matrix ι κ ℝ) :
    (1 - L * C) * P * (1 - L * C)ᵀ + L * R * Lᵀ
      = post P C R + (L - gain P C R) * innov P C R * (L - gain P C R)ᵀ := by
  rw [post_eq hP hS hR]
  have h1 := gain_mul_innov hS
  have h2 := gain_transpose hP hS hR
  generalize gain P C R = G at *
  have e1 : L * innov P C R * Lᵀ = L * C * P * Cᵀ * Lᵀ + L * R * Lᵀ := by
    unfold innov; simp only [Matrix.mul_add, Matrix.add_mul, Matrix.mul_assoc]
  have e2 : L * innov P C R * Gᵀ = L * C * P := by rw [Matrix.mul_assoc, h2, Matrix.mul_assoc]
  have e3 : G * innov P C R * Lᵀ = P * Cᵀ * Lᵀ := by rw [h1]
  simp only [Matrix.sub_mul, Matrix.mul_sub, Matrix.transpose_sub, Matrix.transpose_one, Matrix.transpose_mul,
    Matrix.one_mul, Matrix.mul_one, e2, e3]
  rw [e1]
  simp only [← Matrix.mul_assoc]
  abel

theorem post_joseph {P : Matrix ι ι ℝ} (hP : Pᵀ = P) {C : Matrix κ ι ℝ} {R : Matrix κ κ ℝ}
    (hS : IsUnit (innov P C R).det) (hR : Rᵀ = R) :
    post P C R = (1 - gain P C R * C) * P * (1 - gain P C R * C)ᵀ + gain P C R * R * (gain P C R)ᵀ := by
  rw [joseph hP hS hR, sub_self, Matrix.zero_mul, Matrix.zero_mul, add_zero]

theorem post_psd {P : Matrix ι ι ℝ} (hP : P.PosSemidef) (C : Matrix κ ι ℝ) {R : Matrix κ κ ℝ} (hR : R.PosDef) :
    (post P C R).PosSemidef := by
  have hS := pd_isUnit_det (innov_pd hP C hR)
  rw [post_joseph (psd_symm hP) hS (psd_symm hR.posSemidef)]
  exact (psd_conj hP _).add (psd_conj hR.posSemidef _)

theorem post_le {P : Matrix ι ι ℝ} (hP : P.PosSemidef) (C : Matrix κ ι ℝ) {R : Matrix κ κ ℝ} (hR : R.PosDef) :
    (P - post P C R).PosSemidef := by
  have hS := innov_pd hP C hR
  rw [post_eq (psd_symm hP) (pd_isUnit_det hS) (psd_symm hR.posSemidef), sub_sub_cancel]
  exact psd_conj hS.posSemidef _

/-- information matrix of a measurement -/
noncomputable def info (C : Matrix κ ι ℝ) (R : Matrix κ κ ℝ) : Matrix ι ι ℝ := Cᵀ * R⁻¹ * C

/-- `I - K C` is the inverse of `I + P Cᵀ R⁻¹ C`. -/
theorem shrink_mul {P : Matrix ι ι ℝ} {C : Matrix κ ι ℝ} {R : Matrix κ κ ℝ} (hS : IsUnit (innov P C R).det)
    (hR : IsUnit R.det) : (1 - gain P C R * C) * (1 + P * info C R) = 1 := by
  have h1 := gain_mul_innov hS
  have e : gain P C R * C * (P * info C R) = P * info C R - gain P C R * C := by
    have : gain P C R * (innov P C R * (R⁻¹ * C)) = P * info C R := by
      rw [← Matrix.mul_assoc, h1]; simp only [info, Matrix.mul_assoc]
    have e2 : innov P C R * (R⁻¹ * C) = C * (P * info C R) + C := by
      unfold innov info
      rw [Matrix.add_mul, ← Matrix.mul_assoc R, Matrix.mul_nonsing_inv _ hR, Matrix.one_mul]
      simp only [Matrix.mul_assoc]
    rw [e2, Matrix.mul_add] at this
    rw [eq_sub_iff_add_eq, Matrix.mul_assoc]
    exact this
  rw [Matrix.sub_mul, Matrix.one_mul, Matrix.mul_add, Matrix.mul_one, e]
  abel

/-- `K = P' Cᵀ R⁻¹`. -/
theorem gain_eq {P : Matrix ι ι ℝ} {C : Matrix κ ι ℝ} {R : Matrix κ κ ℝ} (hS : IsUnit (innov P C R).det)
    (hR : IsUnit R.det) : gain P C R = post P C R * Cᵀ * R⁻¹ := by
  have h1 := gain_mul_innov hS
  have e : post P C R * Cᵀ = gain P C R * R := by
    unfold post
    have : gain P C R * C * P * Cᵀ = gain P C R * innov P C R - gain P C R * R := by
      unfold innov; rw [Matrix.mul_add]; simp only [Matrix.mul_assoc]; abel
    rw [Matrix.sub_mul, Matrix.sub_mul, Matrix.one_mul, this, h1]
    abel
  rw [e, Matrix.mul_assoc, Matrix.mul_nonsing_inv _ hR, Matrix.mul_one]

/-- corrected state -/
noncomputable def postState (x : ι → ℝ) (P : Matrix ι ι ℝ) (C : Matrix κ ι ℝ) (R : Matrix κ κ ℝ) (z : κ → ℝ) :
    ι → ℝ := x + (gain P C R) *ᵥ (z - C *ᵥ x)

theorem postState_eq {x : ι → ℝ} {P : Matrix ι ι ℝ} {C : Matrix κ ι ℝ} {R : Matrix κ κ ℝ} {z : κ → ℝ}
    (hS : IsUnit (innov P C R).det) (hR : IsUnit R.det) :
    postState x P C R z = (1 - gain P C R * C) *ᵥ (x + P *ᵥ ((Cᵀ * R⁻¹) *ᵥ z)) := by
  have h := gain_eq hS hR
  unfold postState
  rw [Matrix.mulVec_add, Matrix.mulVec_mulVec, Matrix.mulVec_mulVec]
  have e : (1 - gain P C R * C) * P * (Cᵀ * R⁻¹) = gain P C R := by
    rw [← Matrix.mul_assoc]; exact h.symm
  rw [e, Matrix.sub_mulVec, Matrix.one_mulVec, Matrix.mulVec_sub, Matrix.mulVec_mulVec]
  abel

variable [DecidableEq μ]

/-- Two corrections are one correction with the sum of the information. -/
theorem two_steps {P : Matrix ι ι ℝ} {C₁ : Matrix κ ι ℝ} {R₁ : Matrix κ κ ℝ} {C₂ : Matrix μ ι ℝ} {R₂ : Matrix μ μ ℝ}
    (hS₁ : IsUnit (innov P C₁ R₁).det) (hR₁ : IsUnit R₁.det)
    (hS₂ : IsUnit (innov (post P C₁ R₁) C₂ R₂).det) (hR₂ : IsUnit R₂.det) :
    ((1 - gain (post P C₁ R₁) C₂ R₂ * C₂) * (1 - gain P C₁ R₁ * C₁)) * (1 + P * info C₁ R₁ + P * info C₂ R₂) = 1 := by
  have a1 := shrink_mul hS₁ hR₁
  have a2 := shrink_mul hS₂ hR₂
  have hp : post P C₁ R₁ = (1 - gain P C₁ R₁ * C₁) * P := rfl
  rw [Matrix.mul_assoc, Matrix.mul_add, a1]
  rw [← Matrix.mul_assoc (1 - gain P C₁ R₁ * C₁) P, ← hp]
  exact a2

end Kalman
end StateEstimation
