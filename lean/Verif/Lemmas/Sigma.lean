import Verif.Spec.Sigma
import Verif.Lemmas.Kalman
import Verif.Lemmas.KFSteps
import Mathlib.Algebra.Order.Star.Real
import Mathlib.Analysis.Matrix.Order

/-! # Typed algebra of the unscented transform -/

set_option linter.unusedSectionVars false

namespace StateEstimation
namespace Sigma

open Matrix Kalman

theorem wm_succ (n : Nat) (lam : ℝ) (j : Nat) : wm n lam (j + 1) = 0.5 / (n + lam) := by simp [wm]
theorem wc_succ (n : Nat) (lam d : ℝ) (j : Nat) : wc n lam d (j + 1) = 0.5 / (n + lam) := by simp [wc]
theorem wm_zero (n : Nat) (lam : ℝ) : wm n lam 0 = lam / (n + lam) := by simp [wm]
theorem wc_zero (n : Nat) (lam d : ℝ) : wc n lam d 0 = lam / (n + lam) + 1 + d := by simp [wc]

theorem wm_sum {n : Nat} {lam : ℝ} (h : (n : ℝ) + lam ≠ 0) :
    lam / (n + lam) + ((2 * n : ℕ) : ℝ) * (0.5 / (n + lam)) = 1 := by
  push_cast
  field_simp
  ring

theorem setSigma_eq {n : Nat} {al ka be : ℝ} {sp : SigmaParams} (h : setSigma n n al ka be = some sp) :
    ∃ lam : ℝ, (n : ℝ) + lam = al ^ 2 * (n + ka) ∧ (n : ℝ) + lam ≠ 0 ∧
      sp = ⟨2 * n + 1, lam, .of (fun j : Fin (2 * n + 1) => wm n lam j), .of (fun j : Fin (2 * n + 1) => wc n lam (be - al ^ 2) j)⟩ := by
  unfold setSigma at h
  refine ⟨al ^ 2 * (n + ka) - n, by ring, ?_, ?_⟩
  · intro h0
    simp only [h0, if_true] at h
    cases h
  · by_cases h0 : (n : ℝ) + (al ^ 2 * (n + ka) - n) = 0
    · simp only [h0, if_true] at h; cases h
    · simp only [h0, if_false, DVec.set?, DVec.get?, DVec.const, Option.bind_eq_bind] at h
      simp only [Nat.zero_lt_succ, if_true, dif_pos, Option.bind_some] at h
      injection h with h
      rw [← h]
      have e : ∀ j : Fin (2 * n + 1), (if (j : Nat) = 0 then
          (al ^ 2 * (n + ka) - n) / (n + (al ^ 2 * (n + ka) - n)) + 1 - al ^ 2 + be
          else 0.5 / (n + (al ^ 2 * (n + ka) - n))) = wc n (al ^ 2 * (n + ka) - n) (be - al ^ 2) j := by
        intro j
        unfold wc
        split <;> ring
      simp only [e]
      rfl

/-- The scalar heart of the unscented transform. -/
theorem scalar_cov (N : Nat) (w m0 c0 : ℝ) (hw : m0 + N * w = 1) (p q : Nat → ℝ) :
    c0 * ((∑ j ∈ Finset.range N, w * p j) * ∑ j ∈ Finset.range N, w * q j)
      + ∑ j ∈ Finset.range N, w * ((p j - ∑ j ∈ Finset.range N, w * p j) * (q j - ∑ j ∈ Finset.range N, w * q j))
    = ∑ j ∈ Finset.range N, w * (p j * q j)
      + (c0 - m0 - 1) * ((∑ j ∈ Finset.range N, w * p j) * ∑ j ∈ Finset.range N, w * q j) := by
  have key : ∀ (a b : ℝ), ∑ j ∈ Finset.range N, w * ((p j - a) * (q j - b))
      = ∑ j ∈ Finset.range N, w * (p j * q j) - b * ∑ j ∈ Finset.range N, w * p j
        - a * ∑ j ∈ Finset.range N, w * q j + N * w * (a * b) := by
    intro a b
    clear hw
    induction N with
    | zero => simp
    | succ N ih => simp only [Finset.sum_range_succ, ih]; push_cast; ring
  rw [key]
  generalize ∑ j ∈ Finset.range N, w * p j = a
  generalize ∑ j ∈ Finset.range N, w * q j = b
  have : (N : ℝ) * w = 1 - m0 := by linarith
  rw [this]
  ring

variable {ι κ : Type} [Fintype ι] [Fintype κ] [DecidableEq ι] [DecidableEq κ]

/-- mean of the deviations from the central point -/
noncomputable def dev (n : Nat) (lam : ℝ) (y : Nat → ι → ℝ) : ι → ℝ :=
  ∑ j ∈ Finset.range (2 * n), (0.5 / (n + lam)) • (y (j + 1) - y 0)

/-- second moment of the deviations from the central point -/
noncomputable def moment (n : Nat) (lam : ℝ) (x : Nat → ι → ℝ) (y : Nat → κ → ℝ) : Matrix ι κ ℝ :=
  ∑ j ∈ Finset.range (2 * n), (0.5 / (n + lam)) • vecMulVec (x (j + 1) - x 0) (y (j + 1) - y 0)

theorem mean_eq {n : Nat} {lam : ℝ} (h : (n : ℝ) + lam ≠ 0) (y : Nat → ι → ℝ) : mean n lam y = y 0 + dev n lam y := by
  unfold mean dev
  rw [Finset.sum_range_succ']
  simp only [wm_succ, wm_zero, smul_sub, Finset.sum_sub_distrib, Finset.sum_const, Finset.card_range]
  have := wm_sum h
  have e : (lam / (n + lam)) • y 0 = y 0 - ((2 * n : ℕ) • (0.5 / (n + lam)) • y 0) := by
    have : lam / (n + lam) = 1 - ((2 * n : ℕ) : ℝ) * (0.5 / (n + lam)) := by linarith
    rw [this, sub_smul, one_smul, mul_smul]
    congr 1
    rw [Nat.cast_smul_eq_nsmul]
  rw [e]
  abel

theorem cross_eq {n : Nat} {lam : ℝ} (h : (n : ℝ) + lam ≠ 0) (d : ℝ) (x : Nat → ι → ℝ) (y : Nat → κ → ℝ) :
    cross n lam d x y (mean n lam x) (mean n lam y)
      = moment n lam x y + d • vecMulVec (dev n lam x) (dev n lam y) := by
  rw [mean_eq h, mean_eq h]
  ext a b
  have hs := scalar_cov (2 * n) (0.5 / (n + lam)) (lam / (n + lam)) (lam / (n + lam) + 1 + d) (wm_sum h)
    (fun j => x (j + 1) a - x 0 a) (fun j => y (j + 1) b - y 0 b)
  have dx : dev n lam x a = ∑ j ∈ Finset.range (2 * n), (0.5 / (n + lam)) * (x (j + 1) a - x 0 a) := by
    unfold dev; simp [Finset.sum_apply]
  have dy : dev n lam y b = ∑ j ∈ Finset.range (2 * n), (0.5 / (n + lam)) * (y (j + 1) b - y 0 b) := by
    unfold dev; simp [Finset.sum_apply]
  rw [← dx, ← dy] at hs
  unfold cross moment
  rw [Finset.sum_range_succ']
  simp only [Matrix.add_apply, Matrix.sum_apply, Matrix.smul_apply, vecMulVec_apply, wc_succ, wc_zero, smul_eq_mul,
    Pi.sub_apply, Pi.add_apply]
  simp only [sub_add_eq_sub_sub]
  rw [show lam / (n + lam) + 1 + d - lam / (n + lam) - 1 = d by ring] at hs
  rw [← hs]
  ring

theorem cross_central {n : Nat} {lam : ℝ} (d : ℝ) (x : Nat → ι → ℝ) (y : Nat → κ → ℝ)
    (h : (n : ℝ) + lam ≠ 0) (hx : dev n lam x = 0) :
    cross n lam d x y (x 0) (mean n lam y) = moment n lam x y := by
  have hm : mean n lam x = x 0 := by rw [mean_eq h, hx, add_zero]
  have := cross_eq h d x y
  rw [hm, hx] at this
  rw [this]
  simp

theorem moment_self_psd {n : Nat} {lam : ℝ} (h : 0 < (n : ℝ) + lam) (x : Nat → ι → ℝ) :
    (moment n lam x x).PosSemidef := by
  unfold moment
  refine Matrix.posSemidef_sum _ fun j _ => ?_
  refine PosSemidef.smul ?_ (by positivity)
  have := posSemidef_vecMulVec_self_star (x (j + 1) - x 0)
  simpa using this

theorem sum_two {M : Type} [AddCommMonoid M] (n : Nat) (f : Nat → M) :
    ∑ j ∈ Finset.range (2 * n), f j = ∑ i ∈ Finset.range n, (f i + f (i + n)) := by
  rw [two_mul, Finset.sum_range_add, Finset.sum_add_distrib]
  congr 1
  exact Finset.sum_congr rfl fun i _ => by rw [Nat.add_comm]

/-- The points are `x 0`, `x 0 ± l i`. -/
def Symm (n : Nat) (x : Nat → ι → ℝ) (l : Nat → ι → ℝ) : Prop :=
  ∀ i < n, x (i + 1) = x 0 + l i ∧ x (i + 1 + n) = x 0 - l i

theorem Symm.dev {n : Nat} (lam : ℝ) {x l : Nat → ι → ℝ} (h : Symm n x l) : dev n lam x = 0 := by
  unfold Sigma.dev
  rw [sum_two]
  refine Finset.sum_eq_zero fun i hi => ?_
  obtain ⟨h1, h2⟩ := h i (Finset.mem_range.mp hi)
  rw [show i + n + 1 = i + 1 + n by omega, h1, h2, ← smul_add]
  simp

theorem Symm.moment {n : Nat} (lam : ℝ) {x l : Nat → ι → ℝ} {y r : Nat → κ → ℝ} (h : Symm n x l) (h' : Symm n y r) :
    moment n lam x y = (1 / (n + lam)) • ∑ i ∈ Finset.range n, vecMulVec (l i) (r i) := by
  unfold Sigma.moment
  rw [sum_two, Finset.smul_sum]
  refine Finset.sum_congr rfl fun i hi => ?_
  obtain ⟨h1, h2⟩ := h i (Finset.mem_range.mp hi)
  obtain ⟨h3, h4⟩ := h' i (Finset.mem_range.mp hi)
  rw [show i + n + 1 = i + 1 + n by omega, h1, h2, h3, h4]
  simp only [add_sub_cancel_left, sub_sub_cancel_left, neg_vecMulVec, vecMulVec_neg, neg_neg]
  rw [← add_smul]
  congr 1
  ring

theorem sum_cols {n k m : Nat} (L : Matrix (Fin n) (Fin m) ℝ) (M : Matrix (Fin k) (Fin m) ℝ) :
    ∑ i ∈ Finset.range m, vecMulVec (colsOf L i) (colsOf M i) = L * Mᵀ := by
  ext a b
  rw [Matrix.sum_apply, Matrix.mul_apply, Finset.sum_range]
  refine Finset.sum_congr rfl fun i _ => ?_
  simp [vecMulVec_apply, colsOf, Matrix.transpose_apply]

/-- the deviations, scaled, as a matrix: `moment x y = D(x) D(y)ᵀ` -/
noncomputable def devMat (n : Nat) (lam : ℝ) (x : Nat → ι → ℝ) : Matrix ι (Fin (2 * n)) ℝ :=
  fun a j => Real.sqrt (0.5 / (n + lam)) * (x (j + 1) a - x 0 a)

theorem moment_eq {n : Nat} {lam : ℝ} (h : 0 < (n : ℝ) + lam) (x : Nat → ι → ℝ) (y : Nat → κ → ℝ) :
    moment n lam x y = devMat n lam x * (devMat n lam y)ᵀ := by
  ext a b
  unfold moment
  rw [Matrix.sum_apply, Matrix.mul_apply, Finset.sum_range]
  refine Finset.sum_congr rfl fun i _ => ?_
  have hs : Real.sqrt (0.5 / (n + lam)) * Real.sqrt (0.5 / (n + lam)) = 0.5 / (n + lam) :=
    Real.mul_self_sqrt (by positivity)
  simp only [Matrix.smul_apply, vecMulVec_apply, Pi.sub_apply, smul_eq_mul, Matrix.transpose_apply, devMat]
  generalize Real.sqrt (0.5 / (n + lam)) = q at hs
  rw [← hs]
  ring

/-- Correction with the cross covariance `D Cᵀ` and innovation covariance `C Cᵀ + R`: as a linear correction of white noise. -/
theorem post_white {μ : Type} [Fintype μ] [DecidableEq μ] (D : Matrix ι μ ℝ) (C : Matrix κ μ ℝ) {R : Matrix κ κ ℝ}
    (hR : R.PosDef) :
    D * Dᵀ - (D * Cᵀ * (C * Cᵀ + R)⁻¹) * (C * Cᵀ + R) * (D * Cᵀ * (C * Cᵀ + R)⁻¹)ᵀ
      = D * post 1 C R * Dᵀ := by
  have hS : (C * Cᵀ + R).PosDef := by
    have := innov_pd (PosSemidef.one (n := μ) (R := ℝ)) C hR
    unfold innov at this
    rwa [Matrix.one_mul] at this
  have hu := pd_isUnit_det hS
  have hg : gain (1 : Matrix μ μ ℝ) C R = Cᵀ * (C * Cᵀ + R)⁻¹ := by
    unfold gain innov; rw [Matrix.one_mul]
  have hSt : ((C * Cᵀ + R)⁻¹)ᵀ = (C * Cᵀ + R)⁻¹ := by
    rw [Matrix.transpose_nonsing_inv, psd_symm hS.posSemidef]
  unfold post
  rw [hg, Matrix.mul_one, Matrix.mul_sub, Matrix.sub_mul, Matrix.mul_one, Matrix.mul_assoc (D * Cᵀ),
    Matrix.nonsing_inv_mul _ hu, Matrix.mul_one]
  congr 1
  simp only [Matrix.transpose_mul, hSt, Matrix.transpose_transpose, Matrix.mul_assoc]

theorem post_white_pd {μ : Type} [Fintype μ] [DecidableEq μ] (C : Matrix κ μ ℝ) {R : Matrix κ κ ℝ}
    (hR : R.PosDef) : (post (1 : Matrix μ μ ℝ) C R).PosDef := by
  have h1 := post_psd (PosSemidef.one (n := μ) (R := ℝ)) C hR
  have hS := innov_pd (PosSemidef.one (n := μ) (R := ℝ)) C hR
  have h2 := shrink_mul (pd_isUnit_det hS) (pd_isUnit_det hR)
  refine (h1.posDef_iff_isUnit).mpr ?_
  unfold post
  rw [Matrix.mul_one]
  exact (Matrix.isUnit_iff_isUnit_det _).mpr (Matrix.isUnit_det_of_right_inverse h2)

theorem pd_conj_white {μ : Type} [Fintype μ] [DecidableEq μ] {D : Matrix ι μ ℝ} (hD : (D * Dᵀ).PosDef) {Q : Matrix μ μ ℝ}
    (hQ : Q.PosDef) : (D * Q * Dᵀ).PosDef := by
  have hinj : Function.Injective D.vecMul := by
    intro v w hvw
    by_contra hne
    have hne' : v - w ≠ 0 := sub_ne_zero.mpr hne
    have h0 : (v - w) ᵥ* D = 0 := by rw [Matrix.sub_vecMul]; exact sub_eq_zero.mpr hvw
    have := hD.dotProduct_mulVec_pos hne'
    rw [← Matrix.mulVec_mulVec, Matrix.dotProduct_mulVec, star_trivial, h0, zero_dotProduct] at this
    exact lt_irrefl _ this
  have := hQ.mul_mul_conjTranspose_same (B := D) hinj
  rwa [conjTranspose_eq_transpose_of_trivial] at this

end Sigma
end StateEstimation
