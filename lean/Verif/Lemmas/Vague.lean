import Verif.Lemmas.OneStep
import Verif.Lemmas.KFApi
import Verif.Lemmas.UKFApi
import Verif.Lemmas.UKFVSSteps
import Verif.Lemmas.VSApi
import Verif.Spec.Vague
import Mathlib.Topology.Instances.Matrix
import Mathlib.Topology.Algebra.Order.Field
import Mathlib.Analysis.Normed.Field.Basic
import Mathlib.Topology.Algebra.GroupWithZero

/-! # Gains for growing measurement covariance -/

namespace StateEstimation

open Matrix Kalman Sigma

section matrices
variable {ι κ : Type} [Fintype ι] [Fintype κ] [DecidableEq ι] [DecidableEq κ]

theorem inv_fades (M : Matrix κ κ ℝ) {R0 : Matrix κ κ ℝ} (h0 : R0.PosDef) :
    _root_.Filter.Tendsto (fun r : ℝ => (M + r • R0)⁻¹) _root_.Filter.atTop (nhds 0) := by
  have hdet : R0.det ≠ 0 := (pd_isUnit_det h0).ne_zero
  have hinv : ContinuousAt (Inv.inv : Matrix κ κ ℝ → Matrix κ κ ℝ) R0 := by
    refine continuousAt_matrix_inv R0 ?_
    rw [Ring.inverse_eq_inv']
    exact continuousAt_inv₀ hdet
  have hs : _root_.Filter.Tendsto (fun r : ℝ => r⁻¹) _root_.Filter.atTop (nhds 0) := tendsto_inv_atTop_zero
  have h1 : _root_.Filter.Tendsto (fun r : ℝ => r⁻¹ • M + R0) _root_.Filter.atTop (nhds R0) := by
    have := (hs.smul (tendsto_const_nhds (x := M))).add (tendsto_const_nhds (x := R0))
    rwa [zero_smul, zero_add] at this
  have h2 : _root_.Filter.Tendsto (fun r : ℝ => r⁻¹ • (r⁻¹ • M + R0)⁻¹) _root_.Filter.atTop (nhds 0) := by
    have := hs.smul (hinv.tendsto.comp h1)
    rwa [zero_smul] at this
  have h3 : ∀ᶠ r : ℝ in _root_.Filter.atTop, IsUnit (r⁻¹ • M + R0).det := by
    have hd : _root_.Filter.Tendsto (fun r : ℝ => (r⁻¹ • M + R0).det) _root_.Filter.atTop (nhds R0.det) :=
      ((Continuous.matrix_det continuous_id).tendsto R0).comp h1
    exact (hd.eventually_ne hdet).mono fun r hr => isUnit_iff_ne_zero.mpr hr
  refine h2.congr' ?_
  filter_upwards [h3, _root_.Filter.eventually_gt_atTop (0 : ℝ)] with r hr hpos
  have e : M + r • R0 = r • (r⁻¹ • M + R0) := by
    rw [smul_add, smul_smul, mul_inv_cancel₀ hpos.ne', one_smul]
  letI : Invertible r := invertibleOfNonzero hpos.ne'
  rw [e, Matrix.inv_smul _ _ hr, invOf_eq_inv]

/-- what a limit of matrices and vectors means entry by entry -/
theorem fades_entries {u : ℝ → ι → ℝ} {v : ℝ → Matrix ι ι ℝ} {P : Matrix ι ι ℝ}
    (hu : _root_.Filter.Tendsto u _root_.Filter.atTop (nhds 0)) (hv : _root_.Filter.Tendsto v _root_.Filter.atTop (nhds P))
    {ε : ℝ} (hε : 0 < ε) : ∃ r0 : ℝ, 0 < r0 ∧ ∀ r, r0 ≤ r → (∀ a, |u r a| ≤ ε) ∧ ∀ a b, |v r a b - P a b| ≤ ε := by
  have h1 : ∀ᶠ r : ℝ in _root_.Filter.atTop, ∀ a, |u r a| ≤ ε := by
    rw [_root_.Filter.eventually_all]
    intro a
    have := (tendsto_pi_nhds.mp hu) a
    have := (Metric.tendsto_nhds.mp this) ε hε
    refine this.mono fun r hr => ?_
    rw [Real.dist_eq] at hr
    simpa using hr.le
  have h2 : ∀ᶠ r : ℝ in _root_.Filter.atTop, ∀ a b, |v r a b - P a b| ≤ ε := by
    rw [_root_.Filter.eventually_all]
    intro a
    rw [_root_.Filter.eventually_all]
    intro b
    have := (tendsto_pi_nhds.mp ((tendsto_pi_nhds.mp hv) a)) b
    have := (Metric.tendsto_nhds.mp this) ε hε
    refine this.mono fun r hr => ?_
    rw [Real.dist_eq] at hr
    exact hr.le
  obtain ⟨r1, hr1⟩ := _root_.Filter.eventually_atTop.mp (h1.and h2)
  exact ⟨max r1 1, lt_max_of_lt_right one_pos, fun r hr => hr1 r ((le_max_left _ _).trans hr)⟩

theorem gain_fades (P : Matrix ι ι ℝ) (C : Matrix κ ι ℝ) {R0 : Matrix κ κ ℝ} (h0 : R0.PosDef) (w : κ → ℝ) {ε : ℝ} (hε : 0 < ε) :
    ∃ r0 : ℝ, 0 < r0 ∧ ∀ r, r0 ≤ r → (∀ a, |(gain P C (r • R0) *ᵥ w) a| ≤ ε) ∧ ∀ a b, |post P C (r • R0) a b - P a b| ≤ ε := by
  have hG : _root_.Filter.Tendsto (fun r : ℝ => gain P C (r • R0)) _root_.Filter.atTop (nhds 0) := by
    have h := ((continuous_const.matrix_mul continuous_id : Continuous fun S : Matrix κ κ ℝ => P * Cᵀ * S).tendsto 0).comp
      (inv_fades (C * (P * Cᵀ)) h0)
    simp only [Matrix.mul_zero] at h
    exact h
  refine fades_entries (u := fun r => gain P C (r • R0) *ᵥ w) (v := fun r => post P C (r • R0)) ?_ ?_ hε
  · have h := ((continuous_id.matrix_mulVec continuous_const : Continuous fun G : Matrix ι κ ℝ => G *ᵥ w).tendsto 0).comp hG
    simp at h
    exact h
  · have hc : Continuous fun G : Matrix ι κ ℝ => (1 - G * C) * P :=
      (continuous_const.sub (continuous_id.matrix_mul continuous_const)).matrix_mul continuous_const
    have h := (hc.tendsto 0).comp hG
    simp only [Matrix.zero_mul, sub_zero, Matrix.one_mul] at h
    exact h

theorem sigma_fades (P : Matrix ι ι ℝ) (D : Matrix ι κ ℝ) (M : Matrix κ κ ℝ) (hM : M.PosSemidef) {R0 : Matrix κ κ ℝ} (h0 : R0.PosDef)
    (w : κ → ℝ) {ε : ℝ} (hε : 0 < ε) :
    ∃ r0 : ℝ, 0 < r0 ∧ ∀ r, r0 ≤ r → (∀ a, |((D * (r • R0 + M)⁻¹) *ᵥ w) a| ≤ ε) ∧
      ∀ a b, |(P - D * (r • R0 + M)⁻¹ * (r • R0 + M) * (D * (r • R0 + M)⁻¹)ᵀ) a b - P a b| ≤ ε := by
  have hG : _root_.Filter.Tendsto (fun r : ℝ => D * (r • R0 + M)⁻¹) _root_.Filter.atTop (nhds 0) := by
    have h := ((continuous_const.matrix_mul continuous_id : Continuous fun S : Matrix κ κ ℝ => D * S).tendsto 0).comp
      (inv_fades M h0)
    simpa [Function.comp_def, add_comm] using h
  refine fades_entries (u := fun r => (D * (r • R0 + M)⁻¹) *ᵥ w)
    (v := fun r => P - D * (r • R0 + M)⁻¹ * (r • R0 + M) * (D * (r • R0 + M)⁻¹)ᵀ) ?_ ?_ hε
  · have h := ((continuous_id.matrix_mulVec continuous_const : Continuous fun G : Matrix ι κ ℝ => G *ᵥ w).tendsto 0).comp hG
    simp at h
    exact h
  · have hc : Continuous fun G : Matrix ι κ ℝ => P - D * Gᵀ :=
      continuous_const.sub (continuous_const.matrix_mul continuous_id.matrix_transpose)
    have h := (hc.tendsto 0).comp hG
    have h' : _root_.Filter.Tendsto (fun r : ℝ => P - D * (D * (r • R0 + M)⁻¹)ᵀ) _root_.Filter.atTop (nhds P) := by
      simp only [Matrix.transpose_zero, Matrix.mul_zero, sub_zero] at h
      exact h
    refine h'.congr' ?_
    filter_upwards [_root_.Filter.eventually_gt_atTop (0 : ℝ)] with r hr
    have hu : IsUnit (r • R0 + M).det := pd_isUnit_det (PosDef.add_posSemidef (h0.smul hr) hM)
    rw [Matrix.nonsing_inv_mul_cancel_right _ _ hu]

theorem gain_trusts {P : Matrix ι ι ℝ} (C : Matrix κ ι ℝ) (hM : (C * (P * Cᵀ)).PosDef) (R0 : Matrix κ κ ℝ) (w : κ → ℝ) {ε : ℝ} (hε : 0 < ε) :
    ∃ r0 : ℝ, 0 < r0 ∧ ∀ r, 0 < r → r ≤ r0 → (∀ a, |(C *ᵥ (gain P C (r • R0) *ᵥ w) - w) a| ≤ ε) ∧
      ∀ a b, |(C * post P C (r • R0) * Cᵀ) a b| ≤ ε := by
  have hdet : (C * (P * Cᵀ)).det ≠ 0 := (pd_isUnit_det hM).ne_zero
  have hinv : ContinuousAt (Inv.inv : Matrix κ κ ℝ → Matrix κ κ ℝ) (C * (P * Cᵀ)) := by
    refine continuousAt_matrix_inv _ ?_
    rw [Ring.inverse_eq_inv']
    exact continuousAt_inv₀ hdet
  have h1 : _root_.Filter.Tendsto (fun r : ℝ => C * (P * Cᵀ) + r • R0) (nhds 0) (nhds (C * (P * Cᵀ))) := by
    have := (tendsto_const_nhds (x := C * (P * Cᵀ)) (f := nhds (0 : ℝ))).add
      (_root_.Filter.tendsto_id.smul (tendsto_const_nhds (x := R0)))
    rwa [zero_smul, add_zero] at this
  have hG : _root_.Filter.Tendsto (fun r : ℝ => C * gain P C (r • R0)) (nhds 0) (nhds 1) := by
    have h := ((continuous_const.matrix_mul continuous_id : Continuous fun S : Matrix κ κ ℝ => C * (P * Cᵀ) * S).tendsto
      (C * (P * Cᵀ))⁻¹).comp (hinv.tendsto.comp h1)
    simp only [id, Matrix.mul_nonsing_inv _ (pd_isUnit_det hM)] at h
    refine h.congr fun r => ?_
    show C * (P * Cᵀ) * (C * (P * Cᵀ) + r • R0)⁻¹ = C * (P * Cᵀ * (C * (P * Cᵀ) + r • R0)⁻¹)
    rw [Matrix.mul_assoc]
  have hu : _root_.Filter.Tendsto (fun r : ℝ => C *ᵥ (gain P C (r • R0) *ᵥ w) - w) (nhds 0) (nhds 0) := by
    have h := ((continuous_id.matrix_mulVec continuous_const : Continuous fun G : Matrix κ κ ℝ => G *ᵥ w).tendsto 1).comp hG
    have h' := h.sub (tendsto_const_nhds (x := w))
    simp only [id, Matrix.one_mulVec, sub_self] at h'
    refine h'.congr fun r => ?_
    show (C * gain P C (r • R0)) *ᵥ w - w = _
    rw [Matrix.mulVec_mulVec]
  have hv : _root_.Filter.Tendsto (fun r : ℝ => C * post P C (r • R0) * Cᵀ) (nhds 0) (nhds 0) := by
    have hc : Continuous fun G : Matrix κ κ ℝ => C * (P * Cᵀ) - G * (C * (P * Cᵀ)) :=
      continuous_const.sub (continuous_id.matrix_mul continuous_const)
    have h := (hc.tendsto 1).comp hG
    rw [Matrix.one_mul, sub_self] at h
    refine h.congr fun r => ?_
    show C * (P * Cᵀ) - C * gain P C (r • R0) * (C * (P * Cᵀ)) = C * ((1 - gain P C (r • R0) * C) * P) * Cᵀ
    simp only [Matrix.mul_assoc, Matrix.sub_mul, Matrix.mul_sub, Matrix.one_mul]
  have e1 : ∀ᶠ r : ℝ in nhds 0, ∀ a, |(C *ᵥ (gain P C (r • R0) *ᵥ w) - w) a| ≤ ε := by
    rw [_root_.Filter.eventually_all]
    intro a
    have := (Metric.tendsto_nhds.mp ((tendsto_pi_nhds.mp hu) a)) ε hε
    refine this.mono fun r hr => ?_
    rw [Real.dist_eq] at hr
    simpa using hr.le
  have e2 : ∀ᶠ r : ℝ in nhds 0, ∀ a b, |(C * post P C (r • R0) * Cᵀ) a b| ≤ ε := by
    rw [_root_.Filter.eventually_all]
    intro a
    rw [_root_.Filter.eventually_all]
    intro b
    have := (Metric.tendsto_nhds.mp ((tendsto_pi_nhds.mp ((tendsto_pi_nhds.mp hv) a)) b)) ε hε
    refine this.mono fun r hr => ?_
    rw [Real.dist_eq] at hr
    simpa using hr.le
  obtain ⟨δ, hδ, h⟩ := Metric.eventually_nhds_iff.mp (e1.and e2)
  refine ⟨δ / 2, by positivity, fun r hr hle => h ?_⟩
  rw [Real.dist_eq, sub_zero, abs_of_pos hr]
  linarith

end matrices

end StateEstimation
