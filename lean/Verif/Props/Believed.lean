import Verif.Lemmas.At
import Verif.Props.Kalman

/-!
# C120: a measurement with a very small covariance is believed

and C31 for the EKF.
-/

set_option linter.unusedSectionVars false

namespace StateEstimation
namespace Props

open Filter Matrix Kalman

section
variable {T K X Y : Type} [LinearOrder T] [ExactTime T] [DecidableEq K] {n m k ns ks : Nat}

/-- **C120 (Kalman filter).**  `t` is not before the state's time, neither model tests for stationarity, `predict(t)` reports
`x`, `P`; the sensor's matrix is `C`, and `C P Cᵀ` is positive definite (the filter is not yet certain of anything the sensor
reads).  As the covariance `r R0` shrinks, `C x` of the corrected state tends to the reading `z`, and `C P Cᵀ` to zero. -/
theorem C120_kf {sc : SysClass T LinSysData X} {mc : K → MeasClass T LinMeasData Y} (hso : sc.PlainOps)
    (hmc : ∀ j, MeasContract LinMeasData.Sized (mc j)) (hmo : ∀ j, (mc j).PlainOps)
    (f q : Filter T DVec DMat K (Env K LinSysData X LinMeasData Y)) (j : K) (t : T) (ht : f.getStateTime ≤ t)
    (hs : f.env.sys.fm.checkStationary = false) (hst : (f.env.meas j).fm.checkStationary = false)
    (hq : f.predictTime (kfPlant sc mc) t = some q) {x : Fin n → ℝ} {P : Matrix (Fin n) (Fin n) ℝ} (hx : q.getState = .of x)
    (hP : q.getCovariance = .of P) (hm : (q.env.meas j).Sized LinMeasData.Sized n k) {C : Matrix (Fin k) (Fin n) ℝ}
    (hC : (mc j).Yields LinMeasData.Sized (q.env.meas j) k x (TimeOps.sub t f.getStateTime) fun d => d.C = .of C)
    (hM : (C * P * Cᵀ).PosDef) (z : Fin k → ℝ) {R0 : Matrix (Fin k) (Fin k) ℝ} (hR0 : R0.PosDef) :
    Believed (kfPlant sc mc) f j t z R0 (fun x' => C *ᵥ x') (fun P' => C * P' * Cᵀ) z := by
  rw [Matrix.mul_assoc] at hM
  intro ε hε
  obtain ⟨r0, hr0, hr⟩ := gain_trusts C hM R0 (z - C *ᵥ x) hε
  refine ⟨r0, hr0, fun r hpos hle => ?_⟩
  obtain ⟨g, g1, g2, g3, g4⟩ := kf_correct_at hso hmc hmo f q j t ht hs hst hq hx hP hm hC z (r • R0)
    (pd_isUnit_det (hM.add_posSemidef (hR0.smul hpos).posSemidef))
  refine ⟨g, _, _, g1, g2, g3, g4, fun i => ?_, (hr r hpos hle).2⟩
  have := (hr r hpos hle).1 i
  have e : (C *ᵥ postState x P C (r • R0) z) i - z i = (C *ᵥ (gain P C (r • R0) *ᵥ (z - C *ᵥ x)) - (z - C *ᵥ x)) i := by
    unfold postState
    rw [Matrix.mulVec_add]
    simp only [Pi.add_apply, Pi.sub_apply]
    ring
  rw [e]; exact this

/-- **C120 (EKF).**  The sensor predicts `h` with Jacobian `H`: the linearised prediction `h + H (x' - x)` of the corrected state
`x'` tends to the reading. -/
theorem C120_ekf {sc : SysClass T NonlinSysData X} {mc : K → MeasClass T NonlinMeasData Y} (hso : sc.PlainOps)
    (hmc : ∀ j, MeasContract NonlinMeasData.Sized (mc j)) (hmo : ∀ j, (mc j).PlainOps)
    (f q : Filter T DVec DMat K (Env K NonlinSysData X NonlinMeasData Y)) (j : K) (t : T) (ht : f.getStateTime ≤ t)
    (hs : f.env.sys.fm.checkStationary = false) (hst : (f.env.meas j).fm.checkStationary = false)
    (hq : f.predictTime (ekfPlant sc mc) t = some q) {x : Fin n → ℝ} {P : Matrix (Fin n) (Fin n) ℝ} (hx : q.getState = .of x)
    (hP : q.getCovariance = .of P) (hm : (q.env.meas j).Sized NonlinMeasData.Sized n k) {h : Fin k → ℝ}
    {H : Matrix (Fin k) (Fin n) ℝ}
    (hH : (mc j).Yields NonlinMeasData.Sized (q.env.meas j) k x (TimeOps.sub t f.getStateTime) fun d => d = ⟨.of h, .of H⟩)
    (hM : (H * P * Hᵀ).PosDef) (z : Fin k → ℝ) {R0 : Matrix (Fin k) (Fin k) ℝ} (hR0 : R0.PosDef) :
    Believed (ekfPlant sc mc) f j t z R0 (fun x' => h + H *ᵥ (x' - x)) (fun P' => H * P' * Hᵀ) z := by
  rw [Matrix.mul_assoc] at hM
  intro ε hε
  obtain ⟨r0, hr0, hr⟩ := gain_trusts H hM R0 (z - h) hε
  refine ⟨r0, hr0, fun r hpos hle => ?_⟩
  obtain ⟨g, g1, g2, g3, g4⟩ := ekf_correct_at hso hmc hmo f q j t ht hs hst hq hx hP hm hH z (r • R0)
    (pd_isUnit_det (hM.add_posSemidef (hR0.smul hpos).posSemidef))
  refine ⟨g, _, _, g1, g2, g3, g4, fun i => ?_, (hr r hpos hle).2⟩
  have := (hr r hpos hle).1 i
  have e : (h + H *ᵥ (x + gain P H (r • R0) *ᵥ (z - h) - x)) i - z i = (H *ᵥ (gain P H (r • R0) *ᵥ (z - h)) - (z - h)) i := by
    rw [add_sub_cancel_left]
    simp only [Pi.add_apply, Pi.sub_apply]
    ring
  rw [e]; exact this

/-- **C120 (Kalman filter with variable states)**: for the active components of the reading and the part of the sensor's matrix
that concerns the active states. -/
theorem C120_kf_vs {sc : SysClass T LinSysData X} {mc : K → MeasClass T LinMeasData Y}
    (hsc : SysContract LinSysData.Sized sc) (hso : sc.PlainOps)
    (hmc : ∀ j, MeasContract LinMeasData.Sized (mc j)) (hmo : ∀ j, (mc j).PlainOps)
    (f q : Filter T DVec DMat K (Env K LinSysData X LinMeasData Y)) (j : K) (t : T) (ht : f.getStateTime ≤ t)
    (hs : f.env.sys.fm.checkStationary = false) (hst : (f.env.meas j).fm.checkStationary = false)
    (hq : f.predictTime (kfvsPlant sc mc) t = some q) {x : Fin n → ℝ} {P : Matrix (Fin n) (Fin n) ℝ} (hx : q.getState = .of x)
    (hP : q.getCovariance = .of P) (hss : q.env.sys.Sized LinSysData.Sized n m)
    (hm : (q.env.meas j).Sized LinMeasData.Sized n k) {σ : Fin ns → Fin n} (hσ : Selects q.env.sys.activeStates σ)
    {ρ : Fin ks → Fin k} (hρ : Selects (q.env.meas j).activeMeasurements ρ) (hPsd : (P.submatrix σ σ).PosSemidef)
    {C : Matrix (Fin k) (Fin n) ℝ}
    (hC : (mc j).Yields LinMeasData.Sized (q.env.meas j) k x (TimeOps.sub t f.getStateTime) fun d => d.C = .of C)
    (hM : (C.submatrix ρ σ * P.submatrix σ σ * (C.submatrix ρ σ)ᵀ).PosDef) (z : Fin k → ℝ)
    {R0 : Matrix (Fin k) (Fin k) ℝ} (hR0 : R0.PosDef) :
    Believed (kfvsPlant sc mc) f j t z R0 (fun x' => C.submatrix ρ σ *ᵥ (x' ∘ σ))
      (fun P' => C.submatrix ρ σ * P'.submatrix σ σ * (C.submatrix ρ σ)ᵀ) (z ∘ ρ) := by
  rw [Matrix.mul_assoc] at hM
  intro ε hε
  obtain ⟨r0, hr0, hr⟩ := gain_trusts (C.submatrix ρ σ) hM (R0.submatrix ρ ρ) (z ∘ ρ - C.submatrix ρ σ *ᵥ (x ∘ σ)) hε
  refine ⟨r0, hr0, fun r hpos hle => ?_⟩
  have hRs : ((r • R0).submatrix ρ ρ).PosDef := (hR0.smul hpos).submatrix hρ.inj
  obtain ⟨g, x', P', g1, g2, g3, g4, g5, g6⟩ := kfvs_correct_at hsc hso hmc hmo f q j t ht hs hst hq hx hP hss hm hσ hρ hPsd hC z
    (r • R0) hRs
  have e0 : (r • R0).submatrix ρ ρ = r • R0.submatrix ρ ρ := rfl
  rw [e0] at g5 g6
  refine ⟨g, x', P', g1, g2, g3, g4, fun i => ?_, fun i l => ?_⟩
  · have := (hr r hpos hle).1 i
    have e : (C.submatrix ρ σ *ᵥ (x' ∘ σ)) i - (z ∘ ρ) i = (C.submatrix ρ σ *ᵥ (gain (P.submatrix σ σ) (C.submatrix ρ σ)
        (r • R0.submatrix ρ ρ) *ᵥ (z ∘ ρ - C.submatrix ρ σ *ᵥ (x ∘ σ))) - (z ∘ ρ - C.submatrix ρ σ *ᵥ (x ∘ σ))) i := by
      rw [g5]
      unfold postState
      rw [Matrix.mulVec_add]
      simp only [Pi.add_apply, Pi.sub_apply]
      ring
    show |(C.submatrix ρ σ *ᵥ (x' ∘ σ)) i - (z ∘ ρ) i| ≤ ε
    rw [e]; exact this
  · have := (hr r hpos hle).2 i l
    rw [← g6] at this
    exact this

/-- **C120 (EKF with variable states).** -/
theorem C120_ekf_vs {sc : SysClass T NonlinSysData X} {mc : K → MeasClass T NonlinMeasData Y}
    (hsc : SysContract NonlinSysData.Sized sc) (hso : sc.PlainOps)
    (hmc : ∀ j, MeasContract NonlinMeasData.Sized (mc j)) (hmo : ∀ j, (mc j).PlainOps)
    (f q : Filter T DVec DMat K (Env K NonlinSysData X NonlinMeasData Y)) (j : K) (t : T) (ht : f.getStateTime ≤ t)
    (hs : f.env.sys.fm.checkStationary = false) (hst : (f.env.meas j).fm.checkStationary = false)
    (hq : f.predictTime (ekfvsPlant sc mc) t = some q) {x : Fin n → ℝ} {P : Matrix (Fin n) (Fin n) ℝ} (hx : q.getState = .of x)
    (hP : q.getCovariance = .of P) (hss : q.env.sys.Sized NonlinSysData.Sized n m)
    (hm : (q.env.meas j).Sized NonlinMeasData.Sized n k) {σ : Fin ns → Fin n} (hσ : Selects q.env.sys.activeStates σ)
    {ρ : Fin ks → Fin k} (hρ : Selects (q.env.meas j).activeMeasurements ρ) (hPsd : (P.submatrix σ σ).PosSemidef)
    {h : Fin k → ℝ} {H : Matrix (Fin k) (Fin n) ℝ}
    (hH : (mc j).Yields NonlinMeasData.Sized (q.env.meas j) k x (TimeOps.sub t f.getStateTime) fun d => d = ⟨.of h, .of H⟩)
    (hM : (H.submatrix ρ σ * P.submatrix σ σ * (H.submatrix ρ σ)ᵀ).PosDef) (z : Fin k → ℝ)
    {R0 : Matrix (Fin k) (Fin k) ℝ} (hR0 : R0.PosDef) :
    Believed (ekfvsPlant sc mc) f j t z R0 (fun x' => h ∘ ρ + H.submatrix ρ σ *ᵥ (x' ∘ σ - x ∘ σ))
      (fun P' => H.submatrix ρ σ * P'.submatrix σ σ * (H.submatrix ρ σ)ᵀ) (z ∘ ρ) := by
  rw [Matrix.mul_assoc] at hM
  intro ε hε
  obtain ⟨r0, hr0, hr⟩ := gain_trusts (H.submatrix ρ σ) hM (R0.submatrix ρ ρ) (z ∘ ρ - h ∘ ρ) hε
  refine ⟨r0, hr0, fun r hpos hle => ?_⟩
  have hRs : ((r • R0).submatrix ρ ρ).PosDef := (hR0.smul hpos).submatrix hρ.inj
  obtain ⟨g, x', P', g1, g2, g3, g4, g5, g6⟩ := ekfvs_correct_at hsc hso hmc hmo f q j t ht hs hst hq hx hP hss hm hσ hρ hPsd hH z
    (r • R0) hRs
  have e0 : (r • R0).submatrix ρ ρ = r • R0.submatrix ρ ρ := rfl
  rw [e0] at g5 g6
  refine ⟨g, x', P', g1, g2, g3, g4, fun i => ?_, fun i l => ?_⟩
  · have := (hr r hpos hle).1 i
    have e : (h ∘ ρ + H.submatrix ρ σ *ᵥ (x' ∘ σ - x ∘ σ)) i - (z ∘ ρ) i = (H.submatrix ρ σ *ᵥ (gain (P.submatrix σ σ) (H.submatrix ρ σ)
        (r • R0.submatrix ρ ρ) *ᵥ (z ∘ ρ - h ∘ ρ)) - (z ∘ ρ - h ∘ ρ)) i := by
      rw [g5, add_sub_cancel_left]
      simp only [Pi.add_apply, Pi.sub_apply]
      ring
    show |(h ∘ ρ + H.submatrix ρ σ *ᵥ (x' ∘ σ - x ∘ σ)) i - (z ∘ ρ) i| ≤ ε
    rw [e]; exact this
  · have := (hr r hpos hle).2 i l
    rw [← g6] at this
    exact this

/-! ### C31 for the EKF: sensors that read the whole state -/

/-- **C31 (a), EKF: a perfect measurement of the whole state.**  The sensor predicts `h` with Jacobian `I`; `R = 0`, `P` positive
definite: the state moves by `z - h`, hence to `z` if `h = x`, and the covariance becomes zero. -/
theorem C31_ekf_perfect_measurement {sc : SysClass T NonlinSysData X} {mc : K → MeasClass T NonlinMeasData Y} (hso : sc.PlainOps)
    (hmc : ∀ j, MeasContract NonlinMeasData.Sized (mc j)) (hmo : ∀ j, (mc j).PlainOps)
    (f q : Filter T DVec DMat K (Env K NonlinSysData X NonlinMeasData Y)) (j : K) (t : T) (ht : f.getStateTime ≤ t)
    (hs : f.env.sys.fm.checkStationary = false) (hst : (f.env.meas j).fm.checkStationary = false)
    (hq : f.predictTime (ekfPlant sc mc) t = some q) {x : Fin n → ℝ} {P : Matrix (Fin n) (Fin n) ℝ} (hx : q.getState = .of x)
    (hP : q.getCovariance = .of P) (hPd : P.PosDef) (hm : (q.env.meas j).Sized NonlinMeasData.Sized n n) {h : Fin n → ℝ}
    (hH : (mc j).Yields NonlinMeasData.Sized (q.env.meas j) n x (TimeOps.sub t f.getStateTime) fun d => d = ⟨.of h, .identity n⟩)
    (z : Fin n → ℝ) :
    ∃ g, f.correct (ekfPlant sc mc) (.of z) (.zero n n) t (some j) = some g ∧ g.getStateTime = t ∧
      g.getState = .of (x + (z - h)) ∧ g.getCovariance = .zero n n := by
  have hi : innov P 1 0 = P := by simp [innov]
  have hu : IsUnit (innov P (1 : Matrix (Fin n) (Fin n) ℝ) 0).det := by rw [hi]; exact pd_isUnit_det hPd
  obtain ⟨g, g1, g2, g3, g4⟩ := ekf_correct_at hso hmc hmo f q j t ht hs hst hq hx hP hm (H := 1) hH z 0 hu
  have hg : gain P 1 0 = (1 : Matrix (Fin n) (Fin n) ℝ) := by
    unfold gain
    rw [hi, Matrix.transpose_one, Matrix.mul_one, Matrix.mul_nonsing_inv _ (pd_isUnit_det hPd)]
  refine ⟨g, g1, g2, by rw [g3, hg, Matrix.one_mulVec], ?_⟩
  rw [g4]
  unfold Kalman.post
  rw [hg, Matrix.one_mul, sub_self, Matrix.zero_mul]
  rfl

/-- **C31 (b), EKF: measurement and prior equally certain.**  `H = I`, `R = P`: the state moves by half of `z - h`, and the
covariance halves. -/
theorem C31_ekf_equal_certainty {sc : SysClass T NonlinSysData X} {mc : K → MeasClass T NonlinMeasData Y} (hso : sc.PlainOps)
    (hmc : ∀ j, MeasContract NonlinMeasData.Sized (mc j)) (hmo : ∀ j, (mc j).PlainOps)
    (f q : Filter T DVec DMat K (Env K NonlinSysData X NonlinMeasData Y)) (j : K) (t : T) (ht : f.getStateTime ≤ t)
    (hs : f.env.sys.fm.checkStationary = false) (hst : (f.env.meas j).fm.checkStationary = false)
    (hq : f.predictTime (ekfPlant sc mc) t = some q) {x : Fin n → ℝ} {P : Matrix (Fin n) (Fin n) ℝ} (hx : q.getState = .of x)
    (hP : q.getCovariance = .of P) (hPd : P.PosDef) (hm : (q.env.meas j).Sized NonlinMeasData.Sized n n) {h : Fin n → ℝ}
    (hH : (mc j).Yields NonlinMeasData.Sized (q.env.meas j) n x (TimeOps.sub t f.getStateTime) fun d => d = ⟨.of h, .identity n⟩)
    (z : Fin n → ℝ) :
    ∃ g, f.correct (ekfPlant sc mc) (.of z) (.of P) t (some j) = some g ∧ g.getStateTime = t ∧
      g.getState = .of (x + (2⁻¹ : ℝ) • (z - h)) ∧ g.getCovariance = .of ((2⁻¹ : ℝ) • P) := by
  have hi : innov P 1 P = (2 : ℝ) • P := by simp [innov, two_smul]
  have hu2 : IsUnit ((2 : ℝ) • P).det := pd_isUnit_det (hPd.smul two_pos)
  have hu : IsUnit (innov P (1 : Matrix (Fin n) (Fin n) ℝ) P).det := by rw [hi]; exact hu2
  obtain ⟨g, g1, g2, g3, g4⟩ := ekf_correct_at hso hmc hmo f q j t ht hs hst hq hx hP hm (H := 1) hH z P hu
  have hg : gain P 1 P = (2⁻¹ : ℝ) • (1 : Matrix (Fin n) (Fin n) ℝ) := by
    unfold gain
    rw [hi, Matrix.transpose_one, Matrix.mul_one]
    have e : P = (2⁻¹ : ℝ) • ((2 : ℝ) • P) := by rw [smul_smul, inv_mul_cancel₀ two_ne_zero, one_smul]
    conv_lhs => rw [show P * ((2 : ℝ) • P)⁻¹ = ((2⁻¹ : ℝ) • ((2 : ℝ) • P)) * ((2 : ℝ) • P)⁻¹ from by rw [← e]]
    rw [Matrix.smul_mul, Matrix.mul_nonsing_inv _ hu2]
  refine ⟨g, g1, g2, by rw [g3, hg, Matrix.smul_mulVec, Matrix.one_mulVec], ?_⟩
  rw [g4]
  unfold Kalman.post
  rw [hg, Matrix.mul_one, Matrix.sub_mul, Matrix.one_mul, Matrix.smul_mul, Matrix.one_mul]
  congr 1
  module

end

/-- Non-vacuity: the constant-velocity filter with the position sensor; `C P Cᵀ = 1`. -/
example (z : Fin 1 → ℝ) : Believed (kfPlant Examples.cvClass fun _ : Unit => Examples.posClass) cvFilter () 0 z 1
    (fun x' : Fin 2 → ℝ => !![1, 0] *ᵥ x') (fun P' => (!![1, 0] : Matrix (Fin 1) (Fin 2) ℝ) * P' * (!![1, 0] : Matrix (Fin 1) (Fin 2) ℝ)ᵀ) z := by
  have e : cvFilter.predictTime (kfPlant Examples.cvClass fun _ : Unit => Examples.posClass) 0 = some cvFilter := by
    unfold predictTime
    rw [if_neg]
    rw [LawfulTime.lt_iff, not_lt]
    exact le_refl (0 : ℝ)
  refine C120_kf (Examples.plain_ops _) (fun _ => Examples.pos_contract) (fun _ => Examples.plain_mops _) cvFilter cvFilter () 0
    (le_refl (0 : ℝ)) rfl rfl e (x := 0) (P := 1) rfl rfl
    ((Examples.cvEnv_ok (Q := EstimatePSD 2)).meas ()) ?_ ?_ z Matrix.PosDef.one
  · intro m' r hm' hf ha hr
    change (if m'.stateSize = 2 ∧ m'.measDims = 1 then some { m' with der := (⟨.of !![1, 0]⟩ : LinMeasData) } else some m') = some r at hr
    rw [if_pos ⟨hm'.states, hm'.meas⟩, Option.some.injEq] at hr
    rw [← hr]
  · have : ((!![1, 0] : Matrix (Fin 1) (Fin 2) ℝ) * (1 : Matrix (Fin 2) (Fin 2) ℝ) * (!![1, 0] : Matrix (Fin 1) (Fin 2) ℝ)ᵀ) = 1 := by
      ext i j
      fin_cases i; fin_cases j
      simp [Matrix.mul_apply]
    rw [this]
    exact Matrix.PosDef.one

end Props
end StateEstimation
