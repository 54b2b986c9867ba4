import Verif.Spec.Innovation
import Verif.Props.Consistency
import Verif.Props.Forgetting

/-!
# C127: the innovations are white, with the covariance the filter claims for them
-/

set_option linter.unusedSectionVars false

namespace StateEstimation
namespace Props

open Matrix MeasureTheory Kalman Moments

variable {Ω : Type} [MeasurableSpace Ω] {μ : Measure Ω}
variable {T K X Y : Type} [DecidableEq K] [LinearOrder T] [ExactTime T]

theorem _root_.StateEstimation.Logged.experiment {sc : SysClass T LinSysData X} {mc : K → MeasClass T LinMeasData Y} {n m : Nat}
    {kd : K → Nat} {f x past log} (h : Logged μ sc mc n m kd f x past log) : Experiment μ sc mc n m kd f x past := by
  induction h with
  | start params e x0 P0 t x hs hm hq hn => exact .start params e x0 P0 t x hs hm hq hn
  | predict f' u t A B W V Rp Rc w v _ h0 ht hf hd hR hw hv ih => exact .predict f' u t A B W V Rp Rc w v ih h0 ht hf hd hR hw hv
  | correct f' j C R ν xh P _ hf hC hR hn _ ih => exact .correct f' j C R ν ih hf hC hR hn

private theorem mom_zero_comm {a b : Nat} {x : Ω → Fin a → ℝ} {y : Ω → Fin b → ℝ} (h : mom μ x y = 0) : mom μ y x = 0 := by
  rw [← mom_transpose, h, Matrix.transpose_zero]

/-- what holds of the innovations -/
private structure LogInv (μ : Measure Ω) {n : Nat} (x xh : Ω → Fin n → ℝ) (past : Set (Ω → ℝ)) (log : List (Innovation Ω)) : Prop where
  span : ∀ a ∈ log, InSpan past a.value
  cov : ∀ a ∈ log, mom μ a.value a.value = a.claimed
  pd : ∀ a ∈ log, a.claimed.PosDef
  apart : log.Pairwise fun a b => mom μ a.value b.value = 0
  error : ∀ a ∈ log, mom μ (fun ω => x ω - xh ω) a.value = 0

private theorem log_inv [IsProbabilityMeasure μ] {sc : SysClass T LinSysData X} {mc : K → MeasClass T LinMeasData Y} {n m : Nat}
    {kd : K → Nat} (hsc : SysContract LinSysData.Sized sc) (hmc : ∀ j, MeasContract LinMeasData.Sized (mc j))
    (ops : sc.PlainOps) (mops : ∀ j, (mc j).PlainOps) {f x past log} (h : Logged μ sc mc n m kd f x past log) :
    ∀ xh P, ExpInv μ n m kd f x past xh P → LogInv μ x xh past log := by
  induction h with
  | start params e x0 P0 t x hs hm hq hn =>
    intro xh P _
    exact ⟨by simp, by simp, by simp, .nil, by simp⟩
  | @predict f x past log f' u t p A B W V Rp Rc w v h h0 ht hf hd hR hw hv ih =>
    intro xh' P' I'
    obtain ⟨xh, P, I⟩ := exp_inv hsc hmc ops mops h.experiment
    have L := ih xh P I
    have hx : xh' = fun ω => A *ᵥ xh ω + B *ᵥ u ω := by
      funext ω
      exact DVec.of_inj.mp ((I'.state ω).symm.trans (exp_predict hsc I ops h0 ht hf hd hR ω).2.2.2.1)
    subst hx
    have c1 := centered_add I.centered hw
    have c2 := centered_add c1 hv
    refine ⟨fun a ha => span_mono (past_sub v) (span_mono (past_sub w) (L.span a ha)), L.cov, L.pd, L.apart, fun a ha => ?_⟩
    have he : (fun ω => A *ᵥ x ω + B *ᵥ u ω + W *ᵥ w ω + V *ᵥ v ω - (A *ᵥ xh ω + B *ᵥ u ω))
        = fun ω => (A *ᵥ (x ω - xh ω) + W *ᵥ w ω) + V *ᵥ v ω := by
      funext ω
      rw [Matrix.mulVec_sub]
      abel
    have fa := inSpan_fin2 I.centered (L.span a ha)
    have fe := inSpan_fin2 I.centered I.span
    rw [he, mom_add (fin2_add (fin2_mulVec A fe) (fin2_mulVec W hw.finite)) (fin2_mulVec V hv.finite) fa,
      mom_add (fin2_mulVec A fe) (fin2_mulVec W hw.finite) fa, mom_mulVec A fe fa, mom_mulVec W hw.finite fa,
      mom_mulVec V hv.finite fa, L.error a ha, mom_white I.centered hw (L.span a ha),
      mom_white c1 hv (span_mono (past_sub w) (L.span a ha))]
    simp
  | @correct f x past log f' j C R ν xh P h hf hC hRpd hn hs ih =>
    intro xh' P' I'
    obtain ⟨xh1, P1, I⟩ := exp_inv hsc hmc ops mops h.experiment
    have e1 : xh1 = xh := by
      funext ω
      exact DVec.of_inj.mp ((I.state ω).symm.trans (hs ω).1)
    subst e1
    have L := ih xh1 P1 I
    have fe := inSpan_fin2 I.centered I.span
    have hx : xh' = fun ω => xh1 ω + gain P1 C R *ᵥ (C *ᵥ x ω + ν ω - C *ᵥ xh1 ω) := by
      funext ω
      exact DVec.of_inj.mp ((I'.state ω).symm.trans (exp_correct hsc hmc ops mops I hf hC hRpd ω).2.2.2.1)
    subst hx
    obtain ⟨ω0⟩ := nonempty_of_isProbabilityMeasure μ
    have e2 : P1 = P := DMat.of_inj.mp ((I.cov ω0).symm.trans (hs ω0).2)
    subst e2
    have hPsd : P1.PosSemidef := by rw [← I.mse]; exact mom_psd fe
    have eS : innov P1 C R = C * P1 * Cᵀ + R := by unfold innov; rw [Matrix.mul_assoc]
    have hS : (C * P1 * Cᵀ + R).PosDef := eS ▸ innov_pd hPsd C hRpd
    have hi : (fun ω => C *ᵥ x ω + ν ω - C *ᵥ xh1 ω) = fun ω => C *ᵥ (x ω - xh1 ω) + ν ω := by
      funext ω
      rw [Matrix.mulVec_sub]
      abel
    have si : InSpan (addNoise past ν) (fun ω => C *ᵥ (x ω - xh1 ω) + ν ω) :=
      inSpan_add (inSpan_mulVec C (span_mono (past_sub ν) I.span)) (inSpan_new ν)
    have ci : mom μ (fun ω => C *ᵥ (x ω - xh1 ω) + ν ω) (fun ω => C *ᵥ (x ω - xh1 ω) + ν ω) = C * P1 * Cᵀ + R := by
      have := mom_step C 1 fe hn.finite (mom_white I.centered hn I.span)
      simp only [Matrix.one_mulVec] at this
      rw [this, I.mse, mom_cov hn]
      simp
    have he : (fun ω => x ω - (xh1 ω + gain P1 C R *ᵥ (C *ᵥ x ω + ν ω - C *ᵥ xh1 ω)))
        = fun ω => (x ω - xh1 ω) + (-gain P1 C R) *ᵥ (C *ᵥ (x ω - xh1 ω) + ν ω) := by
      funext ω
      rw [show C *ᵥ x ω + ν ω - C *ᵥ xh1 ω = C *ᵥ (x ω - xh1 ω) + ν ω from congrFun hi ω, Matrix.neg_mulVec]
      abel
    have fi : Fin2 μ (fun ω => C *ᵥ (x ω - xh1 ω) + ν ω) := fin2_add (fin2_mulVec C fe) hn.finite
    have old : ∀ a ∈ log, mom μ (fun ω => C *ᵥ (x ω - xh1 ω) + ν ω) a.value = 0 := by
      intro a ha
      have fa := inSpan_fin2 I.centered (L.span a ha)
      rw [mom_add (fin2_mulVec C fe) hn.finite fa, mom_mulVec C fe fa, L.error a ha, mom_white I.centered hn (L.span a ha)]
      simp
    rw [hi]
    refine ⟨?_, ?_, ?_, ?_, ?_⟩
    · intro a ha
      rcases List.mem_cons.mp ha with rfl | ha
      · exact si
      · exact span_mono (past_sub ν) (L.span a ha)
    · intro a ha
      rcases List.mem_cons.mp ha with rfl | ha
      · exact ci
      · exact L.cov a ha
    · intro a ha
      rcases List.mem_cons.mp ha with rfl | ha
      · exact hS
      · exact L.pd a ha
    · exact List.pairwise_cons.mpr ⟨old, L.apart⟩
    · intro a ha
      rw [he]
      rcases List.mem_cons.mp ha with rfl | ha
      · show mom μ _ (fun ω => C *ᵥ (x ω - xh1 ω) + ν ω) = 0
        rw [mom_add fe (fin2_mulVec _ fi) fi, mom_mulVec _ fi fi, ci, mom_add_right (fin2_mulVec C fe) hn.finite fe,
          mom_zero_comm (mom_white I.centered hn I.span), ← mom_transpose, mom_mulVec C fe fe, I.mse, Matrix.transpose_mul,
          psd_symm hPsd, Matrix.neg_mul]
        rw [← eS, gain_mul_innov (eS ▸ pd_isUnit_det hS)]
        simp
      · have fa := inSpan_fin2 I.centered (L.span a ha)
        rw [mom_add fe (fin2_mulVec _ fi) fa, mom_mulVec _ fi fa, L.error a ha, old a ha]
        simp

/-- the expected normalised square of a random vector is its length -/
private theorem expected_square {a : Nat} {x : Ω → Fin a → ℝ} (hx : Fin2 μ x) {S : Matrix (Fin a) (Fin a) ℝ} (hm : mom μ x x = S)
    (hS : IsUnit S.det) :
    Integrable (fun ω => x ω ⬝ᵥ (S⁻¹ *ᵥ x ω)) μ ∧ ∫ ω, x ω ⬝ᵥ (S⁻¹ *ᵥ x ω) ∂μ = a := by
  have e : (fun ω => x ω ⬝ᵥ (S⁻¹ *ᵥ x ω)) = fun ω => ∑ i, ∑ l, S⁻¹ i l * (x ω l * x ω i) := by
    funext ω
    simp only [dotProduct, Matrix.mulVec, Finset.mul_sum]
    exact Finset.sum_congr rfl fun i _ => Finset.sum_congr rfl fun l _ => by ring
  have hi : ∀ i l, Integrable (fun ω => S⁻¹ i l * (x ω l * x ω i)) μ := fun i l => (int_mul (hx l) (hx i)).const_mul _
  rw [e]
  refine ⟨integrable_finsetSum _ fun i _ => integrable_finsetSum _ fun l _ => hi i l, ?_⟩
  rw [integral_finsetSum _ fun i _ => integrable_finsetSum _ fun l _ => hi i l]
  have : ∀ i, ∫ ω, ∑ l, S⁻¹ i l * (x ω l * x ω i) ∂μ = (S⁻¹ * S) i i := by
    intro i
    rw [integral_finsetSum _ fun l _ => hi i l, Matrix.mul_apply]
    refine Finset.sum_congr rfl fun l _ => ?_
    rw [integral_const_mul, ← hm]
    rfl
  simp only [this, Matrix.nonsing_inv_mul _ hS, Matrix.one_apply_eq, Finset.sum_const, Finset.card_univ, Fintype.card_fin,
    nsmul_eq_mul, mul_one]

/-- **C127.** In every experiment in which the world behaves as the models say: each innovation has mean zero and exactly the
covariance `C P Cᵀ + R` that the filter claims for it; any two innovations (any two measurements, of any sensors) are
uncorrelated; and the error of the estimate is uncorrelated with every innovation seen so far, so nothing more can be learnt
from them. -/
theorem C127_innovations_are_white [IsProbabilityMeasure μ] {sc : SysClass T LinSysData X} {mc : K → MeasClass T LinMeasData Y}
    {n m : Nat} {kd : K → Nat} (hsc : SysContract LinSysData.Sized sc) (hmc : ∀ j, MeasContract LinMeasData.Sized (mc j))
    (ops : sc.PlainOps) (mops : ∀ j, (mc j).PlainOps) {f x past log} (h : Logged μ sc mc n m kd f x past log) :
    (∀ a ∈ log, (∀ i, Integrable (fun ω => a.value ω i) μ ∧ ∫ ω, a.value ω i ∂μ = 0) ∧
      ∀ i j, Integrable (fun ω => a.value ω i * a.value ω j) μ ∧ ∫ ω, a.value ω i * a.value ω j ∂μ = a.claimed i j) ∧
    (log.Pairwise fun a b => ∀ i j, Integrable (fun ω => a.value ω i * b.value ω j) μ ∧ ∫ ω, a.value ω i * b.value ω j ∂μ = 0) ∧
    (∃ xh : Ω → Fin n → ℝ, (∀ ω, (f ω).getState = .of (xh ω)) ∧ ∀ a ∈ log, ∀ i j,
      Integrable (fun ω => (x ω i - xh ω i) * a.value ω j) μ ∧ ∫ ω, (x ω i - xh ω i) * a.value ω j ∂μ = 0) := by
  obtain ⟨xh, P, I⟩ := exp_inv hsc hmc ops mops h.experiment
  have L := log_inv hsc hmc ops mops h xh P I
  have fin : ∀ a ∈ log, Fin2 μ a.value := fun a ha => inSpan_fin2 I.centered (L.span a ha)
  refine ⟨fun a ha => ⟨fun i => ?_, fun i j => ⟨int_mul (fin a ha i) (fin a ha j), ?_⟩⟩, ?_, xh, I.state, fun a ha i j => ⟨?_, ?_⟩⟩
  · obtain ⟨h1, h2⟩ := span_centered I.centered (L.span a ha i)
    exact ⟨h1.integrable (by norm_num), h2⟩
  · exact congrFun (congrFun (L.cov a ha) i) j
  · refine L.apart.imp_of_mem fun {a b} ha hb hab i j => ⟨int_mul (fin a ha i) (fin b hb j), ?_⟩
    exact congrFun (congrFun hab i) j
  · exact int_mul ((inSpan_fin2 I.centered I.span) i) (fin a ha j)
  · exact congrFun (congrFun (L.error a ha) i) j

/-- **C127, the usual test.** On average the normalised square of an innovation, `νᵀ (C P Cᵀ + R)⁻¹ ν`, is the number of
components measured; and the normalised square of the error of the estimate, `eᵀ P⁻¹ e`, is the number of states (when the
reported covariance `P` is invertible). -/
theorem C127_normalised_squares [IsProbabilityMeasure μ] {sc : SysClass T LinSysData X} {mc : K → MeasClass T LinMeasData Y}
    {n m : Nat} {kd : K → Nat} (hsc : SysContract LinSysData.Sized sc) (hmc : ∀ j, MeasContract LinMeasData.Sized (mc j))
    (ops : sc.PlainOps) (mops : ∀ j, (mc j).PlainOps) {f x past log} (h : Logged μ sc mc n m kd f x past log) :
    (∀ a ∈ log, a.claimed.PosDef ∧ Integrable (fun ω => a.value ω ⬝ᵥ (a.claimed⁻¹ *ᵥ a.value ω)) μ ∧
      ∫ ω, a.value ω ⬝ᵥ (a.claimed⁻¹ *ᵥ a.value ω) ∂μ = a.size) ∧
    ∃ (xh : Ω → Fin n → ℝ) (P : Matrix (Fin n) (Fin n) ℝ),
      (∀ ω, (f ω).getState = .of (xh ω) ∧ (f ω).getCovariance = .of P) ∧
      (P.PosDef → Integrable (fun ω => (x ω - xh ω) ⬝ᵥ (P⁻¹ *ᵥ (x ω - xh ω))) μ ∧
        ∫ ω, (x ω - xh ω) ⬝ᵥ (P⁻¹ *ᵥ (x ω - xh ω)) ∂μ = n) := by
  obtain ⟨xh, P, I⟩ := exp_inv hsc hmc ops mops h.experiment
  have L := log_inv hsc hmc ops mops h xh P I
  refine ⟨fun a ha => ⟨L.pd a ha, ?_⟩, xh, P, fun ω => ⟨I.state ω, I.cov ω⟩, fun hP => ?_⟩
  · exact expected_square (inSpan_fin2 I.centered (L.span a ha)) (L.cov a ha) (pd_isUnit_det (L.pd a ha))
  · exact expected_square (inSpan_fin2 I.centered I.span) I.mse (pd_isUnit_det hP)

/-! ### A case that meets the hypotheses: two measurements, with three uncorrelated signs from two coins -/

namespace Coins

/-- an error that is uncorrelated with the truth and with the first sensor error, although it is determined by them -/
def secondError (ω : Bool × Bool) : Fin 1 → ℝ := ![sgn ω.1 * sgn ω.2]

theorem second_noise : IsNoise coins (addNoise (addNoise ∅ fun ω => truth ω - 0) sensorError) (1 : Matrix (Fin 1) (Fin 1) ℝ)
    secondError where
  finite := fun i => MemLp.of_discrete
  mean := fun i => by
    rw [coins_integral]; fin_cases i; simp [secondError, sgn_true, sgn_false]
  cov := fun i j => by
    rw [coins_integral]; fin_cases i; fin_cases j; simp [secondError, sgn_true, sgn_false]; norm_num
  white := by
    rintro s ((hs | ⟨i, rfl⟩) | ⟨i, rfl⟩) j
    · exact absurd hs (Set.notMem_empty s)
    · rw [coins_integral]; fin_cases j; fin_cases i <;> simp [secondError, truth, sgn_true, sgn_false]
    · rw [coins_integral]; fin_cases j; fin_cases i; simp [secondError, sensorError, sgn_true, sgn_false]

theorem second_step {f : Bool × Bool → F2} {x past xh P}
    (I : ExpInv coins 2 1 (fun _ : Unit => 1) f x past xh P) (ω : Bool × Bool) (z : Fin 1 → ℝ) : ∃ g : F2,
    (f ω).correct cvPlant (.of z) (.of (1 : Matrix (Fin 1) (Fin 1) ℝ)) (f ω).getStateTime (some ()) = some g ∧
    (g.env.meas ()).der.C = .of !![1, 0] := by
  have hPsd : P.PosSemidef := by rw [← I.mse]; exact mom_psd (inSpan_fin2 I.centered I.span)
  have hm : ((f ω).env.meas ()).stateSize = 2 ∧ ((f ω).env.meas ()).measDims = 1 := ⟨(I.meas ω ()).states, (I.meas ω ()).meas⟩
  have hup : Examples.posClass.myUpdate (((f ω).env.meas ()).withCov (.of 1)) (.of (xh ω))
      (TimeOps.sub (f ω).getStateTime (f ω).getStateTime)
      = some { ((f ω).env.meas ()).withCov (.of (1 : Matrix (Fin 1) (Fin 1) ℝ)) with der := ⟨.of !![1, 0]⟩ } := if_pos hm
  obtain ⟨g, dz, x', q1, q2, q3, q4, q5, q6, q7, q8, q9, q10⟩ :=
    kf_correct_now (T := ℝ) (C := !![1, 0]) Examples.cv_contract (fun _ : Unit => Examples.pos_contract)
      (f ω) () (I.sys ω) (I.meas ω ()) (I.state ω) (I.cov ω) z
      (1 : Matrix (Fin 1) (Fin 1) ℝ) hup rfl (pd_isUnit_det (innov_pd hPsd _ Matrix.PosDef.one))
      (by rw [(I.quiet ω).2 ()]; rfl)
  exact ⟨g, q1, by rw [q7, Env.setMeas_meas]⟩

theorem one_logged (params : Params ℝ) : ∃ f a,
    Logged coins Examples.cvClass (fun _ : Unit => Examples.posClass) 2 1 (fun _ => 1) f truth
      (addNoise (addNoise ∅ fun ω => truth ω - 0) sensorError) [a] := by
  have e0 : Logged coins Examples.cvClass (fun _ : Unit => Examples.posClass) 2 1 (fun _ => 1) (fun _ => before params) truth
      (addNoise ∅ fun ω => truth ω - 0) [] :=
    Logged.start params Examples.cvEnv 0 _ 0 truth cv_sys cv_meas ⟨rfl, fun _ => rfl⟩ truth_noise
  choose g1 a1 a2 a3 a4 x1 P1 a5 a6 using measure_step params
  have ht : (before params).getStateTime = 0 := rfl
  exact ⟨g1, _, Logged.correct g1 () !![1, 0] 1 sensorError (fun _ => 0) _ e0 (fun ω => by rw [ht]; exact a1 ω) a2
    Matrix.PosDef.one sensor_noise (fun ω => ⟨rfl, rfl⟩)⟩

example (params : Params ℝ) : ∃ f x past log,
    Logged coins Examples.cvClass (fun _ : Unit => Examples.posClass) 2 1 (fun _ => 1) f x past log ∧ log.length = 2 := by
  obtain ⟨g1, a, e1⟩ := one_logged params
  obtain ⟨xh, P, I⟩ := exp_inv Examples.cv_contract (fun _ => Examples.pos_contract) (Examples.plain_ops _)
    (fun _ => Examples.plain_mops _) e1.experiment
  choose g2 b1 b2 using fun ω => second_step I ω (!![1, 0] *ᵥ truth ω + secondError ω)
  have e2 := Logged.correct (kd := fun _ : Unit => 1) g2 () (!![1, 0] : Matrix (Fin 1) (Fin 2) ℝ) (1 : Matrix (Fin 1) (Fin 1) ℝ)
    secondError xh P e1 (fun ω => b1 ω) (fun ω => b2 ω) Matrix.PosDef.one second_noise (fun ω => ⟨I.state ω, I.cov ω⟩)
  exact ⟨g2, _, _, _, e2, by simp only [List.length_cons, List.length_nil]⟩

end Coins

end Props
end StateEstimation
