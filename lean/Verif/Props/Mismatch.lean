import Verif.Spec.Mismatch
import Verif.Props.Consistency

/-!
# C110: a filter that is told too large covariances is cautious, one that is told too small ones is not
-/

set_option linter.unusedSectionVars false

namespace StateEstimation
namespace Props

open Matrix MeasureTheory Kalman Moments

variable {Ω : Type} [MeasurableSpace Ω] {μ : Measure Ω}
variable {T K X Y : Type} [DecidableEq K] [LinearOrder T] [ExactTime T]
variable {rel : ∀ {a : Nat}, Matrix (Fin a) (Fin a) ℝ → Matrix (Fin a) (Fin a) ℝ → Prop}

/-- what is needed of the comparison -/
structure Moderate (rel : ∀ {a : Nat}, Matrix (Fin a) (Fin a) ℝ → Matrix (Fin a) (Fin a) ℝ → Prop) : Prop where
  psd : ∀ {a : Nat} {S Q : Matrix (Fin a) (Fin a) ℝ}, rel S Q → Q.PosSemidef → S.PosSemidef
  step : ∀ {a b c : Nat} {S Q : Matrix (Fin a) (Fin a) ℝ} {S' Q' : Matrix (Fin b) (Fin b) ℝ} (F : Matrix (Fin c) (Fin a) ℝ)
    (G : Matrix (Fin c) (Fin b) ℝ), rel S Q → rel S' Q' → rel (F * S * Fᵀ + G * S' * Gᵀ) (F * Q * Fᵀ + G * Q' * Gᵀ)

theorem conj_sub {a c : Nat} (F : Matrix (Fin c) (Fin a) ℝ) (S Q : Matrix (Fin a) (Fin a) ℝ) :
    F * S * Fᵀ - F * Q * Fᵀ = F * (S - Q) * Fᵀ := by
  rw [Matrix.mul_sub, Matrix.sub_mul]

theorem overstated_moderate : Moderate (fun {_} => Overstated) where
  psd h hq := by
    have := h.add hq
    rwa [sub_add_cancel] at this
  step F G h h' := by
    unfold Overstated at *
    rw [add_sub_add_comm, conj_sub, conj_sub]
    exact (psd_conj h F).add (psd_conj h' G)

theorem understated_moderate : Moderate (fun {_} => Understated) where
  psd h _ := h.1
  step F G h h' := by
    refine ⟨(psd_conj h.1 F).add (psd_conj h'.1 G), ?_⟩
    rw [add_sub_add_comm, conj_sub, conj_sub]
    exact (psd_conj h.2 F).add (psd_conj h'.2 G)

/-- what holds after every call of a trial -/
structure TrialInv (rel : ∀ {a : Nat}, Matrix (Fin a) (Fin a) ℝ → Matrix (Fin a) (Fin a) ℝ → Prop) (μ : Measure Ω) (n m : Nat)
    (kd : K → Nat) (f : Ω → Filter T DVec DMat K (Env K LinSysData X LinMeasData Y))
    (x : Ω → Fin n → ℝ) (past : Set (Ω → ℝ)) (xh : Ω → Fin n → ℝ) (P : Matrix (Fin n) (Fin n) ℝ) : Prop where
  sys : ∀ ω, (f ω).env.sys.Sized LinSysData.Sized n m
  meas : ∀ ω j, ((f ω).env.meas j).Sized LinMeasData.Sized n (kd j)
  quiet : ∀ ω, Quiet (f ω).env
  state : ∀ ω, (f ω).getState = .of (xh ω)
  cov : ∀ ω, (f ω).getCovariance = .of P
  centered : Centered μ past
  span : InSpan past (fun ω => x ω - xh ω)
  mse : rel P (mom μ (fun ω => x ω - xh ω) (fun ω => x ω - xh ω))

private theorem of_inj {a b : Nat} {A B : Matrix (Fin a) (Fin b) ℝ} (h : DMat.of A = DMat.of B) : A = B := by
  simpa [DMat.of] using h

private theorem vof_inj {a : Nat} {A B : Fin a → ℝ} (h : DVec.of A = DVec.of B) : A = B := by
  simpa [DVec.of] using h

theorem trial_inv (hrel : Moderate rel) {sc : SysClass T LinSysData X} {mc : K → MeasClass T LinMeasData Y} [IsFiniteMeasure μ] {n m : Nat} {kd : K → Nat}
    (hsc : SysContract LinSysData.Sized sc) (hmc : ∀ j, MeasContract LinMeasData.Sized (mc j))
    (ops : sc.PlainOps) (mops : ∀ j, (mc j).PlainOps) {f x past} (h : Trial rel μ sc mc n m kd f x past) :
    ∃ xh P, TrialInv rel μ n m kd f x past xh P := by
  induction h with
  | start params e x0 P0 Q0 t x hs hm hq hr hn =>
    refine ⟨fun _ => x0, P0, fun _ => hs, fun _ => hm, fun _ => hq, fun _ => rfl, fun _ => rfl, ?_, inSpan_new _, by rw [mom_cov hn]; exact hr⟩
    exact centered_add (past := ∅) (fun s hs => absurd hs (Set.notMem_empty s)) hn
  | @predict f x past f' u t p A B W V Rp Qp Rc Qc w v _ h0 ht hf hd hR hr1 hr2 hw hv ih =>
    obtain ⟨xh, P, I⟩ := ih
    have key : ∀ ω, (f' ω).env.sys.Sized LinSysData.Sized n m ∧ (∀ j, ((f' ω).env.meas j).Sized LinMeasData.Sized n (kd j)) ∧
        Quiet (f' ω).env ∧ (f' ω).getState = .of (A *ᵥ xh ω + B *ᵥ u ω) ∧
        (f' ω).getCovariance = .of (A * P * Aᵀ + W * Rp * Wᵀ + V * Rc * Vᵀ) := by
      intro ω
      obtain ⟨g, p', A', B', W', V', Rp', Rc', x', e1, e2, e3, e4, e5, e6, e7, e8, e9, e10, e11, e12, e13⟩ :=
        kf_predict_now (mc := mc) hsc (f ω) (I.sys ω) (I.state ω) (I.cov ω) (u ω) h0 t (ht ω)
          (by rw [(I.quiet ω).1]; rfl)
      rw [hf ω] at e1; cases e1
      obtain ⟨s', u1, u2, u3⟩ := hsc.update (f ω).env.sys (.of (xh ω)) (.of (u ω)) (TimeOps.sub t (f ω).getStateTime) (I.sys ω) rfl rfl
      rw [u1] at e2; cases e2
      obtain ⟨d1, d2, d3⟩ := hd ω
      obtain ⟨r1, r2⟩ := hR ω
      have hp : p' = p := by
        have := congrArg DMat.rows (e6.symm.trans r1); simpa [DMat.of] using this
      subst hp
      rw [d1] at e3
      have eA : A' = A := by
        have h : DMat.of A = DMat.of A' := congrArg LinSysData.A e3
        exact (of_inj h).symm
      have eB : B' = B := by
        have h : DMat.of B = DMat.of B' := congrArg LinSysData.B e3
        exact (of_inj h).symm
      have eW : W' = W := of_inj (e4.symm.trans d2)
      have eV : V' = V := of_inj (e5.symm.trans d3)
      have eRp : Rp' = Rp := of_inj (e6.symm.trans r1)
      have eRc : Rc' = Rc := of_inj (e7.symm.trans r2)
      subst eA eB eW eV eRp eRc
      rw [ops.add, DVec.add_of] at e8
      have ex : x' = A' *ᵥ xh ω + B' *ᵥ u ω := (vof_inj (Option.some.inj e8)).symm
      subst ex
      refine ⟨u2, fun j => by rw [e12]; exact I.meas ω j, ⟨by rw [u3.fm]; exact (I.quiet ω).1, fun j => by rw [e12]; exact (I.quiet ω).2 j⟩,
        e9, e10⟩
    have he : (fun ω => A *ᵥ x ω + B *ᵥ u ω + W *ᵥ w ω + V *ᵥ v ω - (A *ᵥ xh ω + B *ᵥ u ω))
        = fun ω => (1 : Matrix (Fin n) (Fin n) ℝ) *ᵥ (A *ᵥ (x ω - xh ω) + W *ᵥ w ω) + V *ᵥ v ω := by
      funext ω
      rw [Matrix.one_mulVec, Matrix.mulVec_sub]
      abel
    have c1 := centered_add I.centered hw
    have c2 := centered_add c1 hv
    have s1 : InSpan (addNoise past w) (fun ω => A *ᵥ (x ω - xh ω) + W *ᵥ w ω) :=
      inSpan_add (inSpan_mulVec A (span_mono (past_sub w) I.span)) (inSpan_mulVec W (inSpan_new w))
    refine ⟨fun ω => A *ᵥ xh ω + B *ᵥ u ω, A * P * Aᵀ + W * Rp * Wᵀ + V * Rc * Vᵀ, fun ω => (key ω).1, fun ω => (key ω).2.1,
      fun ω => (key ω).2.2.1, fun ω => (key ω).2.2.2.1, fun ω => (key ω).2.2.2.2, c2, ?_, ?_⟩
    · rw [he]
      exact inSpan_add (inSpan_mulVec _ (span_mono (past_sub v) s1)) (inSpan_mulVec V (inSpan_new v))
    · rw [he, mom_step 1 V (inSpan_fin2 c1 s1) hv.finite (mom_white c1 hv s1), mom_cov hv,
        mom_step A W (inSpan_fin2 I.centered I.span) hw.finite (mom_white I.centered hw I.span), mom_cov hw]
      have := hrel.step 1 V (hrel.step A W I.mse hr1) hr2
      simpa using this
  | @correct f x past f' j C R Q ν _ hf hC hRpd hr hn ih =>
    obtain ⟨xh, P, I⟩ := ih
    have hPsd : P.PosSemidef := hrel.psd I.mse (mom_psd (inSpan_fin2 I.centered I.span))
    have hS : ∀ C', IsUnit (innov P C' R).det := fun C' => pd_isUnit_det (innov_pd hPsd C' hRpd)
    have key : ∀ ω, (f' ω).env.sys.Sized LinSysData.Sized n m ∧ (∀ j, ((f' ω).env.meas j).Sized LinMeasData.Sized n (kd j)) ∧
        Quiet (f' ω).env ∧ (f' ω).getState = .of (xh ω + gain P C R *ᵥ (C *ᵥ x ω + ν ω - C *ᵥ xh ω)) ∧
        (f' ω).getCovariance = .of (post P C R) := by
      intro ω
      have hms : (((f ω).env.meas j).withCov (.of R)).Sized LinMeasData.Sized n (kd j) :=
        ⟨(I.meas ω j).states, (I.meas ω j).meas, (I.meas ω j).der, rfl, rfl⟩
      obtain ⟨ms, u1, u2, u3⟩ := (hmc j).update _ (.of (xh ω)) (TimeOps.sub (f ω).getStateTime (f ω).getStateTime) hms rfl
      obtain ⟨C', hC'⟩ := u2.der.exists_of
      obtain ⟨g, dz, x', e1, e2, e3, e4, e5, e6, e7, e8, e9, e10⟩ :=
        kf_correct_now hsc hmc (f ω) j (I.sys ω) (I.meas ω j) (I.state ω) (I.cov ω) (C *ᵥ x ω + ν ω) R u1 hC' (hS C')
          (by rw [(I.quiet ω).2 j]; rfl)
      rw [hf ω] at e1; cases e1
      have hh := hC ω
      rw [e7, Env.setMeas_meas, hC'] at hh
      have := of_inj hh; subst this
      rw [(mops j).sub, DVec.sub_of] at e2
      have := vof_inj (Option.some.inj e2); subst this
      rw [ops.add, DVec.add_of] at e3
      have := vof_inj (Option.some.inj e3); subst this
      refine ⟨by rw [e7]; exact I.sys ω, fun i => ?_, ⟨by rw [e7]; exact (I.quiet ω).1, fun i => ?_⟩, e4, e5⟩
      · rw [e7]
        by_cases hi : i = j
        · subst hi; rw [Env.setMeas_meas]; exact u2
        · show ((if i = j then ms else (f ω).env.meas i)).Sized _ _ _
          rw [if_neg hi]; exact I.meas ω i
      · rw [e7]
        by_cases hi : i = j
        · subst hi; rw [Env.setMeas_meas, u3.fm]; exact (I.quiet ω).2 i
        · show ((if i = j then ms else (f ω).env.meas i)).fm.checkStationary = false
          rw [if_neg hi]; exact (I.quiet ω).2 i
    have he : (fun ω => x ω - (xh ω + gain P C R *ᵥ (C *ᵥ x ω + ν ω - C *ᵥ xh ω)))
        = fun ω => (1 - gain P C R * C) *ᵥ (x ω - xh ω) + (-gain P C R) *ᵥ ν ω := by
      funext ω
      rw [Matrix.neg_mulVec, Matrix.sub_mulVec, Matrix.one_mulVec, ← Matrix.mulVec_mulVec, Matrix.mulVec_sub, Matrix.mulVec_sub,
        Matrix.mulVec_sub, Matrix.mulVec_add]
      abel
    refine ⟨fun ω => xh ω + gain P C R *ᵥ (C *ᵥ x ω + ν ω - C *ᵥ xh ω), post P C R, fun ω => (key ω).1, fun ω => (key ω).2.1,
      fun ω => (key ω).2.2.1, fun ω => (key ω).2.2.2.1, fun ω => (key ω).2.2.2.2, centered_add I.centered hn, ?_, ?_⟩
    · rw [he]
      exact inSpan_add (inSpan_mulVec _ (span_mono (past_sub ν) I.span)) (inSpan_mulVec _ (inSpan_new ν))
    · rw [he, mom_step _ _ (inSpan_fin2 I.centered I.span) hn.finite (mom_white I.centered hn I.span), mom_cov hn,
        post_joseph (psd_symm hPsd) (hS C) (psd_symm hRpd.posSemidef)]
      have := hrel.step (1 - gain P C R * C) (-gain P C R) I.mse hr
      simpa using this


theorem mom_form [IsFiniteMeasure μ] {past : Set (Ω → ℝ)} (hc : Centered μ past) {n : Nat} {e : Ω → Fin n → ℝ} (h : InSpan past e)
    (c : Fin n → ℝ) : Integrable (fun ω => (c ⬝ᵥ e ω) ^ 2) μ ∧ ∫ ω, (c ⬝ᵥ e ω) ^ 2 ∂μ = c ⬝ᵥ (mom μ e e *ᵥ c) := by
  have hf := inSpan_fin2 hc h
  have hq := mom_quad (μ := μ) (Matrix.of fun (_ : Fin 1) j => c j) hf
  have h2 := congrFun (congrFun hq 0) 0
  have e1 : ((Matrix.of fun (_ : Fin 1) j => c j) * mom μ e e * (Matrix.of fun (_ : Fin 1) j => c j)ᵀ) 0 0
      = c ⬝ᵥ (mom μ e e *ᵥ c) := by
    rw [Matrix.mul_assoc]
    simp only [Matrix.mul_apply, Matrix.transpose_apply, Matrix.of_apply, dotProduct, Matrix.mulVec]
  have e2 : ∀ ω, ((Matrix.of fun (_ : Fin 1) j => c j) *ᵥ e ω) 0 = c ⬝ᵥ e ω := fun ω => rfl
  constructor
  · have h3 := fin2_mulVec (Matrix.of fun (_ : Fin 1) j => c j) hf 0
    have := int_mul h3 h3
    refine this.congr (Filter.Eventually.of_forall fun ω => ?_)
    show (c ⬝ᵥ e ω) * (c ⬝ᵥ e ω) = (c ⬝ᵥ e ω) ^ 2
    rw [sq]
  · rw [← e1, ← h2]
    simp only [mom, Matrix.of_apply, e2, sq]

theorem form_le {n : Nat} {S Q : Matrix (Fin n) (Fin n) ℝ} (h : (S - Q).PosSemidef) (c : Fin n → ℝ) :
    c ⬝ᵥ (Q *ᵥ c) ≤ c ⬝ᵥ (S *ᵥ c) := by
  have := h.dotProduct_mulVec_nonneg c
  rw [Matrix.sub_mulVec, dotProduct_sub] at this
  simp only [star_trivial] at this
  linarith

/-- **C110.** A filter that is told covariances at least as large as the actual ones (of the initial state, of process and
control noise, of the measurements) is unbiased, and after every sequence of `predict(u, t)` and `correct(z, R, t, j)` the
mean square error of every linear combination `c` of the states is at most the variance the filter reports for it. -/
theorem C110_overstated [IsProbabilityMeasure μ] {sc : SysClass T LinSysData X} {mc : K → MeasClass T LinMeasData Y}
    {n m : Nat} {kd : K → Nat} (hsc : SysContract LinSysData.Sized sc) (hmc : ∀ j, MeasContract LinMeasData.Sized (mc j))
    (ops : sc.PlainOps) (mops : ∀ j, (mc j).PlainOps) {f x past} (h : Trial Overstated μ sc mc n m kd f x past) :
    ∃ (xh : Ω → Fin n → ℝ) (P : Matrix (Fin n) (Fin n) ℝ),
      (∀ ω, (f ω).getState = .of (xh ω) ∧ (f ω).getCovariance = .of P) ∧
      (∀ i, Integrable (fun ω => x ω i - xh ω i) μ ∧ ∫ ω, (x ω i - xh ω i) ∂μ = 0) ∧
      (∀ c : Fin n → ℝ, Integrable (fun ω => (c ⬝ᵥ (x ω - xh ω)) ^ 2) μ ∧
        ∫ ω, (c ⬝ᵥ (x ω - xh ω)) ^ 2 ∂μ ≤ c ⬝ᵥ (P *ᵥ c)) := by
  obtain ⟨xh, P, I⟩ := trial_inv overstated_moderate hsc hmc ops mops h
  refine ⟨xh, P, fun ω => ⟨I.state ω, I.cov ω⟩, fun i => ?_, fun c => ?_⟩
  · obtain ⟨h1, h2⟩ := span_centered I.centered (I.span i)
    exact ⟨h1.integrable (by norm_num), h2⟩
  · obtain ⟨h1, h2⟩ := mom_form I.centered I.span c
    exact ⟨h1, by rw [h2]; exact form_le I.mse c⟩

/-- **C110.** If the covariances told to the filter are at most the actual ones, the mean square error of every linear
combination of the states is at least the variance the filter reports for it: the filter is overconfident. -/
theorem C110_understated [IsProbabilityMeasure μ] {sc : SysClass T LinSysData X} {mc : K → MeasClass T LinMeasData Y}
    {n m : Nat} {kd : K → Nat} (hsc : SysContract LinSysData.Sized sc) (hmc : ∀ j, MeasContract LinMeasData.Sized (mc j))
    (ops : sc.PlainOps) (mops : ∀ j, (mc j).PlainOps) {f x past} (h : Trial Understated μ sc mc n m kd f x past) :
    ∃ (xh : Ω → Fin n → ℝ) (P : Matrix (Fin n) (Fin n) ℝ),
      (∀ ω, (f ω).getState = .of (xh ω) ∧ (f ω).getCovariance = .of P) ∧
      (∀ i, Integrable (fun ω => x ω i - xh ω i) μ ∧ ∫ ω, (x ω i - xh ω i) ∂μ = 0) ∧
      (∀ c : Fin n → ℝ, Integrable (fun ω => (c ⬝ᵥ (x ω - xh ω)) ^ 2) μ ∧
        c ⬝ᵥ (P *ᵥ c) ≤ ∫ ω, (c ⬝ᵥ (x ω - xh ω)) ^ 2 ∂μ) := by
  obtain ⟨xh, P, I⟩ := trial_inv understated_moderate hsc hmc ops mops h
  refine ⟨xh, P, fun ω => ⟨I.state ω, I.cov ω⟩, fun i => ?_, fun c => ?_⟩
  · obtain ⟨h1, h2⟩ := span_centered I.centered (I.span i)
    exact ⟨h1.integrable (by norm_num), h2⟩
  · obtain ⟨h1, h2⟩ := mom_form I.centered I.span c
    exact ⟨h1, by rw [h2]; exact form_le I.mse.2 c⟩

/-! ### Cases that meet the hypotheses: the two coins of C74

The actual variance of the position and of the sensor is 1. -/

open Coins

theorem gain_diag {p r : ℝ} (h : p + r ≠ 0) :
    gain !![p, 0; 0, 0] !![1, 0] !![r] = (!![p / (p + r); 0] : Matrix (Fin 2) (Fin 1) ℝ) := by
  have e : innov !![p, 0; 0, 0] !![1, 0] !![r] = (!![p + r] : Matrix (Fin 1) (Fin 1) ℝ) := by
    unfold innov
    ext i j; fin_cases i; fin_cases j; simp [Matrix.vecMul, dotProduct, Fin.sum_univ_two]
  have e2 : (!![p + r] : Matrix (Fin 1) (Fin 1) ℝ)⁻¹ = !![(p + r)⁻¹] := by
    refine Matrix.inv_eq_right_inv ?_
    ext i j; fin_cases i; fin_cases j; simp [Matrix.mul_apply, h]
  unfold gain
  rw [e, e2]
  ext i j; fin_cases i <;> fin_cases j <;> simp [Matrix.mul_apply, Matrix.vecMul, dotProduct, Fin.sum_univ_two, div_eq_mul_inv]

theorem post_diag {p r : ℝ} (h : p + r ≠ 0) :
    post !![p, 0; 0, 0] !![1, 0] !![r] = (!![p * r / (p + r), 0; 0, 0] : Matrix (Fin 2) (Fin 2) ℝ) := by
  unfold post
  rw [gain_diag h]
  ext i j; fin_cases i <;> fin_cases j <;> simp [Matrix.mul_apply, Fin.sum_univ_two]
  field_simp
  ring

/-- One measurement of the position of the cart. -/
theorem position_step (f : F2) (hs : f.env.sys = Examples.cvEnv.sys) (hm : (f.env.meas ()).Sized LinMeasData.Sized 2 1)
    (hst : (f.env.meas ()).fm.checkStationary = false) (a p r : ℝ) (hp : 0 ≤ p) (hr : 0 < r)
    (hx : f.getState = .of ![a, 0]) (hP : f.getCovariance = .of !![p, 0; 0, 0]) (z : ℝ) :
    ∃ g : F2, f.correct cvPlant (.of ![z]) (.of !![r]) f.getStateTime (some ()) = some g ∧
      (g.env.meas ()).der.C = .of !![1, 0] ∧ g.getStateTime = f.getStateTime ∧ g.env.sys = Examples.cvEnv.sys ∧
      (g.env.meas ()).Sized LinMeasData.Sized 2 1 ∧ (g.env.meas ()).fm.checkStationary = false ∧
      g.getState = .of ![a + p / (p + r) * (z - a), 0] ∧ g.getCovariance = .of !![p * r / (p + r), 0; 0, 0] := by
  have hpr : p + r ≠ 0 := by positivity
  have hS : IsUnit (innov !![p, 0; 0, 0] !![1, 0] !![r]).det := by
    unfold innov
    rw [Matrix.det_fin_one]
    simp [Matrix.vecMul, dotProduct, Fin.sum_univ_two, hpr]
  have hup : Examples.posClass.myUpdate ((f.env.meas ()).withCov (.of !![r])) (.of ![a, 0]) (TimeOps.sub f.getStateTime f.getStateTime) =
      some { (f.env.meas ()).withCov (.of !![r]) with der := ⟨.of !![1, 0]⟩ } := if_pos ⟨hm.states, hm.meas⟩
  obtain ⟨g, dz, x', e1, e2, e3, e4, e5, e6, e7, e8, e9, e10⟩ :=
    kf_correct_now (T := ℝ) (C := !![1, 0]) Examples.cv_contract (fun _ : Unit => Examples.pos_contract)
      f () (by rw [hs]; exact cv_sys) hm hx hP ![z] !![r] hup rfl hS (by rw [hst]; rfl)
  refine ⟨g, e1, by rw [e7]; rfl, e6, by rw [e7]; exact hs, ?_, by rw [e7]; exact hst, ?_, ?_⟩
  · rw [e7]
    exact ⟨hm.states, hm.meas, ⟨rfl, rfl⟩, rfl, rfl⟩
  · have d2 : (DVec.of (![z] : Fin 1 → ℝ)).sub (.of (!![1, 0] *ᵥ ![a, 0])) = some (.of dz) := e2
    have d3 : (DVec.of (![a, 0] : Fin 2 → ℝ)).add (.of (gain !![p, 0; 0, 0] !![1, 0] !![r] *ᵥ dz)) = some (.of x') := e3
    rw [DVec.sub_of] at d2
    rw [DVec.add_of] at d3
    have h2 := DVec.of_inj.mp (Option.some.inj d2)
    have h3 := DVec.of_inj.mp (Option.some.inj d3)
    have h4 : (!![1, 0] : Matrix (Fin 1) (Fin 2) ℝ) *ᵥ ![a, 0] = ![a] := by
      ext i; fin_cases i; simp [Matrix.mulVec, dotProduct, Fin.sum_univ_two]
    rw [e4, ← h3, ← h2, gain_diag hpr, h4]
    congr 1
    ext i; fin_cases i
    · simp [Matrix.mulVec, dotProduct]; ring
    · simp [Matrix.mulVec, dotProduct]
  · rw [e5, post_diag hpr]

noncomputable def atStart (params : Params ℝ) (p : ℝ) : F2 :=
  Filter.construct cvPlant params Examples.cvEnv (.of ![0, 0]) (.of !![p, 0; 0, 0]) 0

/-- **C110 needs noises that are uncorrelated.**  The same reading passed to `correct` twice, each time with the right
covariance, all other covariances right too: the filter reports the variance 1/3 for the position, the mean square error is 5/9. -/
theorem C110_same_reading_twice (params : Params ℝ) :
    ∃ f : Bool × Bool → F2, (∀ ω, ∃ g, (atStart params 1).correct cvPlant (.of ![truth ω 0 + sensorError ω 0]) (.of !![1]) 0 (some ()) = some g ∧
        g.correct cvPlant (.of ![truth ω 0 + sensorError ω 0]) (.of !![1]) 0 (some ()) = some (f ω)) ∧
      ∃ xh : Bool × Bool → Fin 2 → ℝ, (∀ ω, (f ω).getState = .of (xh ω) ∧ (f ω).getCovariance = .of !![1 / 3, 0; 0, 0]) ∧
        ∫ ω, (truth ω 0 - xh ω 0) ^ 2 ∂coins = 5 / 9 := by
  have h1 : ∀ ω, ∃ g g' : F2, (atStart params 1).correct cvPlant (.of ![truth ω 0 + sensorError ω 0]) (.of !![1]) 0 (some ()) = some g ∧
      g.correct cvPlant (.of ![truth ω 0 + sensorError ω 0]) (.of !![1]) 0 (some ()) = some g' ∧
      g'.getState = .of ![2 / 3 * (truth ω 0 + sensorError ω 0), 0] ∧ g'.getCovariance = .of !![1 / 3, 0; 0, 0] := by
    intro ω
    obtain ⟨g, a1, a2, a3, a4, a5, a6, a7, a8⟩ := position_step (atStart params 1) rfl (cv_meas ()) rfl 0 1 1 (by norm_num) (by norm_num)
      rfl rfl (truth ω 0 + sensorError ω 0)
    obtain ⟨g', b1, b2, b3, b4, b5, b6, b7, b8⟩ := position_step g a4 a5 a6 _ _ 1 (by norm_num) (by norm_num) a7 a8
      (truth ω 0 + sensorError ω 0)
    have t0 : (atStart params 1).getStateTime = 0 := rfl
    rw [a3, t0] at b1
    refine ⟨g, g', a1, b1, ?_, ?_⟩
    · rw [b7]; congr 2; norm_num; ring
    · rw [b8]; norm_num
  choose g f h2 h3 h4 h5 using h1
  refine ⟨f, fun ω => ⟨g ω, h2 ω, h3 ω⟩, _, fun ω => ⟨h4 ω, h5 ω⟩, ?_⟩
  rw [coins_integral]
  simp [truth, sensorError, sgn_true, sgn_false]
  norm_num

/-- The filter is told twice the variance of the position and three times that of the sensor; it is asked after one
measurement. -/
example (params : Params ℝ) : ∃ f x past,
    Trial Overstated coins Examples.cvClass (fun _ : Unit => Examples.posClass) 2 1 (fun _ => 1) f x past ∧
    ∀ ω, (f ω).getCovariance = .of !![2 * 3 / (2 + 3), 0; 0, 0] := by
  have hn : ∀ ω, truth ω - ![0, 0] = truth ω - 0 := fun ω => by
    congr 1; ext i; fin_cases i <;> rfl
  have e0 : Trial Overstated coins Examples.cvClass (fun _ : Unit => Examples.posClass) 2 1 (fun _ => 1) (fun _ => atStart params 2) truth
      (addNoise ∅ fun ω => truth ω - ![0, 0]) := by
    refine Trial.start params Examples.cvEnv ![0, 0] _ !![1, 0; 0, 0] 0 truth cv_sys cv_meas ⟨rfl, fun _ => rfl⟩ ?_ ?_
    · have : (!![2, 0; 0, 0] - !![1, 0; 0, 0] : Matrix (Fin 2) (Fin 2) ℝ) = !![1, 0; 0, 0] := by
        ext i j; fin_cases i <;> fin_cases j <;> norm_num
      unfold Overstated
      rw [this]
      have h := mom_psd (μ := coins) (x := fun ω => truth ω - 0) (fun i => truth_noise.finite i)
      rwa [mom_cov truth_noise] at h
    · simp only [hn]; exact truth_noise
  choose g a1 a2 a3 a4 a5 a6 a7 a8 using fun ω => position_step (atStart params 2) rfl (cv_meas ()) rfl 0 2 3 (by norm_num) (by norm_num)
    rfl rfl (truth ω 0 + sensorError ω 0)
  refine ⟨g, truth, _, Trial.correct g () !![1, 0] !![3] 1 sensorError e0 ?_ a2 ?_ ?_ ?_, a8⟩
  · intro ω
    rw [← a1 ω]
    congr 2
    ext i; fin_cases i; simp [Matrix.mulVec, dotProduct, Fin.sum_univ_two]
  · have : (!![3] : Matrix (Fin 1) (Fin 1) ℝ) = (3 : ℝ) • 1 := by ext i j; fin_cases i; fin_cases j; simp
    rw [this]; exact Matrix.PosDef.one.smul (by norm_num)
  · have : (!![3] - 1 : Matrix (Fin 1) (Fin 1) ℝ) = (2 : ℝ) • 1 := by ext i j; fin_cases i; fin_cases j; norm_num
    unfold Overstated
    rw [this]; exact (Matrix.PosDef.one.smul (by norm_num : (0 : ℝ) < 2)).posSemidef
  · simp only [hn]; exact sensor_noise

/-- The filter is told half the variance of the position and a third of that of the sensor. -/
example (params : Params ℝ) : ∃ f x past,
    Trial Understated coins Examples.cvClass (fun _ : Unit => Examples.posClass) 2 1 (fun _ => 1) f x past ∧
    ∀ ω, (f ω).getCovariance = .of !![1 / 2 * (1 / 3) / (1 / 2 + 1 / 3), 0; 0, 0] := by
  have hn : ∀ ω, truth ω - ![0, 0] = truth ω - 0 := fun ω => by
    congr 1; ext i; fin_cases i <;> rfl
  have hp : (!![1, 0; 0, 0] : Matrix (Fin 2) (Fin 2) ℝ).PosSemidef := by
    have h := mom_psd (μ := coins) (x := fun ω => truth ω - 0) (fun i => truth_noise.finite i)
    rwa [mom_cov truth_noise] at h
  have hh : (!![1 / 2, 0; 0, 0] : Matrix (Fin 2) (Fin 2) ℝ) = (1 / 2 : ℝ) • !![1, 0; 0, 0] := by
    ext i j; fin_cases i <;> fin_cases j <;> norm_num
  have h3 : (!![1 / 3] : Matrix (Fin 1) (Fin 1) ℝ) = (1 / 3 : ℝ) • 1 := by ext i j; fin_cases i; fin_cases j; simp
  have e0 : Trial Understated coins Examples.cvClass (fun _ : Unit => Examples.posClass) 2 1 (fun _ => 1) (fun _ => atStart params (1 / 2)) truth
      (addNoise ∅ fun ω => truth ω - ![0, 0]) := by
    refine Trial.start params Examples.cvEnv ![0, 0] _ !![1, 0; 0, 0] 0 truth cv_sys cv_meas ⟨rfl, fun _ => rfl⟩ ?_ ?_
    · refine ⟨by rw [hh]; exact hp.smul (by norm_num), ?_⟩
      have : (!![1, 0; 0, 0] - !![1 / 2, 0; 0, 0] : Matrix (Fin 2) (Fin 2) ℝ) = (1 / 2 : ℝ) • !![1, 0; 0, 0] := by
        ext i j; fin_cases i <;> fin_cases j <;> norm_num
      rw [this]; exact hp.smul (by norm_num)
    · simp only [hn]; exact truth_noise
  choose g a1 a2 a3 a4 a5 a6 a7 a8 using fun ω => position_step (atStart params (1 / 2)) rfl (cv_meas ()) rfl 0 (1 / 2) (1 / 3) (by norm_num)
    (by norm_num) rfl rfl (truth ω 0 + sensorError ω 0)
  refine ⟨g, truth, _, Trial.correct g () !![1, 0] !![1 / 3] 1 sensorError e0 ?_ a2 ?_ ⟨?_, ?_⟩ ?_, a8⟩
  · intro ω
    rw [← a1 ω]
    congr 2
    ext i; fin_cases i; simp [Matrix.mulVec, dotProduct, Fin.sum_univ_two]
  · rw [h3]; exact Matrix.PosDef.one.smul (by norm_num)
  · rw [h3]; exact (Matrix.PosDef.one.smul (by norm_num : (0 : ℝ) < 1 / 3)).posSemidef
  · have : (1 - !![1 / 3] : Matrix (Fin 1) (Fin 1) ℝ) = (2 / 3 : ℝ) • 1 := by ext i j; fin_cases i; fin_cases j; norm_num
    rw [this]; exact (Matrix.PosDef.one.smul (by norm_num : (0 : ℝ) < 2 / 3)).posSemidef
  · simp only [hn]; exact sensor_noise

end Props
end StateEstimation
