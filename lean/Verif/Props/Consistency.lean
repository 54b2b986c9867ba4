import Verif.Lemmas.Moments
import Verif.Lemmas.KFApi
import Verif.Examples.Linear
import Mathlib.MeasureTheory.Integral.Bochner.Set
import Mathlib.Probability.ProbabilityMassFunction.Integrals
import Mathlib.Probability.Distributions.Uniform

/-!
# C74: the reported covariance is the mean-square error, and the estimate is unbiased
-/

set_option linter.unusedSectionVars false

namespace StateEstimation
namespace Props

open Matrix MeasureTheory Kalman Moments

variable {Ω : Type} [MeasurableSpace Ω] {μ : Measure Ω}

/-! ### The experiment -/

variable {T K X Y : Type} [DecidableEq K] [LinearOrder T] [ExactTime T]

/-- what holds after every call of an experiment -/
structure ExpInv (μ : Measure Ω) (n m : Nat) (kd : K → Nat) (f : Ω → Filter T DVec DMat K (Env K LinSysData X LinMeasData Y))
    (x : Ω → Fin n → ℝ) (past : Set (Ω → ℝ)) (xh : Ω → Fin n → ℝ) (P : Matrix (Fin n) (Fin n) ℝ) : Prop where
  sys : ∀ ω, (f ω).env.sys.Sized LinSysData.Sized n m
  meas : ∀ ω j, ((f ω).env.meas j).Sized LinMeasData.Sized n (kd j)
  quiet : ∀ ω, Quiet (f ω).env
  state : ∀ ω, (f ω).getState = .of (xh ω)
  cov : ∀ ω, (f ω).getCovariance = .of P
  centered : Centered μ past
  span : InSpan past (fun ω => x ω - xh ω)
  mse : mom μ (fun ω => x ω - xh ω) (fun ω => x ω - xh ω) = P

private theorem of_inj {a b : Nat} {A B : Matrix (Fin a) (Fin b) ℝ} (h : DMat.of A = DMat.of B) : A = B := by
  simpa [DMat.of] using h

private theorem vof_inj {a : Nat} {A B : Fin a → ℝ} (h : DVec.of A = DVec.of B) : A = B := by
  simpa [DVec.of] using h

/-- what a prediction of an experiment does -/
theorem exp_predict {sc : SysClass T LinSysData X} {mc : K → MeasClass T LinMeasData Y} {n m : Nat} {kd : K → Nat}
    (hsc : SysContract LinSysData.Sized sc) {f : Ω → Filter T DVec DMat K (Env K LinSysData X LinMeasData Y)} {x past xh P}
    (I : ExpInv μ n m kd f x past xh P)
    {f' : Ω → Filter T DVec DMat K (Env K LinSysData X LinMeasData Y)} {u : Ω → Fin m → ℝ} {t : T} {p : Nat}
    {A : Matrix (Fin n) (Fin n) ℝ} {B : Matrix (Fin n) (Fin m) ℝ} {W : Matrix (Fin n) (Fin p) ℝ}
    {V : Matrix (Fin n) (Fin m) ℝ} {Rp : Matrix (Fin p) (Fin p) ℝ} {Rc : Matrix (Fin m) (Fin m) ℝ} (ops : sc.PlainOps) (h0 : 0 < m)
    (ht : ∀ ω, (f ω).getStateTime ≤ t) (hf : ∀ ω, (f ω).predictControl (kfPlant sc mc) (.of (u ω)) t = some (f' ω))
    (hd : ∀ ω, (f' ω).env.sys.der = ⟨.of A, .of B⟩ ∧ (f' ω).env.sys.P = .of W ∧ (f' ω).env.sys.V = .of V)
    (hR : ∀ ω, (f ω).env.sys.Rp = .of Rp ∧ (f ω).env.sys.Rc = .of Rc) (ω : Ω) :
    (f' ω).env.sys.Sized LinSysData.Sized n m ∧ (∀ j, ((f' ω).env.meas j).Sized LinMeasData.Sized n (kd j)) ∧
    Quiet (f' ω).env ∧ (f' ω).getState = .of (A *ᵥ xh ω + B *ᵥ u ω) ∧
    (f' ω).getCovariance = .of (A * P * Aᵀ + W * Rp * Wᵀ + V * Rc * Vᵀ) := by
  obtain ⟨g, p', A', B', W', V', Rp', Rc', x', e1, e2, e3, e4, e5, e6, e7, e8, e9, e10, e11, e12, e13⟩ :=
    kf_predict_now (mc := mc) hsc (f ω) (I.sys ω) (I.state ω) (I.cov ω) (u ω) h0 t (ht ω)
      (by rw [(I.quiet ω).1]; rfl)
  rw [hf ω] at e1; cases e1
  obtain ⟨s', u1, u2, u3⟩ := hsc.update (f ω).env.sys (.of (xh ω)) (.of (u ω)) (TimeOps.sub t (f ω).getStateTime) (I.sys ω) rfl rfl
  rw [u1] at e2; cases e2
  obtain ⟨d1, d2, d3⟩ := hd ω
  obtain ⟨r1, r2⟩ := hR ω
  have hp : p' = p := by
    have := congrArg DMat.rows (e6.symm.trans r1); simpa [DMat.of] using this
  subst hp
  rw [d1] at e3
  have eA : A' = A := by
    have h : DMat.of A = DMat.of A' := congrArg LinSysData.A e3
    exact (of_inj h).symm
  have eB : B' = B := by
    have h : DMat.of B = DMat.of B' := congrArg LinSysData.B e3
    exact (of_inj h).symm
  have eW : W' = W := of_inj (e4.symm.trans d2)
  have eV : V' = V := of_inj (e5.symm.trans d3)
  have eRp : Rp' = Rp := of_inj (e6.symm.trans r1)
  have eRc : Rc' = Rc := of_inj (e7.symm.trans r2)
  subst eA eB eW eV eRp eRc
  rw [ops.add, DVec.add_of] at e8
  have ex : x' = A' *ᵥ xh ω + B' *ᵥ u ω := (vof_inj (Option.some.inj e8)).symm
  subst ex
  refine ⟨u2, fun j => by rw [e12]; exact I.meas ω j, ⟨by rw [u3.fm]; exact (I.quiet ω).1, fun j => by rw [e12]; exact (I.quiet ω).2 j⟩,
    e9, e10⟩

/-- what a correction of an experiment does -/
theorem exp_correct [IsFiniteMeasure μ] {sc : SysClass T LinSysData X} {mc : K → MeasClass T LinMeasData Y} {n m : Nat} {kd : K → Nat}
    (hsc : SysContract LinSysData.Sized sc) (hmc : ∀ j, MeasContract LinMeasData.Sized (mc j))
    (ops : sc.PlainOps) (mops : ∀ j, (mc j).PlainOps)
    {f : Ω → Filter T DVec DMat K (Env K LinSysData X LinMeasData Y)} {x past xh P} (I : ExpInv μ n m kd f x past xh P)
    {f' : Ω → Filter T DVec DMat K (Env K LinSysData X LinMeasData Y)} {j : K}
    {C : Matrix (Fin (kd j)) (Fin n) ℝ} {R : Matrix (Fin (kd j)) (Fin (kd j)) ℝ} {ν : Ω → Fin (kd j) → ℝ}
    (hf : ∀ ω, (f ω).correct (kfPlant sc mc) (.of (C *ᵥ x ω + ν ω)) (.of R) (f ω).getStateTime (some j) = some (f' ω))
    (hC : ∀ ω, ((f' ω).env.meas j).der.C = .of C) (hRpd : R.PosDef) (ω : Ω) :
    (f' ω).env.sys.Sized LinSysData.Sized n m ∧ (∀ j, ((f' ω).env.meas j).Sized LinMeasData.Sized n (kd j)) ∧
    Quiet (f' ω).env ∧ (f' ω).getState = .of (xh ω + gain P C R *ᵥ (C *ᵥ x ω + ν ω - C *ᵥ xh ω)) ∧
    (f' ω).getCovariance = .of (post P C R) := by
  have hPsd : P.PosSemidef := by rw [← I.mse]; exact mom_psd (inSpan_fin2 I.centered I.span)
  have hS : ∀ C', IsUnit (innov P C' R).det := fun C' => pd_isUnit_det (innov_pd hPsd C' hRpd)
  have hms : (((f ω).env.meas j).withCov (.of R)).Sized LinMeasData.Sized n (kd j) :=
    ⟨(I.meas ω j).states, (I.meas ω j).meas, (I.meas ω j).der, rfl, rfl⟩
  obtain ⟨ms, u1, u2, u3⟩ := (hmc j).update _ (.of (xh ω)) (TimeOps.sub (f ω).getStateTime (f ω).getStateTime) hms rfl
  obtain ⟨C', hC'⟩ := u2.der.exists_of
  obtain ⟨g, dz, x', e1, e2, e3, e4, e5, e6, e7, e8, e9, e10⟩ :=
    kf_correct_now hsc hmc (f ω) j (I.sys ω) (I.meas ω j) (I.state ω) (I.cov ω) (C *ᵥ x ω + ν ω) R u1 hC' (hS C')
      (by rw [(I.quiet ω).2 j]; rfl)
  rw [hf ω] at e1; cases e1
  have hh := hC ω
  rw [e7, Env.setMeas_meas, hC'] at hh
  have := of_inj hh; subst this
  rw [(mops j).sub, DVec.sub_of] at e2
  have := vof_inj (Option.some.inj e2); subst this
  rw [ops.add, DVec.add_of] at e3
  have := vof_inj (Option.some.inj e3); subst this
  refine ⟨by rw [e7]; exact I.sys ω, fun i => ?_, ⟨by rw [e7]; exact (I.quiet ω).1, fun i => ?_⟩, e4, e5⟩
  · rw [e7]
    by_cases hi : i = j
    · subst hi; rw [Env.setMeas_meas]; exact u2
    · show ((if i = j then ms else (f ω).env.meas i)).Sized _ _ _
      rw [if_neg hi]; exact I.meas ω i
  · rw [e7]
    by_cases hi : i = j
    · subst hi; rw [Env.setMeas_meas, u3.fm]; exact (I.quiet ω).2 i
    · show ((if i = j then ms else (f ω).env.meas i)).fm.checkStationary = false
      rw [if_neg hi]; exact (I.quiet ω).2 i

theorem exp_inv {sc : SysClass T LinSysData X} {mc : K → MeasClass T LinMeasData Y} [IsFiniteMeasure μ] {n m : Nat} {kd : K → Nat}
    (hsc : SysContract LinSysData.Sized sc) (hmc : ∀ j, MeasContract LinMeasData.Sized (mc j))
    (ops : sc.PlainOps) (mops : ∀ j, (mc j).PlainOps) {f x past} (h : Experiment μ sc mc n m kd f x past) :
    ∃ xh P, ExpInv μ n m kd f x past xh P := by
  induction h with
  | start params e x0 P0 t x hs hm hq hn =>
    refine ⟨fun _ => x0, P0, fun _ => hs, fun _ => hm, fun _ => hq, fun _ => rfl, fun _ => rfl, ?_, inSpan_new _, mom_cov hn⟩
    exact centered_add (past := ∅) (fun s hs => absurd hs (Set.notMem_empty s)) hn
  | @predict f x past f' u t p A B W V Rp Rc w v _ h0 ht hf hd hR hw hv ih =>
    obtain ⟨xh, P, I⟩ := ih
    have key := exp_predict hsc I ops h0 ht hf hd hR
    have he : (fun ω => A *ᵥ x ω + B *ᵥ u ω + W *ᵥ w ω + V *ᵥ v ω - (A *ᵥ xh ω + B *ᵥ u ω))
        = fun ω => (1 : Matrix (Fin n) (Fin n) ℝ) *ᵥ (A *ᵥ (x ω - xh ω) + W *ᵥ w ω) + V *ᵥ v ω := by
      funext ω
      rw [Matrix.one_mulVec, Matrix.mulVec_sub]
      abel
    have c1 := centered_add I.centered hw
    have c2 := centered_add c1 hv
    have s1 : InSpan (addNoise past w) (fun ω => A *ᵥ (x ω - xh ω) + W *ᵥ w ω) :=
      inSpan_add (inSpan_mulVec A (span_mono (past_sub w) I.span)) (inSpan_mulVec W (inSpan_new w))
    refine ⟨fun ω => A *ᵥ xh ω + B *ᵥ u ω, A * P * Aᵀ + W * Rp * Wᵀ + V * Rc * Vᵀ, fun ω => (key ω).1, fun ω => (key ω).2.1,
      fun ω => (key ω).2.2.1, fun ω => (key ω).2.2.2.1, fun ω => (key ω).2.2.2.2, c2, ?_, ?_⟩
    · rw [he]
      exact inSpan_add (inSpan_mulVec _ (span_mono (past_sub v) s1)) (inSpan_mulVec V (inSpan_new v))
    · rw [he, mom_step 1 V (inSpan_fin2 c1 s1) hv.finite (mom_white c1 hv s1), mom_cov hv,
        mom_step A W (inSpan_fin2 I.centered I.span) hw.finite (mom_white I.centered hw I.span), mom_cov hw, I.mse]
      simp
  | @correct f x past f' j C R ν _ hf hC hRpd hn ih =>
    obtain ⟨xh, P, I⟩ := ih
    have hPsd : P.PosSemidef := by rw [← I.mse]; exact mom_psd (inSpan_fin2 I.centered I.span)
    have hS : ∀ C', IsUnit (innov P C' R).det := fun C' => pd_isUnit_det (innov_pd hPsd C' hRpd)
    have key := exp_correct hsc hmc ops mops I hf hC hRpd
    have he : (fun ω => x ω - (xh ω + gain P C R *ᵥ (C *ᵥ x ω + ν ω - C *ᵥ xh ω)))
        = fun ω => (1 - gain P C R * C) *ᵥ (x ω - xh ω) + (-gain P C R) *ᵥ ν ω := by
      funext ω
      rw [Matrix.neg_mulVec, Matrix.sub_mulVec, Matrix.one_mulVec, ← Matrix.mulVec_mulVec, Matrix.mulVec_sub, Matrix.mulVec_sub,
        Matrix.mulVec_sub, Matrix.mulVec_add]
      abel
    refine ⟨fun ω => xh ω + gain P C R *ᵥ (C *ᵥ x ω + ν ω - C *ᵥ xh ω), post P C R, fun ω => (key ω).1, fun ω => (key ω).2.1,
      fun ω => (key ω).2.2.1, fun ω => (key ω).2.2.2.1, fun ω => (key ω).2.2.2.2, centered_add I.centered hn, ?_, ?_⟩
    · rw [he]
      exact inSpan_add (inSpan_mulVec _ (span_mono (past_sub ν) I.span)) (inSpan_mulVec _ (inSpan_new ν))
    · rw [he, mom_step _ _ (inSpan_fin2 I.centered I.span) hn.finite (mom_white I.centered hn I.span), mom_cov hn, I.mse,
        post_joseph (psd_symm hPsd) (hS C) (psd_symm hRpd.posSemidef)]
      simp

/-- **C74.** In every experiment in which the world behaves as the models say (true state moving with noise of the
configured covariances, sensors with noise of the covariances passed to `correct`, all noises of mean zero and uncorrelated
with the past, of any distribution), after every sequence of `predict(u, t)` and `correct(z, R, t, j)`: the estimate is
unbiased, and the covariance the filter reports is the same for every outcome and is exactly the covariance of the error. -/
theorem C74_reported_covariance_is_error_covariance [IsProbabilityMeasure μ] {sc : SysClass T LinSysData X} {mc : K → MeasClass T LinMeasData Y}
    {n m : Nat} {kd : K → Nat} (hsc : SysContract LinSysData.Sized sc) (hmc : ∀ j, MeasContract LinMeasData.Sized (mc j))
    (ops : sc.PlainOps) (mops : ∀ j, (mc j).PlainOps) {f x past} (h : Experiment μ sc mc n m kd f x past) :
    ∃ (xh : Ω → Fin n → ℝ) (P : Matrix (Fin n) (Fin n) ℝ),
      (∀ ω, (f ω).getState = .of (xh ω) ∧ (f ω).getCovariance = .of P) ∧
      (∀ i, Integrable (fun ω => x ω i - xh ω i) μ ∧ ∫ ω, (x ω i - xh ω i) ∂μ = 0) ∧
      (∀ i j, Integrable (fun ω => (x ω i - xh ω i) * (x ω j - xh ω j)) μ ∧
        ∫ ω, (x ω i - xh ω i) * (x ω j - xh ω j) ∂μ = P i j) := by
  obtain ⟨xh, P, I⟩ := exp_inv hsc hmc ops mops h
  refine ⟨xh, P, fun ω => ⟨I.state ω, I.cov ω⟩, fun i => ?_, fun i j => ?_⟩
  · obtain ⟨h1, h2⟩ := span_centered I.centered (I.span i)
    exact ⟨h1.integrable (by norm_num), h2⟩
  · have h1 := (span_centered I.centered (I.span i)).1
    have h2 := (span_centered I.centered (I.span j)).1
    refine ⟨int_mul h1 h2, ?_⟩
    exact congrFun (congrFun I.mse i) j

/-! ### A case that meets the hypotheses: two coins

The true position is +1 or -1 by the first coin; a position sensor has an error of +1 or -1 by the second coin. -/

namespace Coins

/-- two fair coins -/
noncomputable def coins : Measure (Bool × Bool) := (PMF.uniformOfFintype (Bool × Bool)).toMeasure

noncomputable instance : IsProbabilityMeasure coins := by unfold coins; infer_instance

theorem coins_integral (g : Bool × Bool → ℝ) :
    ∫ ω, g ω ∂coins = (g (true, true) + g (true, false) + g (false, true) + g (false, false)) / 4 := by
  unfold coins
  rw [PMF.integral_eq_sum, Fintype.sum_prod_type]
  simp [PMF.uniformOfFintype_apply]
  ring

def sgn (b : Bool) : ℝ := if b then 1 else -1

theorem sgn_true : sgn true = 1 := rfl
theorem sgn_false : sgn false = -1 := rfl

def truth (ω : Bool × Bool) : Fin 2 → ℝ := ![sgn ω.1, 0]

def sensorError (ω : Bool × Bool) : Fin 1 → ℝ := ![sgn ω.2]

theorem truth_noise : IsNoise coins ∅ !![1, 0; 0, 0] (fun ω => truth ω - 0) where
  finite := fun i => MemLp.of_discrete
  mean := fun i => by
    rw [coins_integral]; fin_cases i <;> simp [truth, sgn_true, sgn_false]
  cov := fun i j => by
    rw [coins_integral]; fin_cases i <;> fin_cases j <;> simp [truth, sgn_true, sgn_false]
    norm_num
  white := fun s hs => absurd hs (Set.notMem_empty s)

theorem sensor_noise : IsNoise coins (addNoise ∅ fun ω => truth ω - 0) (1 : Matrix (Fin 1) (Fin 1) ℝ) sensorError where
  finite := fun i => MemLp.of_discrete
  mean := fun i => by
    rw [coins_integral]; fin_cases i; simp [sensorError, sgn_true, sgn_false]
  cov := fun i j => by
    rw [coins_integral]; fin_cases i; fin_cases j; simp [sensorError, sgn_true, sgn_false]; norm_num
  white := by
    rintro s (hs | ⟨i, rfl⟩) j
    · exact absurd hs (Set.notMem_empty s)
    · rw [coins_integral]; fin_cases j; fin_cases i <;> simp [sensorError, truth, sgn_true, sgn_false]

theorem no_noise {a : Nat} (past : Set (Bool × Bool → ℝ)) : IsNoise coins past (0 : Matrix (Fin a) (Fin a) ℝ) (fun _ => 0) where
  finite := fun i => MemLp.of_discrete
  mean := fun i => by simp
  cov := fun i j => by simp
  white := fun s _ i => by simp

abbrev F2 := Filter ℝ DVec DMat Unit (Env Unit LinSysData Unit LinMeasData Unit)

noncomputable abbrev cvPlant := kfPlant Examples.cvClass fun _ : Unit => Examples.posClass

noncomputable def before (params : Params ℝ) : F2 :=
  Filter.construct cvPlant params Examples.cvEnv (.of (0 : Fin 2 → ℝ)) (.of !![1, 0; 0, 0]) 0

theorem cv_sys : Examples.cvEnv.sys.Sized LinSysData.Sized 2 1 := (Examples.cvEnv_ok (Q := fun _ _ => True)).sys
theorem cv_meas : ∀ k, (Examples.cvEnv.meas k).Sized LinMeasData.Sized 2 1 := (Examples.cvEnv_ok (Q := fun _ _ => True)).meas

theorem measure_step (params : Params ℝ) (ω : Bool × Bool) : ∃ g : F2,
    (before params).correct cvPlant (.of (!![1, 0] *ᵥ truth ω + sensorError ω)) (.of (1 : Matrix (Fin 1) (Fin 1) ℝ)) 0 (some ())
      = some g ∧ (g.env.meas ()).der.C = .of !![1, 0] ∧ g.getStateTime = 0 ∧ g.env.sys = Examples.cvEnv.sys ∧
    (∃ x' P', g.getState = .of (x' : Fin 2 → ℝ) ∧ g.getCovariance = .of (P' : Matrix (Fin 2) (Fin 2) ℝ)) := by
  have hP : (!![1, 0; 0, 0] : Matrix (Fin 2) (Fin 2) ℝ).PosSemidef := by
    have h := mom_psd (μ := coins) (x := fun ω => truth ω - 0) (fun i => truth_noise.finite i)
    rwa [mom_cov truth_noise] at h
  obtain ⟨g, dz, x', e1, e2, e3, e4, e5, e6, e7, e8, e9, e10⟩ :=
    kf_correct_now (T := ℝ) (C := !![1, 0]) Examples.cv_contract (fun _ : Unit => Examples.pos_contract)
      (before params) () cv_sys (cv_meas ()) rfl rfl (!![1, 0] *ᵥ truth ω + sensorError ω)
      (1 : Matrix (Fin 1) (Fin 1) ℝ) rfl rfl (pd_isUnit_det (innov_pd hP _ Matrix.PosDef.one)) rfl
  refine ⟨g, e1, ?_, e6, ?_, _, _, e4, e5⟩
  · rw [e7, Env.setMeas_meas]
  · rw [e7]; rfl

theorem predict_step (f : F2) (ht : f.getStateTime = 0) (hs : f.env.sys = Examples.cvEnv.sys)
    {x : Fin 2 → ℝ} {P : Matrix (Fin 2) (Fin 2) ℝ} (hx : f.getState = .of x) (hP : f.getCovariance = .of P) : ∃ g : F2,
    f.predictControl cvPlant (.of (![3] : Fin 1 → ℝ)) (1 / 2) = some g ∧ g.getStateTime = 1 / 2 ∧
    g.env.sys.der = ⟨.of !![1, 1 / 2; 0, 1], .of !![(1 / 2) ^ 2 / 2; 1 / 2]⟩ ∧
    g.env.sys.P = .of (1 : Matrix (Fin 2) (Fin 2) ℝ) ∧ g.env.sys.V = .of !![(1 / 2) ^ 2 / 2; 1 / 2] := by
  obtain ⟨g, p, A, B, W, V, Rp, Rc, x', b1, b2, b3, b4, b5, b6, b7, b8, b9, b10, b11, b12, b13⟩ :=
    kf_predict_now (mc := fun _ : Unit => Examples.posClass) Examples.cv_contract f (by rw [hs]; exact cv_sys)
        hx hP (![3] : Fin 1 → ℝ) one_pos (1 / 2) (by rw [ht]; norm_num) (by rw [hs]; rfl)
  rw [hs, ht] at b2
  have e : TimeOps.sub (1 / 2 : ℝ) 0 = 1 / 2 := sub_zero _
  rw [e] at b2
  have h' := Option.some.inj b2
  refine ⟨g, b1, b11, ?_⟩
  rw [← h']
  exact ⟨rfl, rfl, rfl⟩

/-- construction, a measurement, and a prediction for half a second -/
example (params : Params ℝ) : ∃ f x past,
    Experiment coins Examples.cvClass (fun _ : Unit => Examples.posClass) 2 1 (fun _ => 1) f x past ∧
    ∀ ω, (f ω).getStateTime = 1 / 2 := by
  have e0 : Experiment coins Examples.cvClass (fun _ : Unit => Examples.posClass) 2 1 (fun _ => 1) (fun _ => before params) truth
      (addNoise ∅ fun ω => truth ω - 0) :=
    Experiment.start params Examples.cvEnv 0 _ 0 truth cv_sys cv_meas ⟨rfl, fun _ => rfl⟩ truth_noise
  choose g1 a1 a2 a3 a4 x1 P1 a5 a6 using measure_step params
  have ht : (before params).getStateTime = 0 := rfl
  have e1 : Experiment coins Examples.cvClass (fun _ : Unit => Examples.posClass) 2 1 (fun _ => 1) g1 truth
      (addNoise (addNoise ∅ fun ω => truth ω - 0) sensorError) := by
    refine Experiment.correct g1 () !![1, 0] 1 sensorError e0 ?_ a2 Matrix.PosDef.one sensor_noise
    intro ω
    rw [ht]
    exact a1 ω
  choose g2 b1 b2 b3 using fun ω => predict_step (g1 ω) (a3 ω) (a4 ω) (a5 ω) (a6 ω)
  have e2 := Experiment.predict g2 (fun _ => ![3]) (1 / 2) !![1, 1 / 2; 0, 1] !![(1 / 2) ^ 2 / 2; 1 / 2] 1
    !![(1 / 2) ^ 2 / 2; 1 / 2] 0 0 (fun _ => 0) (fun _ => 0) e1 one_pos (fun ω => by rw [a3]; norm_num) b1 b3
    (fun ω => by rw [a4]; exact ⟨rfl, rfl⟩) (no_noise _) (no_noise _)
  exact ⟨g2, _, _, e2, b2⟩

end Coins

end Props
end StateEstimation
