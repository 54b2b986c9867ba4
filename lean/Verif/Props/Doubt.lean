import Verif.Spec.Doubt
import Verif.Props.VSHistory
import Verif.Lemmas.Sigma

/-!
# C122: a filter never becomes certain

A covariance matrix that loses a direction makes the filter blind to every further measurement of it.  With a positive definite
start and positive definite measurement covariances this cannot happen through any history of calls, unless the motion model
itself wipes a direction out without putting noise on it - and then it does happen, in one prediction.
-/

set_option linter.unusedSectionVars false

namespace StateEstimation
namespace Props

open Matrix Kalman Examples

variable {T K X Y : Type} [DecidableEq K] {n m ns : Nat}

/-- A correction keeps a positive definite covariance positive definite. -/
theorem post_pd {ι κ : Type} [Fintype ι] [DecidableEq ι] [Fintype κ] [DecidableEq κ] {P : Matrix ι ι ℝ} (hP : P.PosDef)
    (C : Matrix κ ι ℝ) {R : Matrix κ κ ℝ} (hR : R.PosDef) : (Kalman.post P C R).PosDef := by
  have h1 := post_psd hP.posSemidef C hR
  have h2 := shrink_mul (pd_isUnit_det (innov_pd hP.posSemidef C hR)) (pd_isUnit_det hR)
  refine (h1.posDef_iff_isUnit).mpr ?_
  unfold Kalman.post
  exact ((Matrix.isUnit_iff_isUnit_det _).mpr (Matrix.isUnit_det_of_right_inverse h2)).mul
    ((Matrix.isUnit_iff_isUnit_det _).mpr (pd_isUnit_det hP))

/-- A prediction keeps a positive definite covariance positive definite, if no direction is lost. -/
theorem propagate_pd {ι π κ : Type} [Fintype ι] [DecidableEq ι] [Fintype π] [DecidableEq π] [Fintype κ] [DecidableEq κ]
    {A P : Matrix ι ι ℝ} {W : Matrix ι π ℝ}
    {Rp : Matrix π π ℝ} {V : Matrix ι κ ℝ} {Rc : Matrix κ κ ℝ} (hP : P.PosDef) (hp : Rp.PosSemidef) (hc : Rc.PosSemidef)
    (hk : ∀ v : ι → ℝ, v ᵥ* A = 0 → (v ᵥ* W) ᵥ* Rp = 0 → v = 0) : (A * P * Aᵀ + W * Rp * Wᵀ + V * Rc * Vᵀ).PosDef := by
  have form : ∀ {μ : Type} [Fintype μ] (B : Matrix ι μ ℝ) (Q : Matrix μ μ ℝ) (v : ι → ℝ),
      v ⬝ᵥ (B * Q * Bᵀ) *ᵥ v = (v ᵥ* B) ⬝ᵥ Q *ᵥ (v ᵥ* B) := by
    intro μ _ B Q v
    rw [← Matrix.mulVec_mulVec, ← Matrix.mulVec_mulVec, Matrix.mulVec_transpose, Matrix.dotProduct_mulVec]
  have h0 : (A * P * Aᵀ + W * Rp * Wᵀ + V * Rc * Vᵀ).PosSemidef :=
    ((psd_conj hP.posSemidef A).add (psd_conj hp W)).add (psd_conj hc V)
  refine Matrix.PosDef.of_dotProduct_mulVec_pos h0.isHermitian fun v hv => ?_
  have q1 := (psd_conj hP.posSemidef A).dotProduct_mulVec_nonneg v
  have q2 := (psd_conj hp W).dotProduct_mulVec_nonneg v
  have q3 := (psd_conj hc V).dotProduct_mulVec_nonneg v
  simp only [star_trivial, Matrix.add_mulVec, dotProduct_add] at q1 q2 q3 ⊢
  by_contra hcon
  have e1 : v ⬝ᵥ (A * P * Aᵀ) *ᵥ v = 0 := by linarith
  have e2 : v ⬝ᵥ (W * Rp * Wᵀ) *ᵥ v = 0 := by linarith
  rw [form] at e1 e2
  refine hv (hk v ?_ ?_)
  · by_contra hne
    have := hP.dotProduct_mulVec_pos hne
    rw [star_trivial, e1] at this
    exact lt_irrefl _ this
  · have := (hp.dotProduct_mulVec_zero_iff (v ᵥ* W)).mp (by rw [star_trivial]; exact e2)
    rw [← Matrix.mulVec_transpose, psd_symm hp]
    exact this

section Trace

variable [TimeOps T] [SaneTime T]

section KF
variable {sc : SysClass T LinSysData X} {mc : K → MeasClass T LinMeasData Y}

theorem kfvs_inv_pd (hsc : SysContract LinSysData.Sized sc) (hmc : ∀ j, MeasContract LinMeasData.Sized (mc j))
    {N : DMat → Prop} (hN : ∀ Rp, N Rp → Rp.PSD) {Q : DVec → DMat → Prop}
    {σ : Fin ns → Fin n} (hk : sc.KeepsDoubt LinSysData.Sized LinSysData.A N σ m) (hQ : BlockInv (·.PosDef) σ Q) (kd : K → Nat) :
    PlantInv (kfvsPlant sc mc) True Q
      (fun e => Env.Ok LinSysData.Sized LinMeasData.Sized (NoiseWith N) Q n m kd e ∧ e.Selecting σ m kd) (fun u => u.size = m)
      (fun R => R.Is m m ∧ R.PSD) (fun z c k => z.size = kd k ∧ c.Is (kd k) (kd k) ∧ c.PD) := by
  refine mkPlant_inv_sel hsc hmc (fun _ _ h => (hQ.elim _ _ h).1) (fun _ _ _ h h' => ⟨h.1, h'⟩) (fun _ _ h => h.2) ?_ ?_
  · intro e x c u dt he hsel hx hu
    obtain ⟨hx1, P, rfl, hP⟩ := hQ.elim _ _ hx
    obtain ⟨x, rfl⟩ := x.exists_of hx1
    obtain ⟨u, rfl⟩ := u.exists_of hu
    obtain ⟨ms, τ, hτ⟩ := hsel.controls
    obtain ⟨s', p, A, B, W, V, Rp, Rc, a, b, x', P', h1, h2, h3, h4, h5, h6, h7, h8, h9, h10, h11, h12, h13⟩ :=
      kfvsPredict_of hsc he.sys hsel.states hτ x P u dt (fun s => ({ e with sys := s } : Env K LinSysData X LinMeasData Y))
    refine OptP.of_eq h1 ⟨hQ.step _ _ _ _ _ hx rfl h13 ?_, he.setSys h3 h4, hsel.of_same h4.fm h4.activeControls⟩
    have hn := he.noise
    have hp := hN _ hn.1
    have hc := hn.2
    rw [h8, DMat.PSD_of] at hp
    rw [h9, DMat.PSD_of] at hc
    exact propagate_pd hP hp (hc.submatrix τ)
      (hk e.sys (.of x) (.of u) dt s' p A W Rp he.sys hn.1 rfl rfl h2 (by rw [h5]) h6 h8)
  · intro e x c z j dt he hsel hx hz hR
    obtain ⟨hx1, P, rfl, hP⟩ := hQ.elim _ _ hx
    obtain ⟨x, rfl⟩ := x.exists_of hx1
    obtain ⟨z, rfl⟩ := z.exists_of hz
    obtain ⟨ks, ρ, hρ⟩ := hsel.meas j
    obtain ⟨R, hRe⟩ := (he.meas j).cov.exists_of
    rw [hRe, DMat.PD_of] at hR
    have hR' := hR.submatrix hρ.inj
    obtain ⟨m', C, zf, dz, dx, x', P', h1, h2, h3, h4, h5, h6, h7, h8, h9, h10⟩ :=
      kfvsCorrect_of hsc (hmc j) he.sys (he.meas j) hsel.states hρ x P hP.posSemidef hRe hR' z dt (e.setMeas j)
    exact OptP.of_eq h1 ⟨hQ.step _ _ _ _ _ hx rfl h10 (post_pd hP _ hR'), he.setMeas j h3 h4,
      hsel.setMeas j h4.activeMeasurements⟩

theorem kf_inv_pd (hsc : SysContract LinSysData.Sized sc) (hmc : ∀ j, MeasContract LinMeasData.Sized (mc j))
    {N : DMat → Prop} (hN : ∀ Rp, N Rp → Rp.PSD)
    (hk : sc.KeepsDoubt LinSysData.Sized LinSysData.A N (id : Fin n → Fin n) m) (kd : K → Nat) :
    PlantInv (kfPlant sc mc) True (EstimatePD n)
      (Env.Ok LinSysData.Sized LinMeasData.Sized (NoiseWith N) (EstimatePD n) n m kd) (fun u => u.size = m)
      (fun R => R.Is m m ∧ R.PSD) (fun z c k => z.size = kd k ∧ c.Is (kd k) (kd k) ∧ c.PD) := by
  refine mkPlant_inv hsc hmc (fun _ _ h => h.1.1) (fun _ _ _ h h' => ⟨h.1, h'⟩) (fun _ _ h => h.2) ?_ ?_
  · intro e x c u dt he hx hu
    obtain ⟨⟨hx1, hx2⟩, hx3⟩ := hx
    have hs := he.sys
    obtain ⟨s', e1, hs', hc⟩ := hs.update hsc hx1 hu dt
    have e1' : sc.myUpdate e.sys x u dt = some s' := by
      unfold Sys.update at e1
      rwa [if_pos ⟨by rw [hx1]; exact hs.states.symm, by rw [hu]; exact hs.controls.symm⟩] at e1
    obtain ⟨x, rfl⟩ := x.exists_of hx1
    obtain ⟨u, rfl⟩ := u.exists_of hu
    obtain ⟨cov, rfl⟩ := hx2.exists_of
    obtain ⟨A, hA⟩ := hs'.der.1.exists_of
    obtain ⟨B, hB⟩ := hs'.der.2.exists_of
    obtain ⟨p, P, Rp, V, Rc, hP, hRp, hV, hRc⟩ := hs'.noise
    obtain ⟨r, hr, hr2⟩ := hsc.add s' (.of (A *ᵥ x)) (.of (B *ᵥ u)) hs' rfl rfl
    have hn := he.noise
    have hp := hN _ hn.1
    have hcc := hn.2
    rw [← hc.Rp, hRp, DMat.PSD_of] at hp
    rw [← hc.Rc, hRc, DMat.PSD_of] at hcc
    refine OptP.of_eq (a := (r, .of (A * cov * Aᵀ + P * Rp * Pᵀ + V * Rc * Vᵀ), { e with sys := s' })) ?_
      ⟨⟨⟨hr2, rfl, rfl⟩, ?_⟩, he.setSys hs' hc⟩
    · unfold kfPredict
      simp only [Option.bind_eq_bind, e1, Option.bind_some, hA, hB, hP, hRp, hV, hRc, DMat.mulVec_of, hr, propagateCov_of]
    · rw [DMat.PD_of]
      exact propagate_pd (DMat.PD_of.mp hx3) hp hcc
        (hk e.sys (.of x) (.of u) dt s' p A P Rp hs hn.1 rfl rfl e1' hA hP (by rw [← hc.Rp]; exact hRp))
  · intro e x c z j dt he hx hz hR
    obtain ⟨⟨hx1, hx2⟩, hx3⟩ := hx
    have hs := he.sys
    obtain ⟨m', e1, hm', hc⟩ := (he.meas j).update (hmc j) hx1 dt
    obtain ⟨x, rfl⟩ := x.exists_of hx1
    obtain ⟨cov, rfl⟩ := hx2.exists_of
    obtain ⟨C, hC⟩ := DMat.Is.exists_of hm'.der
    obtain ⟨R, hRR⟩ := hm'.cov.exists_of
    rw [← hc.cov, hRR, DMat.PD_of] at hR
    rw [DMat.PD_of] at hx3
    have hS := pd_isUnit_det (innov_pd hx3.posSemidef C hR)
    obtain ⟨dz, hdz, hdz2⟩ := (hmc j).sub m' z (.of (C *ᵥ x)) hm' hz rfl
    obtain ⟨dz, rfl⟩ := dz.exists_of hdz2
    obtain ⟨r, hr, hr2⟩ := hsc.add e.sys (.of x) (.of (gain cov C R *ᵥ dz)) hs rfl rfl
    refine OptP.of_eq (a := (r, .of (Kalman.post cov C R), e.setMeas j m')) ?_ ⟨⟨⟨hr2, rfl, rfl⟩, ?_⟩, he.setMeas j hm' hc⟩
    · unfold kfCorrect
      simp only [Option.bind_eq_bind, e1, Option.bind_some, hC, hRR, kalmanGain_of _ _ _ hS, DMat.mulVec_of, hdz, hr,
        shrinkCov_of]
      rfl
    · rw [DMat.PD_of]; exact post_pd hx3 C hR

end KF

section EKF
variable {sc : SysClass T NonlinSysData X} {mc : K → MeasClass T NonlinMeasData Y}

theorem ekfvs_inv_pd (hsc : SysContract NonlinSysData.Sized sc) (hmc : ∀ j, MeasContract NonlinMeasData.Sized (mc j))
    {N : DMat → Prop} (hN : ∀ Rp, N Rp → Rp.PSD) {Q : DVec → DMat → Prop}
    {σ : Fin ns → Fin n} (hk : sc.KeepsDoubt NonlinSysData.Sized NonlinSysData.G N σ m) (hQ : BlockInv (·.PosDef) σ Q)
    (kd : K → Nat) :
    PlantInv (ekfvsPlant sc mc) True Q
      (fun e => Env.Ok NonlinSysData.Sized NonlinMeasData.Sized (NoiseWith N) Q n m kd e ∧ e.Selecting σ m kd)
      (fun u => u.size = m)
      (fun R => R.Is m m ∧ R.PSD) (fun z c k => z.size = kd k ∧ c.Is (kd k) (kd k) ∧ c.PD) := by
  refine mkPlant_inv_sel hsc hmc (fun _ _ h => (hQ.elim _ _ h).1) (fun _ _ _ h h' => ⟨h.1, h'⟩) (fun _ _ h => h.2) ?_ ?_
  · intro e x c u dt he hsel hx hu
    obtain ⟨hx1, P, rfl, hP⟩ := hQ.elim _ _ hx
    obtain ⟨x, rfl⟩ := x.exists_of hx1
    obtain ⟨ms, τ, hτ⟩ := hsel.controls
    obtain ⟨s', p, x', G, W, V, Rp, Rc, P', h1, h2, h3, h4, h5, h6, h7, h8, h9, h13⟩ :=
      ekfvsPredict_of hsc he.sys hsel.states hτ x P hu dt (fun s => ({ e with sys := s } : Env K NonlinSysData X NonlinMeasData Y))
    refine OptP.of_eq h1 ⟨hQ.step _ _ _ _ _ hx rfl h13 ?_, he.setSys h3 h4, hsel.of_same h4.fm h4.activeControls⟩
    have hn := he.noise
    have hp := hN _ hn.1
    have hc := hn.2
    rw [h8, DMat.PSD_of] at hp
    rw [h9, DMat.PSD_of] at hc
    exact propagate_pd hP hp (hc.submatrix τ)
      (hk e.sys (.of x) u dt s' p G W Rp he.sys hn.1 rfl hu h2 (by rw [h5]) h6 h8)
  · intro e x c z j dt he hsel hx hz hR
    obtain ⟨hx1, P, rfl, hP⟩ := hQ.elim _ _ hx
    obtain ⟨x, rfl⟩ := x.exists_of hx1
    obtain ⟨z, rfl⟩ := z.exists_of hz
    obtain ⟨ks, ρ, hρ⟩ := hsel.meas j
    obtain ⟨R, hRe⟩ := (he.meas j).cov.exists_of
    rw [hRe, DMat.PD_of] at hR
    have hR' := hR.submatrix hρ.inj
    obtain ⟨m', zh, C, dz, dx, x', P', h1, h2, h3, h4, h5, h6, h7, h8, h10⟩ :=
      ekfvsCorrect_of hsc (hmc j) he.sys (he.meas j) hsel.states hρ x P hP.posSemidef hRe hR' z dt (e.setMeas j)
    exact OptP.of_eq h1 ⟨hQ.step _ _ _ _ _ hx rfl h10 (post_pd hP _ hR'), he.setMeas j h3 h4,
      hsel.setMeas j h4.activeMeasurements⟩

theorem ekf_inv_pd (hsc : SysContract NonlinSysData.Sized sc) (hmc : ∀ j, MeasContract NonlinMeasData.Sized (mc j))
    {N : DMat → Prop} (hN : ∀ Rp, N Rp → Rp.PSD)
    (hk : sc.KeepsDoubt NonlinSysData.Sized NonlinSysData.G N (id : Fin n → Fin n) m) (kd : K → Nat) :
    PlantInv (ekfPlant sc mc) True (EstimatePD n)
      (Env.Ok NonlinSysData.Sized NonlinMeasData.Sized (NoiseWith N) (EstimatePD n) n m kd) (fun u => u.size = m)
      (fun R => R.Is m m ∧ R.PSD) (fun z c k => z.size = kd k ∧ c.Is (kd k) (kd k) ∧ c.PD) := by
  refine mkPlant_inv hsc hmc (fun _ _ h => h.1.1) (fun _ _ _ h h' => ⟨h.1, h'⟩) (fun _ _ h => h.2) ?_ ?_
  · intro e x c u dt he hx hu
    obtain ⟨⟨hx1, hx2⟩, hx3⟩ := hx
    have hs := he.sys
    obtain ⟨s', e1, hs', hc⟩ := hs.update hsc hx1 hu dt
    have e1' : sc.myUpdate e.sys x u dt = some s' := by
      unfold Sys.update at e1
      rwa [if_pos ⟨by rw [hx1]; exact hs.states.symm, by rw [hu]; exact hs.controls.symm⟩] at e1
    obtain ⟨cov, rfl⟩ := hx2.exists_of
    obtain ⟨A, hA⟩ := hs'.der.2.exists_of
    obtain ⟨p, P, Rp, V, Rc, hP, hRp, hV, hRc⟩ := hs'.noise
    have hn := he.noise
    have hp := hN _ hn.1
    have hcc := hn.2
    rw [← hc.Rp, hRp, DMat.PSD_of] at hp
    rw [← hc.Rc, hRc, DMat.PSD_of] at hcc
    refine OptP.of_eq (a := (s'.der.g, .of (A * cov * Aᵀ + P * Rp * Pᵀ + V * Rc * Vᵀ), { e with sys := s' })) ?_
      ⟨⟨⟨hs'.der.1, rfl, rfl⟩, ?_⟩, he.setSys hs' hc⟩
    · unfold ekfPredict
      simp only [Option.bind_eq_bind, e1, Option.bind_some, hA, hP, hRp, hV, hRc, propagateCov_of]
    · rw [DMat.PD_of]
      exact propagate_pd (DMat.PD_of.mp hx3) hp hcc
        (hk e.sys x u dt s' p A P Rp hs hn.1 hx1 hu e1' hA hP (by rw [← hc.Rp]; exact hRp))
  · intro e x c z j dt he hx hz hR
    obtain ⟨⟨hx1, hx2⟩, hx3⟩ := hx
    have hs := he.sys
    obtain ⟨m', e1, hm', hc⟩ := (he.meas j).update (hmc j) hx1 dt
    obtain ⟨x, rfl⟩ := x.exists_of hx1
    obtain ⟨cov, rfl⟩ := hx2.exists_of
    obtain ⟨C, hC⟩ := hm'.der.2.exists_of
    obtain ⟨R, hRR⟩ := hm'.cov.exists_of
    rw [← hc.cov, hRR, DMat.PD_of] at hR
    rw [DMat.PD_of] at hx3
    have hS := pd_isUnit_det (innov_pd hx3.posSemidef C hR)
    obtain ⟨dz, hdz, hdz2⟩ := (hmc j).sub m' z m'.der.h hm' hz hm'.der.1
    obtain ⟨dz, rfl⟩ := dz.exists_of hdz2
    obtain ⟨r, hr, hr2⟩ := hsc.add e.sys (.of x) (.of (gain cov C R *ᵥ dz)) hs rfl rfl
    refine OptP.of_eq (a := (r, .of (Kalman.post cov C R), e.setMeas j m')) ?_ ⟨⟨⟨hr2, rfl, rfl⟩, ?_⟩, he.setMeas j hm' hc⟩
    · unfold ekfCorrect
      simp only [Option.bind_eq_bind, e1, Option.bind_some, hC, hRR, kalmanGain_of _ _ _ hS, DMat.mulVec_of, hdz, hr,
        shrinkCov_of]
      rfl
    · rw [DMat.PD_of]; exact post_pd hx3 C hR

end EKF

/-- **C122 (Kalman filter).**  If the initial covariance is positive definite, the measurement covariances are, and no direction
of the state is wiped out by the motion without process noise acting on it, then through every history of well-formed calls
every remembered covariance is positive definite: no combination of the states is ever reported with variance zero. -/
theorem C122_kf {sc : SysClass T LinSysData X} {mc : K → MeasClass T LinMeasData Y}
    (hsc : SysContract LinSysData.Sized sc) (hmc : ∀ j, MeasContract LinMeasData.Sized (mc j))
    {N : DMat → Prop} (hN : ∀ Rp, N Rp → Rp.PSD)
    (hk : sc.KeepsDoubt LinSysData.Sized LinSysData.A N (id : Fin n → Fin n) m) (kd : K → Nat)
    (sort : List (FilterInput T DVec DMat K) → List (FilterInput T DVec DMat K)) (hsort : ∀ l, (sort l).Perm l)
    (params : Params T) (e : Env K LinSysData X LinMeasData Y)
    (he : e.Ok LinSysData.Sized LinMeasData.Sized (NoiseWith N) (EstimatePD n) n m kd)
    (x : DVec) (c : DMat) (t : T) (hx : EstimatePD n x c)
    (ops : List (Op T DVec DMat K (Env K LinSysData X LinMeasData Y)))
    (hops : ∀ op ∈ ops, op.WellFormed (EstimatePD n)
      (Env.Ok LinSysData.Sized LinMeasData.Sized (NoiseWith N) (EstimatePD n) n m kd) m kd DMat.PD) :
    ∃ g, (Filter.construct (kfPlant sc mc) params e x c t).run (kfPlant sc mc) sort ops = some g ∧
      ∀ s ∈ g.retained, ∃ P : Matrix (Fin n) (Fin n) ℝ, s.covariance = .of P ∧ ∀ v : Fin n → ℝ, v ≠ 0 → 0 < v ⬝ᵥ P *ᵥ v := by
  obtain ⟨g, h1, h2, _⟩ := OptP.exists_of_total
    (mkPlant_run (kf_inv_pd hsc hmc hN hk kd) sort hsort params e he x c t hx ops hops)
  refine ⟨g, h1, fun s hs => ?_⟩
  obtain ⟨P, hP⟩ := (h2 s hs).1.2.exists_of
  have := (h2 s hs).2
  rw [hP, DMat.PD_of] at this
  exact ⟨P, hP, fun v hv => by simpa using this.dotProduct_mulVec_pos hv⟩

/-- **C122 (EKF).**  Likewise, with the Jacobian of the model's motion for the state transition matrix. -/
theorem C122_ekf {sc : SysClass T NonlinSysData X} {mc : K → MeasClass T NonlinMeasData Y}
    (hsc : SysContract NonlinSysData.Sized sc) (hmc : ∀ j, MeasContract NonlinMeasData.Sized (mc j))
    {N : DMat → Prop} (hN : ∀ Rp, N Rp → Rp.PSD)
    (hk : sc.KeepsDoubt NonlinSysData.Sized NonlinSysData.G N (id : Fin n → Fin n) m) (kd : K → Nat)
    (sort : List (FilterInput T DVec DMat K) → List (FilterInput T DVec DMat K)) (hsort : ∀ l, (sort l).Perm l)
    (params : Params T) (e : Env K NonlinSysData X NonlinMeasData Y)
    (he : e.Ok NonlinSysData.Sized NonlinMeasData.Sized (NoiseWith N) (EstimatePD n) n m kd)
    (x : DVec) (c : DMat) (t : T) (hx : EstimatePD n x c)
    (ops : List (Op T DVec DMat K (Env K NonlinSysData X NonlinMeasData Y)))
    (hops : ∀ op ∈ ops, op.WellFormed (EstimatePD n)
      (Env.Ok NonlinSysData.Sized NonlinMeasData.Sized (NoiseWith N) (EstimatePD n) n m kd) m kd DMat.PD) :
    ∃ g, (Filter.construct (ekfPlant sc mc) params e x c t).run (ekfPlant sc mc) sort ops = some g ∧
      ∀ s ∈ g.retained, ∃ P : Matrix (Fin n) (Fin n) ℝ, s.covariance = .of P ∧ ∀ v : Fin n → ℝ, v ≠ 0 → 0 < v ⬝ᵥ P *ᵥ v := by
  obtain ⟨g, h1, h2, _⟩ := OptP.exists_of_total
    (mkPlant_run (ekf_inv_pd hsc hmc hN hk kd) sort hsort params e he x c t hx ops hops)
  refine ⟨g, h1, fun s hs => ?_⟩
  obtain ⟨P, hP⟩ := (h2 s hs).1.2.exists_of
  have := (h2 s hs).2
  rw [hP, DMat.PD_of] at this
  exact ⟨P, hP, fun v hv => by simpa using this.dotProduct_mulVec_pos hv⟩

/-- **C122 (KalmanFilterVS).**  Likewise for the block of the active states. -/
theorem C122_kf_vs {sc : SysClass T LinSysData X} {mc : K → MeasClass T LinMeasData Y}
    (hsc : SysContract LinSysData.Sized sc) (hmc : ∀ j, MeasContract LinMeasData.Sized (mc j))
    {N : DMat → Prop} (hN : ∀ Rp, N Rp → Rp.PSD) (σ : Fin ns → Fin n)
    (hk : sc.KeepsDoubt LinSysData.Sized LinSysData.A N σ m) (kd : K → Nat)
    (sort : List (FilterInput T DVec DMat K) → List (FilterInput T DVec DMat K)) (hsort : ∀ l, (sort l).Perm l)
    (params : Params T) (e : Env K LinSysData X LinMeasData Y)
    (he : e.Ok LinSysData.Sized LinMeasData.Sized (NoiseWith N) (ActivePD σ) n m kd) (hsel : e.Selecting σ m kd)
    (x : DVec) (c : DMat) (t : T) (hx : ActivePD σ x c)
    (ops : List (Op T DVec DMat K (Env K LinSysData X LinMeasData Y)))
    (hops : ∀ op ∈ ops, op.WellFormed (ActivePD σ)
      (fun e => Env.Ok LinSysData.Sized LinMeasData.Sized (NoiseWith N) (ActivePD σ) n m kd e ∧ e.Selecting σ m kd)
      m kd DMat.PD) :
    ∃ g, (Filter.construct (kfvsPlant sc mc) params e x c t).run (kfvsPlant sc mc) sort ops = some g ∧
      ∀ s ∈ g.retained, ∃ P : Matrix (Fin n) (Fin n) ℝ, s.covariance = .of P ∧
        ∀ v : Fin ns → ℝ, v ≠ 0 → 0 < v ⬝ᵥ P.submatrix σ σ *ᵥ v := by
  obtain ⟨g, h1, h2, _⟩ := OptP.exists_of_total
    (run_of_inv (kfvs_inv_pd hsc hmc hN hk activePD_inv kd) rfl sort hsort params e ⟨he, hsel⟩ x c t hx ops hops)
  refine ⟨g, h1, fun s hs => ?_⟩
  obtain ⟨_, P, hP, _, this⟩ := h2 s hs
  exact ⟨P, hP, fun v hv => by simpa using this.dotProduct_mulVec_pos hv⟩

/-- **C122 (EKFVS).** -/
theorem C122_ekf_vs {sc : SysClass T NonlinSysData X} {mc : K → MeasClass T NonlinMeasData Y}
    (hsc : SysContract NonlinSysData.Sized sc) (hmc : ∀ j, MeasContract NonlinMeasData.Sized (mc j))
    {N : DMat → Prop} (hN : ∀ Rp, N Rp → Rp.PSD) (σ : Fin ns → Fin n)
    (hk : sc.KeepsDoubt NonlinSysData.Sized NonlinSysData.G N σ m) (kd : K → Nat)
    (sort : List (FilterInput T DVec DMat K) → List (FilterInput T DVec DMat K)) (hsort : ∀ l, (sort l).Perm l)
    (params : Params T) (e : Env K NonlinSysData X NonlinMeasData Y)
    (he : e.Ok NonlinSysData.Sized NonlinMeasData.Sized (NoiseWith N) (ActivePD σ) n m kd) (hsel : e.Selecting σ m kd)
    (x : DVec) (c : DMat) (t : T) (hx : ActivePD σ x c)
    (ops : List (Op T DVec DMat K (Env K NonlinSysData X NonlinMeasData Y)))
    (hops : ∀ op ∈ ops, op.WellFormed (ActivePD σ)
      (fun e => Env.Ok NonlinSysData.Sized NonlinMeasData.Sized (NoiseWith N) (ActivePD σ) n m kd e ∧ e.Selecting σ m kd)
      m kd DMat.PD) :
    ∃ g, (Filter.construct (ekfvsPlant sc mc) params e x c t).run (ekfvsPlant sc mc) sort ops = some g ∧
      ∀ s ∈ g.retained, ∃ P : Matrix (Fin n) (Fin n) ℝ, s.covariance = .of P ∧
        ∀ v : Fin ns → ℝ, v ≠ 0 → 0 < v ⬝ᵥ P.submatrix σ σ *ᵥ v := by
  obtain ⟨g, h1, h2, _⟩ := OptP.exists_of_total
    (run_of_inv (ekfvs_inv_pd hsc hmc hN hk activePD_inv kd) rfl sort hsort params e ⟨he, hsel⟩ x c t hx ops hops)
  refine ⟨g, h1, fun s hs => ?_⟩
  obtain ⟨_, P, hP, _, this⟩ := h2 s hs
  exact ⟨P, hP, fun v hv => by simpa using this.dotProduct_mulVec_pos hv⟩

end Trace

section Sharp

variable [LinearOrder T] [ExactTime T]

theorem conj_form {ι μ : Type} [Fintype ι] [Fintype μ] (B : Matrix ι μ ℝ) (Q : Matrix μ μ ℝ) (v : ι → ℝ) :
    v ⬝ᵥ (B * Q * Bᵀ) *ᵥ v = (v ᵥ* B) ⬝ᵥ Q *ᵥ (v ᵥ* B) := by
  rw [← Matrix.mulVec_mulVec, ← Matrix.mulVec_mulVec, Matrix.mulVec_transpose, Matrix.dotProduct_mulVec]

theorem psd_form_zero {ι μ : Type} [Fintype ι] [Fintype μ] [DecidableEq μ] {B : Matrix ι μ ℝ} {Q : Matrix μ μ ℝ}
    (hQ : Q.PosSemidef) (v : ι → ℝ) : v ⬝ᵥ (B * Q * Bᵀ) *ᵥ v = 0 ↔ (v ᵥ* B) ᵥ* Q = 0 := by
  have := hQ.dotProduct_mulVec_zero_iff (v ᵥ* B)
  rw [star_trivial] at this
  rw [conj_form, this, ← Matrix.mulVec_transpose Q, psd_symm hQ]

theorem propagate_form_zero {n m p : Nat} {A P : Matrix (Fin n) (Fin n) ℝ} {W : Matrix (Fin n) (Fin p) ℝ}
    {Rp : Matrix (Fin p) (Fin p) ℝ} {V : Matrix (Fin n) (Fin m) ℝ} {Rc : Matrix (Fin m) (Fin m) ℝ} (hP : P.PosDef)
    (hp : Rp.PosSemidef) (hc : Rc.PosSemidef) (v : Fin n → ℝ) :
    v ⬝ᵥ (A * P * Aᵀ + W * Rp * Wᵀ + V * Rc * Vᵀ) *ᵥ v = 0 ↔
      v ᵥ* A = 0 ∧ (v ᵥ* W) ᵥ* Rp = 0 ∧ (v ᵥ* V) ᵥ* Rc = 0 := by
  have q1 := (psd_conj hP.posSemidef A).dotProduct_mulVec_nonneg v
  have q2 := (psd_conj hp W).dotProduct_mulVec_nonneg v
  have q3 := (psd_conj hc V).dotProduct_mulVec_nonneg v
  have eA : (v ᵥ* A) ᵥ* P = 0 ↔ v ᵥ* A = 0 := by
    constructor
    · intro h
      by_contra hne
      have := hP.dotProduct_mulVec_pos hne
      rw [star_trivial, Matrix.dotProduct_mulVec, h, zero_dotProduct] at this
      exact lt_irrefl _ this
    · intro h; rw [h, Matrix.zero_vecMul]
  rw [← eA, ← psd_form_zero hP.posSemidef v, ← psd_form_zero hp v, ← psd_form_zero hc v]
  simp only [star_trivial, Matrix.add_mulVec, dotProduct_add] at q1 q2 q3 ⊢
  constructor
  · intro h; exact ⟨by linarith, by linarith, by linarith⟩
  · rintro ⟨h1, h2, h3⟩; linarith

/-- **C122 (the condition is sharp).**  One in-order prediction of a Kalman filter with a positive definite covariance reports
variance zero for the combination `v` of the states exactly when `v` is wiped out by the transition matrix and neither the
process nor the control noise acts on it. -/
theorem C122_kf_sharp {sc : SysClass T LinSysData X} {mc : K → MeasClass T LinMeasData Y}
    (hsc : SysContract LinSysData.Sized sc) (f : Filter T DVec DMat K (Env K LinSysData X LinMeasData Y))
    (hs : f.env.sys.Sized LinSysData.Sized n m)
    {x : Fin n → ℝ} {P : Matrix (Fin n) (Fin n) ℝ} (hx : f.getState = .of x) (hP : f.getCovariance = .of P) (hPD : P.PosDef)
    (hp : f.env.sys.Rp.PSD) (hc : f.env.sys.Rc.PSD)
    (u : Fin m → ℝ) (hm : 0 < m) (t : T) (ht : f.getStateTime ≤ t)
    (hst : (f.env.sys.fm.checkStationary && f.env.sys.fm.isStationary (.of x) (.of u)) = false) :
    ∃ g p, ∃ (A P' : Matrix (Fin n) (Fin n) ℝ) (W : Matrix (Fin n) (Fin p) ℝ)
      (V : Matrix (Fin n) (Fin m) ℝ) (Rp : Matrix (Fin p) (Fin p) ℝ) (Rc : Matrix (Fin m) (Fin m) ℝ),
      f.predictControl (kfPlant sc mc) (.of u) t = some g ∧
      sc.myUpdate f.env.sys (.of x) (.of u) (TimeOps.sub t f.getStateTime) = some g.env.sys ∧
      g.env.sys.der.A = .of A ∧ g.env.sys.P = .of W ∧ g.env.sys.V = .of V ∧ f.env.sys.Rp = .of Rp ∧ f.env.sys.Rc = .of Rc ∧
      g.getCovariance = .of P' ∧
      ∀ v : Fin n → ℝ, v ⬝ᵥ P' *ᵥ v = 0 ↔ v ᵥ* A = 0 ∧ (v ᵥ* W) ᵥ* Rp = 0 ∧ (v ᵥ* V) ᵥ* Rc = 0 := by
  obtain ⟨g, p, A, B, W, V, Rp, Rc, h1, _, h2, h3, h4, h5, h6, h7, _, h10, _⟩ :=
    C27_kf_predict (mc := mc) hsc f hs hx hP u hm t ht hst
  rw [h6, DMat.PSD_of] at hp
  rw [h7, DMat.PSD_of] at hc
  exact ⟨g, p, A, _, W, V, Rp, Rc, h1, h2, by rw [h3], h4, h5, h6, h7, h10, propagate_form_zero hPD hp hc⟩

/-- **C122 (the condition is sharp, EKF).** -/
theorem C122_ekf_sharp {sc : SysClass T NonlinSysData X} {mc : K → MeasClass T NonlinMeasData Y}
    (hsc : SysContract NonlinSysData.Sized sc) (f : Filter T DVec DMat K (Env K NonlinSysData X NonlinMeasData Y))
    (hs : f.env.sys.Sized NonlinSysData.Sized n m)
    {x : Fin n → ℝ} {P : Matrix (Fin n) (Fin n) ℝ} (hx : f.getState = .of x) (hP : f.getCovariance = .of P) (hPD : P.PosDef)
    (hp : f.env.sys.Rp.PSD) (hc : f.env.sys.Rc.PSD)
    (u : Fin m → ℝ) (hm : 0 < m) (t : T) (ht : f.getStateTime ≤ t)
    (hst : (f.env.sys.fm.checkStationary && f.env.sys.fm.isStationary (.of x) (.of u)) = false) :
    ∃ g p, ∃ (G P' : Matrix (Fin n) (Fin n) ℝ) (W : Matrix (Fin n) (Fin p) ℝ)
      (V : Matrix (Fin n) (Fin m) ℝ) (Rp : Matrix (Fin p) (Fin p) ℝ) (Rc : Matrix (Fin m) (Fin m) ℝ),
      f.predictControl (ekfPlant sc mc) (.of u) t = some g ∧
      sc.myUpdate f.env.sys (.of x) (.of u) (TimeOps.sub t f.getStateTime) = some g.env.sys ∧
      g.env.sys.der.G = .of G ∧ g.env.sys.P = .of W ∧ g.env.sys.V = .of V ∧ f.env.sys.Rp = .of Rp ∧ f.env.sys.Rc = .of Rc ∧
      g.getCovariance = .of P' ∧
      ∀ v : Fin n → ℝ, v ⬝ᵥ P' *ᵥ v = 0 ↔ v ᵥ* G = 0 ∧ (v ᵥ* W) ᵥ* Rp = 0 ∧ (v ᵥ* V) ᵥ* Rc = 0 := by
  obtain ⟨g, p, A, W, V, Rp, Rc, h1, _, h2, h3, h4, h5, h6, h7, _, h10, _⟩ :=
    C27_ekf_predict (mc := mc) hsc f hs hx hP u hm t ht hst
  rw [h6, DMat.PSD_of] at hp
  rw [h7, DMat.PSD_of] at hc
  exact ⟨g, p, A, _, W, V, Rp, Rc, h1, h2, h3, h4, h5, h6, h7, h10, propagate_form_zero hPD hp hc⟩

end Sharp

/-- Concrete case: constant velocity keeps doubt although it needs no process noise at all (its transition matrix is
invertible). -/
theorem cv_keepsDoubt : cvClass.KeepsDoubt LinSysData.Sized LinSysData.A (fun Rp => Rp.Is 2 2 ∧ Rp.PSD)
    (id : Fin 2 → Fin 2) 1 := by
  intro s x u dt s' p A W Rp hs hN hx hu h1 hA hW hRp v hv _
  have hup : cvClass.myUpdate s x u dt = some { s with der := ⟨.of !![1, dt; 0, 1], .of !![dt ^ 2 / 2; dt]⟩
                                                       P := .identity 2
                                                       V := .of !![dt ^ 2 / 2; dt] } := by
    unfold cvClass SysClass.plain
    exact if_pos ⟨hs.states, hs.controls, hN.1.1⟩
  rw [hup] at h1
  have h1 := Option.some.inj h1
  subst h1
  have hA' := DMat.of_inj.mp hA
  subst hA'
  have e0 := congrFun hv 0
  have e1 := congrFun hv 1
  simp [Matrix.vecMul, dotProduct, Fin.sum_univ_two] at e0 e1
  funext i
  fin_cases i
  · exact e0
  · simpa [e0] using e1

/-- Concrete case of C122: predictions, measurements, re-initialisation, queues. -/
example : ∃ g, (Filter.construct (kfPlant cvClass (fun _ : Unit => posClass)) ⟨true, 10, true⟩ cvEnv (.const 2 0) (.identity 2)
      (0 : ℝ)).run (kfPlant cvClass fun _ => posClass) id
      [.predictControl (.const 1 3) 2, .correct (.const 1 7) (.identity 1) 1 (some ()), .predictControl .empty 4,
       .init (.const 2 1) (.identity 2) 9, .enqueueMeasurement (.const 1 7) (.identity 1) 11 (some ()), .processQueues]
      = some g ∧ ∀ s ∈ g.retained, ∃ P : Matrix (Fin 2) (Fin 2) ℝ, s.covariance = .of P ∧
        ∀ v : Fin 2 → ℝ, v ≠ 0 → 0 < v ⬝ᵥ P *ᵥ v := by
  have hE : EstimatePD 2 (.const 2 0) (.identity 2) := ⟨⟨rfl, rfl, rfl⟩, identity_pd 2⟩
  refine C122_kf (m := 1) (T := ℝ) cv_contract (fun _ => pos_contract) (fun _ h => h.2) cv_keepsDoubt (fun _ => 1) _
    (fun _ => .refl _) _ _ ?_ _ _ _ hE _ ?_
  · exact ⟨(cvEnv_ok (Q := EstimatePD 2)).sys, ⟨⟨⟨rfl, rfl⟩, (cvEnv_ok (Q := EstimatePD 2)).noise.1⟩,
      (cvEnv_ok (Q := EstimatePD 2)).noise.2⟩, cvEnv_ok.sysMake, (cvEnv_ok (Q := EstimatePD 2)).meas, cvEnv_ok.measMake⟩
  intro op hop
  simp only [List.mem_cons, List.not_mem_nil, or_false] at hop
  rcases hop with rfl | rfl | rfl | rfl | rfl | rfl
  · exact Or.inl rfl
  · exact ⟨(), rfl, rfl, ⟨rfl, rfl⟩, identity_pd 1⟩
  · exact Or.inr rfl
  · exact ⟨⟨rfl, rfl, rfl⟩, identity_pd 2⟩
  · exact ⟨(), rfl, rfl, ⟨rfl, rfl⟩, identity_pd 1⟩
  · trivial

end Props
end StateEstimation
