import Verif.Lemmas.Part
import Verif.Props.Kalman
import Verif.Props.VSHistory

/-!
# C124: a variable-state filter is the plain filter of the active states

`KalmanFilterVS` and `EKFVS` compute, for the active states, controls and measurements, exactly what `KalmanFilter` and `EKF`
compute with models of these alone - over whole histories, whatever the inactive states are.
-/

set_option linter.unusedSectionVars false

namespace StateEstimation
namespace Props

open Matrix Filter Examples Kalman

variable {T K X X' Y Y' DS XS XS' DM XM XM' : Type} [DecidableEq K] [TimeOps T]
variable {n ns m ms : Nat} {kd ks : K → Nat} {ds : Nat → Nat → DS → Prop} {dm : Nat → Nat → DM → Prop}
  {σ : Fin ns → Fin n} {τ : Fin ms → Fin m} {ρ : ∀ k, Fin (ks k) → Fin (kd k)}
  {DA : DS → DS → Prop} {DB : K → DM → DM → Prop}

/-! ### The steps -/

private theorem part_psd {x x' : DVec} {c c' : DMat} (hx : ActivePSD σ x c) (hxx : VecPart σ x x') (hcc : MatPart σ σ c c') :
    EstimatePSD ns x' c' := by
  obtain ⟨v, rfl, rfl⟩ := hxx
  obtain ⟨M, rfl, rfl⟩ := hcc
  obtain ⟨_, Q, h1, _, h2⟩ := hx
  have := DMat.of_inj.mp h1; subst this
  exact ⟨⟨rfl, rfl, rfl⟩, DMat.PSD_of.mpr h2⟩

private theorem kf_predict_part {sc : SysClass T LinSysData X} {sc' : SysClass T LinSysData X'}
    {dm : Nat → Nat → LinMeasData → Prop} {DB : K → LinMeasData → LinMeasData → Prop}
    (hsc : SysContract LinSysData.Sized sc) (hsc' : SysContract LinSysData.Sized sc')
    (ha : sc.HasPart LinSysData.Sized σ τ (LinSysData.Part σ τ) sc') (e : Env K LinSysData X LinMeasData Y)
    (e' : Env K LinSysData X' LinMeasData Y') (x x' : DVec) (c c' : DMat) (u u' : DVec) (dt : T)
    (he : Part.RE NoisePSD (ActivePSD σ) (EstimatePSD ns) LinSysData.Sized dm σ τ ρ (LinSysData.Part σ τ) DB e e') (hx : Part.RS (ActivePSD σ) (EstimatePSD ns) σ x c x' c') (hu : Part.RU τ u u') :
    Both (Part.Step σ τ ρ (LinSysData.Part σ τ) DB)
      (kfvsPredict sc e.sys x c u dt fun s => ({ e with sys := s } : Env K LinSysData X LinMeasData Y))
      (kfPredict sc' e'.sys x' c' u' dt fun s => ({ e' with sys := s } : Env K LinSysData X' LinMeasData Y')) := by
  obtain ⟨_, _, ⟨v, rfl, rfl⟩, ⟨M, rfl, rfl⟩⟩ := hx
  obtain ⟨_, _, ⟨w, rfl, rfl⟩⟩ := hu
  obtain ⟨s1, p, A, B, W, V, Rp, Rc, a, b, v1, M1, h1, h2, h3, h4, h5, h6, h7, h8, h9, h10, h11, h12, h13⟩ :=
    kfvsPredict_of hsc he.1.1.sys he.2.2.states he.2.2.controls v M w dt
      (fun s => ({ e with sys := s } : Env K LinSysData X LinMeasData Y))
  obtain ⟨s2, k1, k2, k3⟩ := he.2.1.sys.update hsc' (x := .of (v ∘ σ)) (u := .of (w ∘ τ)) rfl rfl dt
  have k1' : sc'.myUpdate e'.sys (.of (v ∘ σ)) (.of (w ∘ τ)) dt = some s2 := by
    unfold Sys.update at k1
    rwa [if_pos ⟨he.2.1.sys.states.symm, he.2.1.sys.controls.symm⟩] at k1
  have hp := ha.update _ _ _ _ _ _ _ _ _ he.1.1.sys he.2.1.sys he.2.2.sys ⟨v, rfl, rfl⟩ ⟨w, rfl, rfl⟩ h2 k1'
  obtain ⟨q1, q2, q3, q4⟩ := Part.noise hp h6 h7 (by rw [h4.Rp]; exact h8) (by rw [h4.Rc]; exact h9)
  have hd := hp.der
  rw [h5] at hd
  have qA : s2.der.A = .of (A.submatrix σ σ) := matPart_of.mp hd.1
  have qB : s2.der.B = .of (B.submatrix σ τ) := matPart_of.mp hd.2
  rw [ha.plain.add, DVec.add_of] at h12
  injection h12 with h12
  have h12 := DVec.of_inj.mp h12
  have hk : kfPredict sc' e'.sys (.of (v ∘ σ)) (.of (M.submatrix σ σ)) (.of (w ∘ τ)) dt
      (fun s => ({ e' with sys := s } : Env K LinSysData X' LinMeasData Y'))
      = some (.of (A.submatrix σ σ *ᵥ (v ∘ σ) + B.submatrix σ τ *ᵥ (w ∘ τ)), .of (subPropagate σ τ A M W Rp V Rc), { e' with sys := s2 }) := by
    unfold kfPredict
    simp only [Option.bind_eq_bind, k1, Option.bind_some, qA, qB, q1, q2, q3, q4, DMat.mulVec_of, ha.plain'.add, DVec.add_of,
      propagateCov_of]
  intro r r' hr hr'
  rw [h1] at hr
  rw [hk] at hr'
  injection hr with hr; injection hr' with hr'
  subst hr; subst hr'
  refine ⟨⟨v1, rfl, ?_⟩, ⟨M1, rfl, ?_⟩, Part.sys he.2.2 h4 k3 hp⟩
  · rw [← h12, ← Part.over_vec h10, ← Part.over_vec h11]; rfl
  · rw [h13.block]

private theorem kf_correct_part {sc : SysClass T LinSysData X} {sc' : SysClass T LinSysData X'} {mc : K → MeasClass T LinMeasData Y}
    {mc' : K → MeasClass T LinMeasData Y'} {DA : LinSysData → LinSysData → Prop}
    (hsc : SysContract LinSysData.Sized sc) (ha : sc.PlainOps) (ha' : sc'.PlainOps)
    (hmc : ∀ k, MeasContract LinMeasData.Sized (mc k)) (hmc' : ∀ k, MeasContract LinMeasData.Sized (mc' k))
    (hb : ∀ k, (mc k).HasPart LinMeasData.Sized σ (ρ k) (LinMeasData.Part (ρ k) σ) (mc' k))
    (e : Env K LinSysData X LinMeasData Y) (e' : Env K LinSysData X' LinMeasData Y') (x x' : DVec) (c c' : DMat) (z z' : DVec) (k : K)
    (dt : T) (he : Part.RE NoisePSD (ActivePSD σ) (EstimatePSD ns) LinSysData.Sized LinMeasData.Sized σ τ ρ DA (fun k => LinMeasData.Part (ρ k) σ) e e') (hx : Part.RS (ActivePSD σ) (EstimatePSD ns) σ x c x' c')
    (hz0 : z.size = kd k) (hz : VecPart (ρ k) z z') (hR : (e.meas k).cov.PD) :
    Both (Part.Step σ τ ρ DA fun k => LinMeasData.Part (ρ k) σ) (kfvsCorrect sc (mc k) e.sys (e.meas k) x c z dt (e.setMeas k))
      (kfCorrect sc' (mc' k) e'.sys (e'.meas k) x' c' z' dt (e'.setMeas k)) := by
  obtain ⟨⟨_, Q, hQ, _, hQ2⟩, _, ⟨v, rfl, rfl⟩, ⟨M, rfl, rfl⟩⟩ := hx
  have := DMat.of_inj.mp hQ; subst this
  obtain ⟨w, rfl, rfl⟩ := hz
  obtain ⟨R, hRe⟩ := (he.1.1.meas k).cov.exists_of
  rw [hRe, DMat.PD_of] at hR
  have hR' := hR.submatrix (he.2.2.measured k).inj
  obtain ⟨m1, C, zf, dz, dx, v1, M1, h1, h2, h3, h4, h5, h6, h7, h8, h9, h10⟩ :=
    kfvsCorrect_of hsc (hmc k) he.1.1.sys (he.1.1.meas k) he.2.2.states (he.2.2.measured k) v M hQ2 hRe hR' w dt (e.setMeas k)
  obtain ⟨m2, k1, k2, k3⟩ := (he.2.1.meas k).update (hmc' k) (x := .of (v ∘ σ)) rfl dt
  have k1' : (mc' k).myUpdate (e'.meas k) (.of (v ∘ σ)) dt = some m2 := by
    unfold Meas.update at k1
    rwa [if_pos (he.2.1.meas k).states.symm] at k1
  have hp := (hb k).update _ _ _ _ _ _ _ (he.1.1.meas k) (he.2.1.meas k) (he.2.2.meas k) ⟨v, rfl, rfl⟩ h2 k1'
  have hd : MatPart (ρ k) σ m1.der.C m2.der.C := hp.der
  rw [h5] at hd
  have qC : m2.der.C = .of (C.submatrix (ρ k) σ) := matPart_of.mp hd
  have hcov := hp.cov
  rw [h4.cov, hRe] at hcov
  have qR : m2.cov = .of (R.submatrix (ρ k) (ρ k)) := matPart_of.mp hcov
  rw [(hb k).plain.sub, DVec.sub_of] at h7
  injection h7 with h7
  have h7 := DVec.of_inj.mp h7
  rw [ha.add, DVec.add_of] at h9
  injection h9 with h9
  have h9 := DVec.of_inj.mp h9
  have hS := pd_isUnit_det (innov_pd hQ2 (C.submatrix (ρ k) σ) hR')
  have hk : kfCorrect sc' (mc' k) e'.sys (e'.meas k) (.of (v ∘ σ)) (.of (M.submatrix σ σ)) (.of (w ∘ ρ k)) dt (e'.setMeas k)
      = some (.of (v ∘ σ + gain (M.submatrix σ σ) (C.submatrix (ρ k) σ) (R.submatrix (ρ k) (ρ k)) *ᵥ
          (w ∘ ρ k - C.submatrix (ρ k) σ *ᵥ (v ∘ σ))),
        .of (post (M.submatrix σ σ) (C.submatrix (ρ k) σ) (R.submatrix (ρ k) (ρ k))), e'.setMeas k m2) := by
    unfold kfCorrect
    simp only [Option.bind_eq_bind, k1, Option.bind_some, qC, qR, kalmanGain_of _ _ _ hS, DMat.mulVec_of, ha'.add, (hb k).plain'.sub,
      DVec.add_of, DVec.sub_of, DVec.of_size, shrinkCov_of]
    rfl
  intro r r' hr hr'
  rw [h1] at hr
  rw [hk] at hr'
  injection hr with hr; injection hr' with hr'
  subst hr; subst hr'
  refine ⟨⟨v1, rfl, ?_⟩, ⟨M1, rfl, ?_⟩, Part.meas he.2.2 k h4.fm h4.activeMeasurements k3.fm hp⟩
  · have e1 : dz ∘ ρ k = w ∘ ρ k - C.submatrix (ρ k) σ *ᵥ (v ∘ σ) := by
      rw [← h7, ← Part.over_vec h6]; rfl
    have e2 := Part.over_vec h8
    rw [e1] at e2
    rw [← h9, ← e2]; rfl
  · rw [h10.block]

private theorem ekf_predict_part {sc : SysClass T NonlinSysData X} {sc' : SysClass T NonlinSysData X'}
    {dm : Nat → Nat → NonlinMeasData → Prop} {DB : K → NonlinMeasData → NonlinMeasData → Prop}
    (hsc : SysContract NonlinSysData.Sized sc) (hsc' : SysContract NonlinSysData.Sized sc')
    (ha : sc.HasPart NonlinSysData.Sized σ τ (NonlinSysData.Part σ) sc') (e : Env K NonlinSysData X NonlinMeasData Y)
    (e' : Env K NonlinSysData X' NonlinMeasData Y') (x x' : DVec) (c c' : DMat) (u u' : DVec) (dt : T)
    (he : Part.RE NoisePSD (ActivePSD σ) (EstimatePSD ns) NonlinSysData.Sized dm σ τ ρ (NonlinSysData.Part σ) DB e e') (hx : Part.RS (ActivePSD σ) (EstimatePSD ns) σ x c x' c') (hu : Part.RU τ u u') :
    Both (Part.Step σ τ ρ (NonlinSysData.Part σ) DB)
      (ekfvsPredict sc e.sys x c u dt fun s => ({ e with sys := s } : Env K NonlinSysData X NonlinMeasData Y))
      (ekfPredict sc' e'.sys x' c' u' dt fun s => ({ e' with sys := s } : Env K NonlinSysData X' NonlinMeasData Y')) := by
  obtain ⟨_, _, ⟨v, rfl, rfl⟩, ⟨M, rfl, rfl⟩⟩ := hx
  obtain ⟨_, _, ⟨w, rfl, rfl⟩⟩ := hu
  obtain ⟨s1, p, v1, A, W, V, Rp, Rc, M1, h1, h2, h3, h4, h5, h6, h7, h8, h9, h13⟩ :=
    ekfvsPredict_of hsc he.1.1.sys he.2.2.states he.2.2.controls v M (u := .of w) rfl dt
      (fun s => ({ e with sys := s } : Env K NonlinSysData X NonlinMeasData Y))
  obtain ⟨s2, k1, k2, k3⟩ := he.2.1.sys.update hsc' (x := .of (v ∘ σ)) (u := .of (w ∘ τ)) rfl rfl dt
  have k1' : sc'.myUpdate e'.sys (.of (v ∘ σ)) (.of (w ∘ τ)) dt = some s2 := by
    unfold Sys.update at k1
    rwa [if_pos ⟨he.2.1.sys.states.symm, he.2.1.sys.controls.symm⟩] at k1
  have hp := ha.update _ _ _ _ _ _ _ _ _ he.1.1.sys he.2.1.sys he.2.2.sys ⟨v, rfl, rfl⟩ ⟨w, rfl, rfl⟩ h2 k1'
  obtain ⟨q1, q2, q3, q4⟩ := Part.noise hp h6 h7 (by rw [h4.Rp]; exact h8) (by rw [h4.Rc]; exact h9)
  have hd := hp.der
  rw [h5] at hd
  have qg : s2.der.g = .of (v1 ∘ σ) := vecPart_of.mp hd.1
  have qG : s2.der.G = .of (A.submatrix σ σ) := matPart_of.mp hd.2
  have hk : ekfPredict sc' e'.sys (.of (v ∘ σ)) (.of (M.submatrix σ σ)) (.of (w ∘ τ)) dt
      (fun s => ({ e' with sys := s } : Env K NonlinSysData X' NonlinMeasData Y'))
      = some (.of (v1 ∘ σ), .of (subPropagate σ τ A M W Rp V Rc), { e' with sys := s2 }) := by
    unfold ekfPredict
    simp only [Option.bind_eq_bind, k1, Option.bind_some, qg, qG, q1, q2, q3, q4, propagateCov_of]
  intro r r' hr hr'
  rw [h1] at hr
  rw [hk] at hr'
  injection hr with hr; injection hr' with hr'
  subst hr; subst hr'
  refine ⟨⟨v1, rfl, rfl⟩, ⟨M1, rfl, ?_⟩, Part.sys he.2.2 h4 k3 hp⟩
  rw [h13.block]

private theorem ekf_correct_part {sc : SysClass T NonlinSysData X} {sc' : SysClass T NonlinSysData X'} {mc : K → MeasClass T NonlinMeasData Y}
    {mc' : K → MeasClass T NonlinMeasData Y'} {DA : NonlinSysData → NonlinSysData → Prop}
    (hsc : SysContract NonlinSysData.Sized sc) (ha : sc.PlainOps) (ha' : sc'.PlainOps)
    (hmc : ∀ k, MeasContract NonlinMeasData.Sized (mc k)) (hmc' : ∀ k, MeasContract NonlinMeasData.Sized (mc' k))
    (hb : ∀ k, (mc k).HasPart NonlinMeasData.Sized σ (ρ k) (NonlinMeasData.Part (ρ k) σ) (mc' k))
    (e : Env K NonlinSysData X NonlinMeasData Y) (e' : Env K NonlinSysData X' NonlinMeasData Y') (x x' : DVec) (c c' : DMat)
    (z z' : DVec) (k : K) (dt : T)
    (he : Part.RE NoisePSD (ActivePSD σ) (EstimatePSD ns) NonlinSysData.Sized NonlinMeasData.Sized σ τ ρ DA (fun k => NonlinMeasData.Part (ρ k) σ) e e') (hx : Part.RS (ActivePSD σ) (EstimatePSD ns) σ x c x' c')
    (hz0 : z.size = kd k) (hz : VecPart (ρ k) z z') (hR : (e.meas k).cov.PD) :
    Both (Part.Step σ τ ρ DA fun k => NonlinMeasData.Part (ρ k) σ) (ekfvsCorrect sc (mc k) e.sys (e.meas k) x c z dt (e.setMeas k))
      (ekfCorrect sc' (mc' k) e'.sys (e'.meas k) x' c' z' dt (e'.setMeas k)) := by
  obtain ⟨⟨_, Q, hQ, _, hQ2⟩, _, ⟨v, rfl, rfl⟩, ⟨M, rfl, rfl⟩⟩ := hx
  have := DMat.of_inj.mp hQ; subst this
  obtain ⟨w, rfl, rfl⟩ := hz
  obtain ⟨R, hRe⟩ := (he.1.1.meas k).cov.exists_of
  rw [hRe, DMat.PD_of] at hR
  have hR' := hR.submatrix (he.2.2.measured k).inj
  obtain ⟨m1, zh, C, dz, dx, v1, M1, h1, h2, h3, h4, h5, h7, h8, h9, h10⟩ :=
    ekfvsCorrect_of hsc (hmc k) he.1.1.sys (he.1.1.meas k) he.2.2.states (he.2.2.measured k) v M hQ2 hRe hR' w dt (e.setMeas k)
  obtain ⟨m2, k1, k2, k3⟩ := (he.2.1.meas k).update (hmc' k) (x := .of (v ∘ σ)) rfl dt
  have k1' : (mc' k).myUpdate (e'.meas k) (.of (v ∘ σ)) dt = some m2 := by
    unfold Meas.update at k1
    rwa [if_pos (he.2.1.meas k).states.symm] at k1
  have hp := (hb k).update _ _ _ _ _ _ _ (he.1.1.meas k) (he.2.1.meas k) (he.2.2.meas k) ⟨v, rfl, rfl⟩ h2 k1'
  have hd : NonlinMeasData.Part (ρ k) σ m1.der m2.der := hp.der
  rw [h5] at hd
  have qh : m2.der.h = .of (zh ∘ ρ k) := vecPart_of.mp hd.1
  have qC : m2.der.H = .of (C.submatrix (ρ k) σ) := matPart_of.mp hd.2
  have hcov := hp.cov
  rw [h4.cov, hRe] at hcov
  have qR : m2.cov = .of (R.submatrix (ρ k) (ρ k)) := matPart_of.mp hcov
  rw [(hb k).plain.sub, DVec.sub_of] at h7
  injection h7 with h7
  have h7 := DVec.of_inj.mp h7
  rw [ha.add, DVec.add_of] at h9
  injection h9 with h9
  have h9 := DVec.of_inj.mp h9
  have hS := pd_isUnit_det (innov_pd hQ2 (C.submatrix (ρ k) σ) hR')
  have hk : ekfCorrect sc' (mc' k) e'.sys (e'.meas k) (.of (v ∘ σ)) (.of (M.submatrix σ σ)) (.of (w ∘ ρ k)) dt (e'.setMeas k)
      = some (.of (v ∘ σ + gain (M.submatrix σ σ) (C.submatrix (ρ k) σ) (R.submatrix (ρ k) (ρ k)) *ᵥ (w ∘ ρ k - zh ∘ ρ k)),
        .of (post (M.submatrix σ σ) (C.submatrix (ρ k) σ) (R.submatrix (ρ k) (ρ k))), e'.setMeas k m2) := by
    unfold ekfCorrect
    simp only [Option.bind_eq_bind, k1, Option.bind_some, qh, qC, qR, kalmanGain_of _ _ _ hS, DMat.mulVec_of, ha'.add, (hb k).plain'.sub,
      DVec.add_of, DVec.sub_of, DVec.of_size, shrinkCov_of]
    rfl
  intro r r' hr hr'
  rw [h1] at hr
  rw [hk] at hr'
  injection hr with hr; injection hr' with hr'
  subst hr; subst hr'
  refine ⟨⟨v1, rfl, ?_⟩, ⟨M1, rfl, ?_⟩, Part.meas he.2.2 k h4.fm h4.activeMeasurements k3.fm hp⟩
  · have e1 : dz ∘ ρ k = w ∘ ρ k - zh ∘ ρ k := by rw [← h7]; rfl
    have e2 := Part.over_vec h8
    rw [e1] at e2
    rw [← h9, ← e2]; rfl
  · rw [h10.block]

section
variable [SaneTime T]
  (sort : List (FilterInput T DVec DMat K) → List (FilterInput T DVec DMat K)) (hsort : SameSort sort sort)
  (params : Params T) (x x' : DVec) (c c' : DMat) (t : T)
  (hx : ActivePSD σ x c) (hxx : VecPart σ x x') (hcc : MatPart σ σ c c')
include hsort hx hxx hcc

/-- **C124 (KalmanFilterVS).**  Models `sc`, `mc` of `n` states with the states `σ`, the controls `τ` and the measurement
components `ρ` active, and models `sc'`, `mc'` of these alone.  A `KalmanFilterVS` with the former and a `KalmanFilter` with the
latter receive the same calls - out of order, enqueued or not, with any settings - the second the listed entries of every vector
and matrix.  Now and at every remembered moment, the `KalmanFilter` has the listed entries of the state and the covariance of
the `KalmanFilterVS`, at the same time; in particular nothing inactive has any influence on what is active. -/
theorem C124_kfvs {sc : SysClass T LinSysData X} {mc : K → MeasClass T LinMeasData Y} {sc' : SysClass T LinSysData X'}
    {mc' : K → MeasClass T LinMeasData Y'}
    (hsc : SysContract LinSysData.Sized sc) (hmc : ∀ j, MeasContract LinMeasData.Sized (mc j))
    (hsc' : SysContract LinSysData.Sized sc') (hmc' : ∀ j, MeasContract LinMeasData.Sized (mc' j))
    (ha : sc.HasPart LinSysData.Sized σ τ (LinSysData.Part σ τ) sc')
    (hb : ∀ k, (mc k).HasPart LinMeasData.Sized σ (ρ k) (LinMeasData.Part (ρ k) σ) (mc' k))
    (e : Env K LinSysData X LinMeasData Y) (e' : Env K LinSysData X' LinMeasData Y')
    (he : e.Ok LinSysData.Sized LinMeasData.Sized NoisePSD (ActivePSD σ) n m kd)
    (he' : e'.Ok LinSysData.Sized LinMeasData.Sized NoisePSD (EstimatePSD ns) ns ms ks)
    (hee : e.Part σ τ ρ (LinSysData.Part σ τ) (fun k => LinMeasData.Part (ρ k) σ) e')
    (ops : List (Op T DVec DMat K (Env K LinSysData X LinMeasData Y)))
    (ops' : List (Op T DVec DMat K (Env K LinSysData X' LinMeasData Y')))
    (hops : ∀ op ∈ ops, op.WellFormed (ActivePSD σ)
      (fun e => Env.Ok LinSysData.Sized LinMeasData.Sized NoisePSD (ActivePSD σ) n m kd e ∧ e.Selecting σ m kd) m kd DMat.PD)
    (hops' : ∀ op ∈ ops', op.WellFormed (EstimatePSD ns)
      (Env.Ok LinSysData.Sized LinMeasData.Sized NoisePSD (EstimatePSD ns) ns ms ks) ms ks DMat.PD)
    (hrel : List.Forall₂ (PartCall σ τ ρ (Env.Part σ τ ρ (LinSysData.Part σ τ) fun k => LinMeasData.Part (ρ k) σ)) ops ops') :
    PartOf σ ((construct (kfvsPlant sc mc) params e x c t).run (kfvsPlant sc mc) sort ops)
      ((construct (kfPlant sc' mc') params e' x' c' t).run (kfPlant sc' mc') sort ops') :=
  Part.run (Part.selects_pos hee.controls) rfl rfl (Part.mk (kfvs_inv hsc hmc activePSD_inv kd) (kf_inv_psd hsc' hmc' ks)
      (fun e e' x x' c c' u u' dt => kf_predict_part hsc hsc' ha e e' x x' c c' u u' dt)
      (fun e e' x x' c c' z z' k dt => kf_correct_part hsc ha.plain ha.plain' hmc hmc' hb e e' x x' c c' z z' k dt))
    sort hsort params e e' ⟨he, hee.selecting⟩ he' hee x x' c c' t hx (part_psd hx hxx hcc) hxx hcc ops ops' hops hops' hrel

/-- **C124 (EKFVS).**  The same for `EKFVS` and `EKF` with nonlinear models. -/
theorem C124_ekfvs {sc : SysClass T NonlinSysData X} {mc : K → MeasClass T NonlinMeasData Y} {sc' : SysClass T NonlinSysData X'}
    {mc' : K → MeasClass T NonlinMeasData Y'}
    (hsc : SysContract NonlinSysData.Sized sc) (hmc : ∀ j, MeasContract NonlinMeasData.Sized (mc j))
    (hsc' : SysContract NonlinSysData.Sized sc') (hmc' : ∀ j, MeasContract NonlinMeasData.Sized (mc' j))
    (ha : sc.HasPart NonlinSysData.Sized σ τ (NonlinSysData.Part σ) sc')
    (hb : ∀ k, (mc k).HasPart NonlinMeasData.Sized σ (ρ k) (NonlinMeasData.Part (ρ k) σ) (mc' k))
    (e : Env K NonlinSysData X NonlinMeasData Y) (e' : Env K NonlinSysData X' NonlinMeasData Y')
    (he : e.Ok NonlinSysData.Sized NonlinMeasData.Sized NoisePSD (ActivePSD σ) n m kd)
    (he' : e'.Ok NonlinSysData.Sized NonlinMeasData.Sized NoisePSD (EstimatePSD ns) ns ms ks)
    (hee : e.Part σ τ ρ (NonlinSysData.Part σ) (fun k => NonlinMeasData.Part (ρ k) σ) e')
    (ops : List (Op T DVec DMat K (Env K NonlinSysData X NonlinMeasData Y)))
    (ops' : List (Op T DVec DMat K (Env K NonlinSysData X' NonlinMeasData Y')))
    (hops : ∀ op ∈ ops, op.WellFormed (ActivePSD σ)
      (fun e => Env.Ok NonlinSysData.Sized NonlinMeasData.Sized NoisePSD (ActivePSD σ) n m kd e ∧ e.Selecting σ m kd) m kd DMat.PD)
    (hops' : ∀ op ∈ ops', op.WellFormed (EstimatePSD ns)
      (Env.Ok NonlinSysData.Sized NonlinMeasData.Sized NoisePSD (EstimatePSD ns) ns ms ks) ms ks DMat.PD)
    (hrel : List.Forall₂ (PartCall σ τ ρ (Env.Part σ τ ρ (NonlinSysData.Part σ) fun k => NonlinMeasData.Part (ρ k) σ)) ops ops') :
    PartOf σ ((construct (ekfvsPlant sc mc) params e x c t).run (ekfvsPlant sc mc) sort ops)
      ((construct (ekfPlant sc' mc') params e' x' c' t).run (ekfPlant sc' mc') sort ops') :=
  Part.run (Part.selects_pos hee.controls) rfl rfl (Part.mk (ekfvs_inv hsc hmc activePSD_inv kd) (ekf_inv_psd hsc' hmc' ks)
      (fun e e' x x' c c' u u' dt => ekf_predict_part hsc hsc' ha e e' x x' c c' u u' dt)
      (fun e e' x x' c c' z z' k dt => ekf_correct_part hsc ha.plain ha.plain' hmc hmc' hb e e' x x' c c' z z' k dt))
    sort hsort params e e' ⟨he, hee.selecting⟩ he' hee x x' c c' t hx (part_psd hx hxx hcc) hxx hcc ops ops' hops hops' hrel

end

/-! ## The hypotheses are met

The constant-velocity models with the position alone active (`posOnly`), and a model of a position alone, which is pushed by the
same control but knows nothing of a velocity. -/

/-- The only control and the only measurement. -/
def all1 : Fin 1 → Fin 1 := id

/-- `A = [1]`, `B = V = [dt²/2]`, `P = [1 0]`. -/
noncomputable def creepClass : SysClass ℝ LinSysData Unit :=
  SysClass.plain fun s _ _ dt =>
    if s.stateSize = 1 ∧ s.controlDims = 1 ∧ s.Rp.rows = 2 then
      some { s with der := ⟨.of !![1], .of !![dt ^ 2 / 2]⟩
                    P := .of !![1, 0]
                    V := .of !![dt ^ 2 / 2] }
    else some s

/-- `C = [1]`. -/
noncomputable def tapeClass : MeasClass ℝ LinMeasData Unit :=
  MeasClass.plain fun s _ _ => if s.stateSize = 1 ∧ s.measDims = 1 then some { s with der := ⟨.of !![1]⟩ } else some s

theorem creep_contract : SysContract LinSysData.Sized creepClass := by
  apply plain_contract
  intro n m s x u dt hs hx hu
  split
  next h =>
    obtain ⟨h1, h2, h3⟩ := h
    have hn : n = 1 := by rw [← hs.states]; exact h1
    have hm : m = 1 := by rw [← hs.controls]; exact h2
    subst hn hm
    exact ⟨_, rfl, ⟨hs.states, hs.controls, ⟨⟨rfl, rfl⟩, rfl, rfl⟩, ⟨rfl, h3.symm⟩, hs.Rp, ⟨rfl, rfl⟩, hs.Rc⟩,
      ⟨rfl, rfl, rfl, rfl, rfl⟩⟩
  next => exact ⟨s, rfl, hs, Sys.SameConfig.refl s⟩

theorem tape_contract : MeasContract LinMeasData.Sized tapeClass := by
  apply plain_mcontract
  intro n k s x dt hs hx
  split
  next h =>
    have hn : n = 1 := by rw [← hs.states]; exact h.1
    have hk : k = 1 := by rw [← hs.meas]; exact h.2
    subst hn hk
    exact ⟨_, rfl, ⟨hs.states, hs.meas, ⟨rfl, rfl⟩, hs.cov⟩, ⟨rfl, rfl, rfl, rfl⟩⟩
  next => exact ⟨s, rfl, hs, Meas.SameConfig.refl s⟩

theorem creep_part : cvClass.HasPart LinSysData.Sized sel0 all1 (LinSysData.Part sel0 all1) creepClass where
  plain := plain_ops _
  plain' := plain_ops _
  update := by
    intro s s' x x' u u' dt r r' hs hs' h _ _ hr hr'
    change (if s.stateSize = 2 ∧ s.controlDims = 1 ∧ s.Rp.rows = 2 then _ else some s) = some r at hr
    change (if s'.stateSize = 1 ∧ s'.controlDims = 1 ∧ s'.Rp.rows = 2 then _ else some s') = some r' at hr'
    by_cases h2 : s.Rp.rows = 2
    · rw [if_pos ⟨hs.states, hs.controls, h2⟩] at hr
      rw [if_pos ⟨hs'.states, hs'.controls, by rw [h.Rp]; exact h2⟩] at hr'
      injection hr with hr; injection hr' with hr'
      subst hr; subst hr'
      refine ⟨h.Rp, h.Rc, ?_, ⟨_, rfl, ?_⟩, ⟨_, rfl, ?_⟩, ⟨_, rfl, ?_⟩⟩
      · show MatPart sel0 (id : Fin s.Rp.rows → Fin s.Rp.rows) (.identity 2) (.of !![1, 0])
        rw [h2]
        refine ⟨1, rfl, ?_⟩
        congr 1
        ext i j; fin_cases i; fin_cases j <;> simp [sel0, Matrix.one_apply]
      · show DMat.of _ = DMat.of _
        congr 1
        ext i j; fin_cases i; fin_cases j; rfl
      · show DMat.of _ = DMat.of _
        congr 1
        ext i j; fin_cases i; fin_cases j; rfl
      · show DMat.of _ = DMat.of _
        congr 1
        ext i j; fin_cases i; fin_cases j; rfl
    · rw [if_neg fun q => h2 q.2.2] at hr
      rw [if_neg fun q => h2 (by rw [← h.Rp]; exact q.2.2)] at hr'
      injection hr with hr; injection hr' with hr'
      subst hr; subst hr'
      exact h

theorem tape_part : posClass.HasPart LinMeasData.Sized sel0 all1 (LinMeasData.Part all1 sel0) tapeClass where
  plain := plain_mops _
  plain' := plain_mops _
  update := by
    intro s s' x x' dt r r' hs hs' h _ hr hr'
    change (if s.stateSize = 2 ∧ s.measDims = 1 then _ else some s) = some r at hr
    change (if s'.stateSize = 1 ∧ s'.measDims = 1 then _ else some s') = some r' at hr'
    rw [if_pos ⟨hs.states, hs.meas⟩] at hr
    rw [if_pos ⟨hs'.states, hs'.meas⟩] at hr'
    injection hr with hr; injection hr' with hr'
    subst hr; subst hr'
    refine ⟨h.cov, ⟨_, rfl, ?_⟩⟩
    show DMat.of _ = DMat.of _
    congr 1
    ext i j; fin_cases i; fin_cases j; rfl

/-- Freshly constructed models of the position alone. -/
noncomputable def creepEnv : Env Unit LinSysData Unit LinMeasData Unit :=
  { sys := Sys.constructLinear 1 1 2 (), meas := fun _ => Meas.constructLinear 1 1 () }

theorem creepEnv_ok {Q : DVec → DMat → Prop} :
    creepEnv.Ok LinSysData.Sized LinMeasData.Sized NoisePSD Q 1 1 (fun _ => 1) where
  sys := ⟨rfl, rfl, ⟨⟨rfl, rfl⟩, rfl, rfl⟩, ⟨rfl, rfl⟩, ⟨rfl, rfl⟩, ⟨rfl, rfl⟩, ⟨rfl, rfl⟩⟩
  noise := ⟨⟨rfl, PosSemidef.zero⟩, ⟨rfl, PosSemidef.zero⟩⟩
  sysMake := fun x c h => ⟨x, c, rfl, h⟩
  meas := fun _ => ⟨rfl, rfl, ⟨rfl, rfl⟩, rfl, rfl⟩
  measMake := fun _ x c h => ⟨x, c, rfl, h⟩

private theorem zero_part {r c k l : Nat} (σ : Fin k → Fin r) (τ : Fin l → Fin c) : MatPart σ τ (.zero r c) (.zero k l) :=
  ⟨0, rfl, rfl⟩

theorem creepEnv_part : posOnly.Part sel0 all1 (fun _ => all1) (LinSysData.Part sel0 all1)
    (fun _ => LinMeasData.Part all1 sel0) creepEnv where
  states := posOnly_selects
  controls := selects_nil
  measured := fun _ => selects_nil
  sys := ⟨rfl, zero_part _ _, zero_part (r := 2) (c := 2) (k := 1) (l := 2) sel0 id, zero_part (r := 2) (c := 1) (k := 1) (l := 1) sel0 id,
    zero_part (r := 2) (c := 2) (k := 1) (l := 1) sel0 sel0, zero_part (r := 2) (c := 1) (k := 1) (l := 1) sel0 id⟩
  meas := fun _ => ⟨zero_part (r := 1) (c := 1) (k := 1) (l := 1) id id, zero_part (r := 1) (c := 2) (k := 1) (l := 1) id sel0⟩
  quiet := ⟨rfl, fun _ => rfl⟩
  quiet' := ⟨rfl, fun _ => rfl⟩

/-- A `KalmanFilterVS` with the position active, begun with any velocity `v` and any correlation `r`, driven, measured late and
in order - and the filter of the position alone: the positions and their variances are the same. -/
example (sort : List (FilterInput ℝ DVec DMat Unit) → List (FilterInput ℝ DVec DMat Unit)) (hsort : SameSort sort sort)
    (params : Params ℝ) (v r u z w : ℝ) :
    PartOf sel0
      ((construct (kfvsPlant cvClass fun _ => posClass) params posOnly (.of ![0, v]) (.of !![1, r; r, 1]) 0).run
        (kfvsPlant cvClass fun _ => posClass) sort
        [.predictControl (.of ![u]) 1, .correct (.of ![z]) (.identity 1) 2 (some ()), .correct (.of ![w]) (.identity 1) 1 (some ()), .predictTime 3])
      ((construct (kfPlant creepClass fun _ => tapeClass) params creepEnv (.of ![0]) (.of !![1]) 0).run
        (kfPlant creepClass fun _ => tapeClass) sort
        [.predictControl (.of ![u]) 1, .correct (.of ![z]) (.identity 1) 2 (some ()), .correct (.of ![w]) (.identity 1) 1 (some ()), .predictTime 3]) := by
  have hv1 : ∀ (a : Fin 1 → ℝ), VecPart all1 (.of a) (.of a) := fun a => ⟨a, rfl, rfl⟩
  have hm1 : MatPart all1 all1 (.identity 1) (.identity 1) := ⟨1, rfl, rfl⟩
  have hsub : (!![1, r; r, 1] : Matrix (Fin 2) (Fin 2) ℝ).submatrix sel0 sel0 = 1 := by
    ext i j; fin_cases i; fin_cases j; rfl
  refine C124_kfvs (ks := fun _ => 1) (kd := fun _ => 1) (ρ := fun _ => all1) sort hsort params _ _ _ _ _ ?_ ?_ ?_ cv_contract (fun _ => pos_contract)
    creep_contract (fun _ => tape_contract) creep_part (fun _ => tape_part) posOnly creepEnv posOnly_ok creepEnv_ok creepEnv_part _ _ ?_ ?_ ?_
  · refine ⟨rfl, _, rfl, ?_, ?_⟩
    · ext i j; fin_cases i <;> fin_cases j <;> rfl
    · rw [hsub]; exact PosSemidef.one
  · refine ⟨_, rfl, ?_⟩
    congr 1
    ext i; fin_cases i; rfl
  · refine ⟨_, rfl, ?_⟩
    rw [hsub]
    congr 1
    ext i j; fin_cases i; fin_cases j; rfl
  · intro op hop
    simp only [List.mem_cons, List.not_mem_nil, or_false] at hop
    rcases hop with rfl | rfl | rfl | rfl
    · exact Or.inl rfl
    · exact ⟨(), rfl, rfl, ⟨rfl, rfl⟩, identity_pd 1⟩
    · exact ⟨(), rfl, rfl, ⟨rfl, rfl⟩, identity_pd 1⟩
    · trivial
  · intro op hop
    simp only [List.mem_cons, List.not_mem_nil, or_false] at hop
    rcases hop with rfl | rfl | rfl | rfl
    · exact Or.inl rfl
    · exact ⟨(), rfl, rfl, ⟨rfl, rfl⟩, identity_pd 1⟩
    · exact ⟨(), rfl, rfl, ⟨rfl, rfl⟩, identity_pd 1⟩
    · trivial
  · exact .cons ⟨Or.inl (hv1 _), rfl⟩ (.cons ⟨rfl, rfl, fun _ _ => ⟨hv1 _, hm1⟩⟩ (.cons ⟨rfl, rfl, fun _ _ => ⟨hv1 _, hm1⟩⟩ (.cons rfl .nil)))

end Props
end StateEstimation
