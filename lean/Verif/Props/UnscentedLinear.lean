import Verif.Lemmas.UKFAffine
import Verif.Props.Unscented
import Verif.Props.Linear
import Verif.Examples.Leaky

/-!
# C35: on linear models the UKF is the Kalman filter

`SysClass.Affine`, `MeasClass.Affine` (Spec/Sigma.lean): `g() = A x + b`, `h() = C x + b`.
-/

set_option linter.unusedSectionVars false

namespace StateEstimation

open Matrix Kalman Sigma

variable {T K X Y : Type} [DecidableEq K] {n m k p : Nat}

/-- The models of an EKF and of a UKF correspond: well-formed, same configuration, admissible sigma point parameters. -/
def SameModels (n m p : Nat) (kd : K → Nat) (e : Env K NonlinSysData X NonlinMeasData Y)
    (e' : Env K NonlinSysData X NonlinMeasData Y × SigmaParams) : Prop :=
  e.Ok NonlinSysData.Sized NonlinMeasData.Sized (NoisePD p) (EstimatePD n) n m kd ∧
  e'.1.Ok NonlinSysData.Sized NonlinMeasData.Sized (NoisePD p) (EstimatePD n) n m kd ∧ SigmaAdmissible n e'.2 ∧
  e.sys.SameConfig e'.1.sys ∧ ∀ j, (e.meas j).SameConfig (e'.1.meas j)

theorem Sys.SameConfig.symm {D X : Type} {a b : Sys D X} (h : a.SameConfig b) : b.SameConfig a :=
  ⟨h.fm.symm, h.controlDims.symm, h.activeControls.symm, h.Rp.symm, h.Rc.symm⟩
theorem Meas.SameConfig.symm {D X : Type} {a b : Meas D X} (h : a.SameConfig b) : b.SameConfig a :=
  ⟨h.fm.symm, h.measDims.symm, h.activeMeasurements.symm, h.cov.symm⟩

theorem optRel_of_eq {tot : Prop} {α β : Type} {R : α → β → Prop} {o : Option α} {o' : Option β} {a : α} {b : β}
    (h : o = some a) (h' : o' = some b) (hr : R a b) : OptRel tot R o o' := by rw [h, h']; exact hr

theorem OptP.elim {tot : Prop} (ht : tot) {α : Type} {p : α → Prop} {o : Option α} (h : OptP tot p o) : ∃ a, o = some a ∧ p a := by
  cases o with
  | none => exact absurd ht h
  | some a => exact ⟨a, rfl, h⟩

theorem SameModels.setMeas {kd : K → Nat} {e : Env K NonlinSysData X NonlinMeasData Y}
    {e' : Env K NonlinSysData X NonlinMeasData Y × SigmaParams} (h : SameModels n m p kd e e') (j : K)
    {s s' : Meas NonlinMeasData Y} (h1 : (e.setMeas j s).Ok NonlinSysData.Sized NonlinMeasData.Sized (NoisePD p) (EstimatePD n) n m kd)
    (h2 : (e'.1.setMeas j s').Ok NonlinSysData.Sized NonlinMeasData.Sized (NoisePD p) (EstimatePD n) n m kd)
    (hs : s.SameConfig s') : SameModels n m p kd (e.setMeas j s) (e'.1.setMeas j s', e'.2) := by
  refine ⟨h1, h2, h.2.2.1, h.2.2.2.1, fun i => ?_⟩
  unfold Env.setMeas
  dsimp only
  by_cases hi : i = j
  · subst hi; rw [if_pos rfl, if_pos rfl]; exact hs
  · rw [if_neg hi, if_neg hi]; exact h.2.2.2.2 i

section
variable (llt : DMat → Option DMat) (junk : Nat → Nat → ℝ) (sc : SysClass T NonlinSysData X)
  (mc : K → MeasClass T NonlinMeasData Y) (e : Env K NonlinSysData X NonlinMeasData Y × SigmaParams) (x u : DVec) (cov : DMat)
  (j : K) (dt : T)

theorem ukfPlant_myPredict : (ukfPlant llt junk sc mc).myPredict e x cov u dt
    = (ukfPredict llt junk sc e.2 e.1.sys x cov u dt fun s => { e.1 with sys := s }).map fun r => (r.1, r.2.1, r.2.2, e.2) := rfl

theorem ukfPlant_myCorrect : (ukfPlant llt junk sc mc).myCorrect e x cov u j dt
    = (ukfCorrect llt junk sc (mc j) e.2 e.1.sys (e.1.meas j) x cov u dt (e.1.setMeas j)).map
        fun r => (r.1, r.2.1, r.2.2, e.2) := rfl

end

theorem affine_plantSim [TimeOps T] {llt : DMat → Option DMat} (hllt : LltSpec llt) (junk : Nat → Nat → ℝ)
    {sc : SysClass T NonlinSysData X}
    {mc : K → MeasClass T NonlinMeasData Y} (hsc : SysContract NonlinSysData.Sized sc) (hso : sc.PlainOps)
    (hsp : sc.SpreadsNoise NonlinSysData.Sized n m p) (hmc : ∀ j, MeasContract NonlinMeasData.Sized (mc j))
    (hmo : ∀ j, (mc j).PlainOps) (kd : K → Nat) (hA : sc.Affine n m) (hC : ∀ j, (mc j).Affine n (kd j)) :
    PlantSim (ekfPlant sc mc) (ukfPlant llt junk sc mc) True (EstimatePD n) (SameModels n m p kd) (fun u => u.size = m)
      (fun R => R.Is m m ∧ R.PSD) (fun z c k => z.size = kd k ∧ c.Is (kd k) (kd k) ∧ c.PD) := by
  have hU := ukf_inv_pd hllt junk hsc hso hsp hmc hmo kd (m := m) (p := p) (n := n)
  refine
    { vsize := rfl
      emptyV := rfl
      zeroV := rfl
      empty := rfl
      controlSize := fun e e' h => h.2.2.2.1.controlDims.symm
      rc := fun e e' h => ⟨h.2.2.2.1.Rc.symm, h.1.sys.Rc, h.1.noise.2.2⟩
      zero := fun e e' h => h.1.sys.controls
      setRc := ?_, sysSt := ?_, predict := ?_, sysStationary := ?_, setMeasCov := ?_ }
  · intro e e' c h hc
    have h1 : e.sys.setControlCovariance c = some { e.sys with Rc := c } := by
      unfold Sys.setControlCovariance; rw [if_pos ⟨by rw [h.1.sys.controls]; exact hc.1.1, by rw [h.1.sys.controls]; exact hc.1.2⟩]
    have h2 : e'.1.sys.setControlCovariance c = some { e'.1.sys with Rc := c } := by
      unfold Sys.setControlCovariance
      rw [if_pos ⟨by rw [h.2.1.sys.controls]; exact hc.1.1, by rw [h.2.1.sys.controls]; exact hc.1.2⟩]
    refine optRel_of_eq (a := { e with sys := { e.sys with Rc := c } }) (b := ({ e'.1 with sys := { e'.1.sys with Rc := c } }, e'.2))
      (by show (e.sys.setControlCovariance c).map _ = _; rw [h1]; rfl)
      (by show (((e'.1.sys.setControlCovariance c).map _).map _) = _; rw [h2]; rfl) ?_
    have ok : ∀ e : Env K NonlinSysData X NonlinMeasData Y,
        e.Ok NonlinSysData.Sized NonlinMeasData.Sized (NoisePD p) (EstimatePD n) n m kd →
        Env.Ok NonlinSysData.Sized NonlinMeasData.Sized (NoisePD p) (EstimatePD n) n m kd { e with sys := { e.sys with Rc := c } } :=
      fun e h => ⟨⟨h.sys.states, h.sys.controls, h.sys.der, h.sys.P, h.sys.Rp, h.sys.V, hc.1⟩, ⟨h.noise.1, h.noise.2.1, hc.2⟩,
        h.sysMake, h.meas, h.measMake⟩
    exact ⟨ok _ h.1, ok _ h.2.1, h.2.2.1, ⟨h.2.2.2.1.fm, h.2.2.2.1.controlDims, h.2.2.2.1.activeControls, h.2.2.2.1.Rp, rfl⟩,
      h.2.2.2.2⟩
  · intro e e' x c d h _
    show (e.sys.fm.checkStationary && e.sys.fm.isStationary x d) = (e'.1.sys.fm.checkStationary && e'.1.sys.fm.isStationary x d)
    rw [h.2.2.2.1.fm]
  · intro e e' x c u dt h hx hu
    obtain ⟨⟨hx1, hx2⟩, hx3⟩ := id hx
    obtain ⟨xv, rfl⟩ := x.exists_of hx1
    obtain ⟨cov, rfl⟩ := hx2.exists_of
    rw [DMat.PD_of] at hx3
    obtain ⟨A, b, W', V', haff⟩ := hA e.sys u dt h.1.sys hu
    obtain ⟨s', q, W, V, Rp, Rc, h1, h2, h3, h4, h5, h6, h7⟩ := ukfPredict_affine hsc hso hllt junk h.2.2.1 h.2.1.sys xv hu hx3 dt
      (fun q t ⟨s, k1, k2, k3⟩ => haff q t ⟨s, k1, h.2.2.2.1.trans k2, k3⟩)
      (fun s => ({ e'.1 with sys := s } : Env K NonlinSysData X NonlinMeasData Y))
    obtain ⟨r, g1, g2⟩ := OptP.elim trivial (hU.predict e' (.of xv) (.of cov) u dt ⟨h.2.1, h.2.2.1⟩ hx hu)
    have g3 : (ukfPlant llt junk sc mc).myPredict e' (.of xv) (.of cov) u dt
        = some (.of (A *ᵥ xv + b), .of (A * cov * Aᵀ + W * Rp * Wᵀ + V * Rc * Vᵀ), { e'.1 with sys := s' }, e'.2) := by
      rw [ukfPlant_myPredict, h1]; rfl
    have hr : r = _ := Option.some.inj (g1.symm.trans g3)
    rw [hr] at g2
    obtain ⟨s1, k1, k2, k3⟩ := hsc.update e.sys (.of xv) u dt h.1.sys rfl hu
    have k4 := haff xv s1 ⟨e.sys, h.1.sys, Sys.SameConfig.refl _, k1⟩
    have k5 : e.sys.update sc (.of xv) u dt = some s1 := by
      unfold Sys.update; rw [if_pos ⟨by rw [h.1.sys.states], by rw [h.1.sys.controls]; exact hu⟩]; exact k1
    have g4 : (ekfPlant sc mc).myPredict e (.of xv) (.of cov) u dt
        = some (.of (A *ᵥ xv + b), .of (A * cov * Aᵀ + W * Rp * Wᵀ + V * Rc * Vᵀ), { e with sys := s1 }) := by
      show ekfPredict sc e.sys _ _ _ _ _ = _
      unfold ekfPredict
      simp only [Option.bind_eq_bind, k5, Option.bind_some, k4.1, k4.2.1, k4.2.2.1, k4.2.2.2, h4, h5, k3.Rp, k3.Rc,
        ← h.2.2.2.1.Rp, ← h.2.2.2.1.Rc, h6, h7, propagateCov_of]
    refine optRel_of_eq g4 g3 ⟨rfl, rfl, g2.1, h.1.setSys k2 k3, h.2.1.setSys h2 h3, h.2.2.1, ?_, h.2.2.2.2⟩
    exact k3.symm.trans (h.2.2.2.1.trans h3)
  · intro e e' x c d h hx hd
    have hd' : d.size = m ∨ d.size = 0 := by
      rcases Nat.eq_zero_or_pos d.size with h0 | h0
      · exact Or.inr h0
      · exact Or.inl (hd h0)
    obtain ⟨s1, k1, k2, k3⟩ := hsc.stationary e.sys x d h.1.sys hx.1.1 hd'
    obtain ⟨s2, l1, l2, l3⟩ := hsc.stationary e'.1.sys x d h.2.1.sys hx.1.1 hd'
    refine optRel_of_eq (a := { e with sys := s1 }) (b := ({ e'.1 with sys := s2 }, e'.2))
      (by show (sc.processStationary e.sys x d).map _ = _; rw [k1]; rfl)
      (by show (((sc.processStationary e'.1.sys x d).map _).map _) = _; rw [l1]; rfl)
      ⟨⟨h.1.setSys k2 k3, h.2.1.setSys l2 l3, h.2.2.1, k3.symm.trans (h.2.2.2.1.trans l3), h.2.2.2.2⟩, ?_⟩
    obtain ⟨x', c', q1, q2⟩ := h.1.sysMake x c hx
    refine optRel_of_eq (a := (x', c')) (b := (x', c')) ?_ ?_ ⟨rfl, q2⟩
    · show s1.fm.makeStationary x c = _
      rw [k3.fm]; exact q1
    · show s2.fm.makeStationary x c = _
      rw [l3.fm, h.2.2.2.1.fm]; exact q1
  · intro e e' j z c h hz
    have hc1 : c.Is (e.meas j).measDims (e.meas j).measDims := by rw [(h.1.meas j).meas]; exact hz.2.1
    have hc2 : c.Is (e'.1.meas j).measDims (e'.1.meas j).measDims := by rw [(h.2.1.meas j).meas]; exact hz.2.1
    have ok : ∀ e : Env K NonlinSysData X NonlinMeasData Y,
        e.Ok NonlinSysData.Sized NonlinMeasData.Sized (NoisePD p) (EstimatePD n) n m kd →
        (e.setMeas j ((e.meas j).withCov c)).Ok NonlinSysData.Sized NonlinMeasData.Sized (NoisePD p) (EstimatePD n) n m kd := by
      intro e h
      refine ⟨h.sys, h.noise, h.sysMake, fun i => ?_, fun i => ?_⟩
      · unfold Env.setMeas; dsimp only
        by_cases hi : i = j
        · subst hi; rw [if_pos rfl]
          exact ⟨(h.meas i).states, (h.meas i).meas, (h.meas i).der, hz.2.1⟩
        · rw [if_neg hi]; exact h.meas i
      · unfold Env.setMeas; dsimp only
        by_cases hi : i = j
        · subst hi; rw [if_pos rfl]; exact h.measMake i
        · rw [if_neg hi]; exact h.measMake i
    have hsm : SameModels n m p kd (e.setMeas j ((e.meas j).withCov c)) (e'.1.setMeas j ((e'.1.meas j).withCov c), e'.2) :=
      h.setMeas j (ok _ h.1) (ok _ h.2.1)
        ⟨(h.2.2.2.2 j).fm, (h.2.2.2.2 j).measDims, (h.2.2.2.2 j).activeMeasurements, rfl⟩
    have s1 : (ekfPlant sc mc).setMeasCov e j c = some (e.setMeas j ((e.meas j).withCov c)) := mkPlant_setMeasCov e j c hc1
    have s2 : (ukfPlant llt junk sc mc).setMeasCov e' j c = some (e'.1.setMeas j ((e'.1.meas j).withCov c), e'.2) := by
      have := mkPlant_setMeasCov (sc := sc) (mc := mc)
        (pr := fun e x cov u dt => ukfPredict llt junk sc e'.2 e.sys x cov u dt fun s => { e with sys := s })
        (co := fun e x cov z k dt => ukfCorrect llt junk sc (mc k) e'.2 e.sys (e.meas k) x cov z dt (e.setMeas k)) e'.1 j c hc2
      show (((mkPlant sc mc _ _).setMeasCov e'.1 j c).map _) = _
      rw [this]; rfl
    obtain ⟨a, g1, g2⟩ := OptP.elim trivial (hU.setMeasCov e' j z c ⟨h.2.1, h.2.2.1⟩ hz)
    rw [s2] at g1
    have ha := (Option.some.inj g1).symm
    subst ha
    refine optRel_of_eq s1 s2 ⟨hsm, ?_, ?_, ?_⟩
    · intro x q _
      show (((e.setMeas j ((e.meas j).withCov c)).meas j).fm.checkStationary &&
          ((e.setMeas j ((e.meas j).withCov c)).meas j).fm.isStationary x z)
        = (((e'.1.setMeas j ((e'.1.meas j).withCov c)).meas j).fm.checkStationary &&
          ((e'.1.setMeas j ((e'.1.meas j).withCov c)).meas j).fm.isStationary x z)
      rw [Env.setMeas_meas, Env.setMeas_meas]
      show ((e.meas j).fm.checkStationary && (e.meas j).fm.isStationary x z)
        = ((e'.1.meas j).fm.checkStationary && (e'.1.meas j).fm.isStationary x z)
      rw [(h.2.2.2.2 j).fm]
    · intro x q dt hx
      have hcorr := g2.2.1 x q dt hx
      have hmc1 : ((e.setMeas j ((e.meas j).withCov c)).meas j).cov = c := by rw [Env.setMeas_meas]; rfl
      have hmc2 : ((e'.1.setMeas j ((e'.1.meas j).withCov c)).meas j).cov = c := by rw [Env.setMeas_meas]; rfl
      generalize e.setMeas j ((e.meas j).withCov c) = E1 at hsm hmc1 ⊢
      generalize e'.1.setMeas j ((e'.1.meas j).withCov c) = E2 at hsm hmc2 hcorr ⊢
      obtain ⟨⟨hx1, hx2⟩, hx3⟩ := id hx
      obtain ⟨xv, rfl⟩ := x.exists_of hx1
      obtain ⟨cov, rfl⟩ := hx2.exists_of
      obtain ⟨zv, rfl⟩ := z.exists_of hz.1
      obtain ⟨R, rfl⟩ := hz.2.1.exists_of
      rw [DMat.PD_of] at hx3
      have hRp := hz.2.2
      rw [DMat.PD_of] at hRp
      obtain ⟨C, b, haff⟩ := hC j (E1.meas j) dt (hsm.1.meas j)
      obtain ⟨m', e1, e2, e3⟩ := ukfCorrect_affine hso (hmc j) (hmo j) hllt junk hsm.2.2.1 hsm.2.1.sys (hsm.2.1.meas j) hRp hmc2 xv zv
        hx3 dt (fun q t ⟨s, k1, k2, k3⟩ => haff q t ⟨s, k1, (hsm.2.2.2.2 j).trans k2, k3⟩) (E2.setMeas j)
      have g3 : (ukfPlant llt junk sc mc).myCorrect (E2, e'.2) (.of xv) (.of cov) (.of zv) j dt
          = some (.of (xv + gain cov C R *ᵥ (zv - (C *ᵥ xv + b))), .of (post cov C R), E2.setMeas j m', e'.2) := by
        rw [ukfPlant_myCorrect, e1]; rfl
      obtain ⟨r, r1, r2⟩ := OptP.elim trivial hcorr
      have hr : r = _ := Option.some.inj (r1.symm.trans g3)
      rw [hr] at r2
      obtain ⟨t1, k1, k2, k3⟩ := (hmc j).update (E1.meas j) (.of xv) dt (hsm.1.meas j) rfl
      have k4 := haff xv t1 ⟨_, hsm.1.meas j, Meas.SameConfig.refl _, k1⟩
      have k5 : (E1.meas j).update (mc j) (.of xv) dt = some t1 := by
        unfold Meas.update; rw [if_pos (by rw [(hsm.1.meas j).states])]; exact k1
      have g4 : (ekfPlant sc mc).myCorrect E1 (.of xv) (.of cov) (.of zv) j dt
          = some (.of (xv + gain cov C R *ᵥ (zv - (C *ᵥ xv + b))), .of (post cov C R), E1.setMeas j t1) := by
        show ekfCorrect sc (mc j) E1.sys (E1.meas j) _ _ _ _ _ = _
        unfold ekfCorrect
        simp only [Option.bind_eq_bind, k5, Option.bind_some, k4.1, k4.2, k3.cov, hmc1,
          kalmanGain_of cov C R (pd_isUnit_det (innov_pd hx3.posSemidef C hRp)), (hmo j).sub, DVec.sub_of, DMat.mulVec_of, hso.add,
          DVec.add_of, shrinkCov_of]
        rfl
      refine optRel_of_eq g4 g3 ⟨rfl, rfl, r2.1, ?_⟩
      exact hsm.setMeas j (hsm.1.setMeas j k2 k3) (hsm.2.1.setMeas j e2 e3) (k3.symm.trans ((hsm.2.2.2.2 j).trans e3))
    · intro x q hx
      generalize e.setMeas j ((e.meas j).withCov c) = E1 at hsm ⊢
      generalize e'.1.setMeas j ((e'.1.meas j).withCov c) = E2 at hsm ⊢
      obtain ⟨t1, k1, k2, k3⟩ := (hmc j).stationary (E1.meas j) x z (hsm.1.meas j) hx.1.1 hz.1
      obtain ⟨t2, l1, l2, l3⟩ := (hmc j).stationary (E2.meas j) x z (hsm.2.1.meas j) hx.1.1 hz.1
      refine optRel_of_eq (a := E1.setMeas j t1) (b := (E2.setMeas j t2, e'.2))
        (by show ((mc j).processStationary (E1.meas j) x z).map _ = _; rw [k1]; rfl)
        (by show ((((mc j).processStationary (E2.meas j) x z).map _).map _) = _; rw [l1]; rfl)
        ⟨hsm.setMeas j (hsm.1.setMeas j k2 k3) (hsm.2.1.setMeas j l2 l3) (k3.symm.trans ((hsm.2.2.2.2 j).trans l3)), ?_⟩
      obtain ⟨x', c', q1, q2⟩ := hsm.1.measMake j x q hx
      refine optRel_of_eq (a := (x', c')) (b := (x', c')) ?_ ?_ ⟨rfl, q2⟩
      · show ((E1.setMeas j t1).meas j).fm.makeStationary x q = _
        rw [Env.setMeas_meas, k3.fm]; exact q1
      · show ((E2.setMeas j t2).meas j).fm.makeStationary x q = _
        rw [Env.setMeas_meas, l3.fm, (hsm.2.2.2.2 j).fm]; exact q1

namespace Props

/-- **C35 (UKF = EKF on linear models, every history).**  An EKF and a UKF with the same models, which are linear (affine in
the state), the same parameters and the same positive definite initial estimate, positive definite process noise that reaches
every state, and admissible sigma point parameters (which the user may change between calls): every sequence of well-sized API
calls succeeds on both, and all remembered states, covariances and time stamps are equal.  With C33 both equal the
Kalman filter. -/
theorem C35_ukf_eq_ekf [TimeOps T] [SaneTime T] {llt : DMat → Option DMat} (hllt : LltSpec llt) (junk : Nat → Nat → ℝ)
    {sc : SysClass T NonlinSysData X}
    {mc : K → MeasClass T NonlinMeasData Y} (hsc : SysContract NonlinSysData.Sized sc) (hso : sc.PlainOps)
    (hsp : sc.SpreadsNoise NonlinSysData.Sized n m p) (hmc : ∀ j, MeasContract NonlinMeasData.Sized (mc j))
    (hmo : ∀ j, (mc j).PlainOps) (kd : K → Nat) (hA : sc.Affine n m) (hC : ∀ j, (mc j).Affine n (kd j))
    (sort : List (FilterInput T DVec DMat K) → List (FilterInput T DVec DMat K)) (hsort : ∀ l, (sort l).Perm l)
    (params : Params T) (e : Env K NonlinSysData X NonlinMeasData Y) (sp : SigmaParams) (hsig : SigmaAdmissible n sp)
    (he : e.Ok NonlinSysData.Sized NonlinMeasData.Sized (NoisePD p) (EstimatePD n) n m kd)
    (x : DVec) (c : DMat) (t : T) (hx : EstimatePD n x c)
    {ops : List (Op T DVec DMat K (Env K NonlinSysData X NonlinMeasData Y))}
    {ops' : List (Op T DVec DMat K (Env K NonlinSysData X NonlinMeasData Y × SigmaParams))}
    (hops : List.Forall₂ (OpSame (ekfPlant sc mc) True (EstimatePD n) (SameModels n m p kd) (fun u => u.size = m)
      (fun z c k => z.size = kd k ∧ c.Is (kd k) (kd k) ∧ c.PD)) ops ops') :
    ∃ g g', (Filter.construct (ekfPlant sc mc) params e x c t).run (ekfPlant sc mc) sort ops = some g ∧
      (Filter.construct (ukfPlant llt junk sc mc) params (e, sp) x c t).run (ukfPlant llt junk sc mc) sort ops' = some g' ∧
      g.retained.map (fun s => (s.x, s.covariance, s.timestamp)) = g'.retained.map (fun s => (s.x, s.covariance, s.timestamp)) := by
  have h := (affine_plantSim hllt junk hsc hso hsp hmc hmo kd hA hC).run sort hsort
    { params := params, state := (Filter.construct (ekfPlant sc mc) params e x c t).state, history := [],
      prevControl := DVec.empty, prevControlCov := DMat.empty, controlQueue := [], measQueue := [], env := e }
    { params := params, state := (Filter.construct (ukfPlant llt junk sc mc) params (e, sp) x c t).state, history := [],
      prevControl := DVec.empty, prevControlCov := DMat.empty, controlQueue := [], measQueue := [], env := (e, sp) }
    rfl ⟨he, he, hsig, Sys.SameConfig.refl _, fun _ => Meas.SameConfig.refl _⟩ rfl rfl
    (fun h => absurd h (Nat.lt_irrefl 0)) x c t hx hops
  have h' : OptRel True _ ((Filter.construct (ekfPlant sc mc) params e x c t).run (ekfPlant sc mc) sort ops)
      ((Filter.construct (ukfPlant llt junk sc mc) params (e, sp) x c t).run (ukfPlant llt junk sc mc) sort ops') := h
  rcases OptRel.elim h' with ⟨_, _, h1⟩ | ⟨g, g', h1, h2, h3⟩
  · exact absurd trivial h1
  · exact ⟨g, g', h1, h2, h3.2.2.2.2⟩

/-- **C35 (UKF = Kalman filter on linear models, every history).**  A Kalman filter, and a UKF whose nonlinear models are the
same linear models written as `g() = A x + B u`, `h() = C x` (`LinearSys`, `LinearMeas`: Props/Linear.lean; the common
description `e` of the UKF's models is the EKF's).  The calls correspond through the EKF's calls `ops`.  Every sequence of
well-sized API calls succeeds on both, and all remembered states, covariances and time stamps are equal. -/
theorem C35_ukf_eq_kf [TimeOps T] [SaneTime T] {llt : DMat → Option DMat} (hllt : LltSpec llt) (junk : Nat → Nat → ℝ)
    {X0 Y0 : Type} {lsc : SysClass T LinSysData X0} {lmc : K → MeasClass T LinMeasData Y0}
    {sc : SysClass T NonlinSysData X} {RS} (hS : LinearSys lsc sc RS)
    {mc : K → MeasClass T NonlinMeasData Y}
    {RM : K → Meas LinMeasData Y0 → Meas NonlinMeasData Y → Prop} (hM : ∀ k, LinearMeas (lmc k) (mc k) (RM k))
    (hsc : SysContract NonlinSysData.Sized sc) (hso : sc.PlainOps)
    (hsp : sc.SpreadsNoise NonlinSysData.Sized n m p) (hmc : ∀ j, MeasContract NonlinMeasData.Sized (mc j))
    (hmo : ∀ j, (mc j).PlainOps) (kd : K → Nat) (hA : sc.Affine n m) (hC : ∀ j, (mc j).Affine n (kd j))
    (sort : List (FilterInput T DVec DMat K) → List (FilterInput T DVec DMat K)) (hsort : ∀ l, (sort l).Perm l)
    (params : Params T) (e0 : Env K LinSysData X0 LinMeasData Y0) (e : Env K NonlinSysData X NonlinMeasData Y)
    (he0 : LinearEnv RS RM e0 e) (sp : SigmaParams) (hsig : SigmaAdmissible n sp)
    (he : e.Ok NonlinSysData.Sized NonlinMeasData.Sized (NoisePD p) (EstimatePD n) n m kd)
    (x : DVec) (c : DMat) (t : T) (hx : EstimatePD n x c)
    {ops0 : List (Op T DVec DMat K (Env K LinSysData X0 LinMeasData Y0))}
    {ops : List (Op T DVec DMat K (Env K NonlinSysData X NonlinMeasData Y))}
    {ops' : List (Op T DVec DMat K (Env K NonlinSysData X NonlinMeasData Y × SigmaParams))}
    (hops0 : List.Forall₂ (SameCall RS RM lsc lmc) ops0 ops)
    (hops : List.Forall₂ (OpSame (ekfPlant sc mc) True (EstimatePD n) (SameModels n m p kd) (fun u => u.size = m)
      (fun z c k => z.size = kd k ∧ c.Is (kd k) (kd k) ∧ c.PD)) ops ops') :
    ∃ g g', (Filter.construct (kfPlant lsc lmc) params e0 x c t).run (kfPlant lsc lmc) sort ops0 = some g ∧
      (Filter.construct (ukfPlant llt junk sc mc) params (e, sp) x c t).run (ukfPlant llt junk sc mc) sort ops' = some g' ∧
      g.retained.map (fun s => (s.x, s.covariance, s.timestamp)) = g'.retained.map (fun s => (s.x, s.covariance, s.timestamp)) := by
  obtain ⟨g, g', h1, h2, h3⟩ := C35_ukf_eq_ekf hllt junk hsc hso hsp hmc hmo kd hA hC sort hsort params e sp hsig he x c t hx hops
  have h4 := C33_ekf_eq_kf hS hM sort hsort params e0 e he0 x c t hops0
  rw [h1] at h4
  cases h5 : (Filter.construct (kfPlant lsc lmc) params e0 x c t).run (kfPlant lsc lmc) sort ops0 with
  | none => rw [h5] at h4; exact h4.elim
  | some g0 => rw [h5] at h4; exact ⟨g0, g', rfl, h2, h4.trans h3⟩

open Examples in
/-- Non-vacuity: a leaky integrator and an affine sensor. -/
example (ops) (ops') (hops : List.Forall₂ (OpSame (ekfPlant (leakyClass 1) (fun _ : Unit => rulerClass (-2))) True (EstimatePD 1)
      (SameModels 1 1 1 (fun _ => 1)) (fun u => u.size = 1) (fun z c _ => z.size = 1 ∧ c.Is 1 1 ∧ c.PD)) ops ops')
    (sp : SigmaParams) (hsig : SigmaAdmissible 1 sp) :=
  C35_ukf_eq_ekf someLlt_spec (fun _ _ => 0) (leaky_contract 1) (plain_ops _) (leaky_spreads 1) (fun _ : Unit => ruler_contract (-2))
    (fun _ => plain_mops _) (fun _ => 1) (leaky_affine 1) (fun _ => ruler_affine (-2)) (fun l => l) (fun _ => .refl _)
    { allowPast := true, rewindHistory := true, historyWindow := 5 } quadEnv sp hsig quadEnv_ok (.zero 1) (.identity 1) 0 quad_estimate hops

open Examples in
theorem leaky_linear : LinearSys leakyLin (leakyClass 0) LeakyRel where
  config := fun _ _ h => h.1
  setRc := fun s s' R h _ => ⟨⟨h.1.1, h.1.2.1, h.1.2.2.1, rfl⟩, h.2⟩
  update := by
    rintro s s' x u dt ⟨⟨h1, h2, h3, h4⟩, h5, h6⟩ hx hu
    have h7 : s.stateSize = 1 := (congrArg FilterModel.stateDims h1).trans h5
    have h8 : s.controlDims = 1 := h2.trans h6
    obtain ⟨x, rfl⟩ := x.exists_of (hx.trans h7)
    obtain ⟨u, rfl⟩ := u.exists_of (hu.trans h8)
    have e1 : leakyLin.myUpdate s (.of x) (.of u) dt = some { s with der := ⟨mat1 (1 - dt), mat1 dt⟩
                                                                     P := ⟨1, s.Rp.rows, fun _ _ => 1⟩
                                                                     V := mat1 dt } := if_pos ⟨h7, h8⟩
    have e2 : (leakyClass 0).myUpdate s' (.of x) (.of u) dt = some
        { s' with der := ⟨vec1 ((1 - dt) * head (.of x) + (dt * head (.of u) + 0)), mat1 (1 - dt)⟩
                  P := ⟨1, s'.Rp.rows, fun _ _ => 1⟩
                  V := mat1 dt } := if_pos ⟨h5, h6⟩
    have e3 : (leakyLin.add : Sys LinSysData Unit → _) = fun _ => DVec.add := rfl
    simp only [e1, e2, e3, Option.bind_eq_bind, Option.bind_some, DMat.mulVec_of, DVec.add_of]
    refine ⟨⟨⟨h1, h2, h3, h4⟩, h5, h6⟩, ?_, rfl, ?_, rfl⟩
    · rw [DVec.of_inj]
      ext i
      fin_cases i
      simp [head_of, Matrix.mulVec, dotProduct]
    · show (⟨1, s'.Rp.rows, fun _ _ => 1⟩ : DMat) = ⟨1, s.Rp.rows, fun _ _ => 1⟩
      rw [h3]
  add := fun _ _ _ _ _ => rfl
  stationary := fun _ _ _ _ h => h

open Examples in
theorem ruler_linear : LinearMeas rulerLin (rulerClass 0) RulerRel where
  config := fun _ _ h => h.1
  setCov := fun s s' R h _ => ⟨⟨h.1.1, h.1.2.1, rfl⟩, h.2⟩
  update := by
    rintro s s' x dt ⟨⟨h1, h2, h3⟩, h5, h6⟩ hx
    have h7 : s.stateSize = 1 := (congrArg FilterModel.stateDims h1).trans h5
    have h8 : s.measDims = 1 := h2.trans h6
    obtain ⟨x, rfl⟩ := x.exists_of (hx.trans h7)
    have e1 : rulerLin.myUpdate s (.of x) dt = some { s with der := ⟨mat1 3⟩ } := if_pos ⟨h7, h8⟩
    have e2 : (rulerClass 0).myUpdate s' (.of x) dt = some { s' with der := ⟨vec1 (3 * head (.of x) + 0), mat1 3⟩ } :=
      if_pos ⟨h5, h6⟩
    simp only [e1, e2, Option.bind_eq_bind, Option.bind_some, DMat.mulVec_of]
    refine ⟨⟨⟨h1, h2, h3⟩, h5, h6⟩, ?_, rfl⟩
    rw [DVec.of_inj]
    ext i
    fin_cases i
    simp [head_of, Matrix.mulVec, dotProduct]
  sub := fun _ _ _ _ _ => rfl
  stationary := fun _ _ _ _ h => h

open Examples in
/-- Non-vacuity of `C35_ukf_eq_kf`. -/
example (ops0) (ops) (ops') (hops0 : List.Forall₂ (SameCall (K := Unit) LeakyRel (fun _ => RulerRel) leakyLin (fun _ => rulerLin)) ops0 ops)
    (hops : List.Forall₂ (OpSame (ekfPlant (leakyClass 0) (fun _ : Unit => rulerClass 0)) True (EstimatePD 1)
      (SameModels 1 1 1 (fun _ => 1)) (fun u => u.size = 1) (fun z c _ => z.size = 1 ∧ c.Is 1 1 ∧ c.PD)) ops ops')
    (sp : SigmaParams) (hsig : SigmaAdmissible 1 sp) :=
  C35_ukf_eq_kf someLlt_spec (fun _ _ => 0) leaky_linear (fun _ => ruler_linear) (leaky_contract 0) (plain_ops _) (leaky_spreads 0)
    (fun _ : Unit => ruler_contract 0)
    (fun _ => plain_mops _) (fun _ => 1) (leaky_affine 0) (fun _ => ruler_affine 0) (fun l => l) (fun _ => .refl _)
    { allowPast := true, rewindHistory := true, historyWindow := 5 }
    { sys := { Sys.constructLinear 1 1 1 () with Rp := .identity 1 }, meas := fun _ => Meas.constructLinear 1 1 () }
    quadEnv ⟨⟨⟨rfl, rfl, rfl, rfl⟩, rfl, rfl⟩, fun _ => ⟨⟨rfl, rfl, rfl⟩, rfl, rfl⟩⟩ sp hsig quadEnv_ok (.zero 1) (.identity 1) 0 quad_estimate
    hops0 hops

open Examples in
/-- ... and calls, including a change of the sigma point parameters of the UKF only. -/
example : List.Forall₂ (OpSame (ekfPlant (leakyClass 1) (fun _ : Unit => rulerClass (-2))) True (EstimatePD 1)
      (SameModels 1 1 1 (fun _ => 1)) (fun u => u.size = 1) (fun z c _ => z.size = 1 ∧ c.Is 1 1 ∧ c.PD))
    [.predictControl (.const 1 3) 2, .userModel some, .correct (.const 1 7) (.identity 1) 1 (some ())]
    [.predictControl (.const 1 3) 2, .userModel (ukfSetSigma 0.5 1 2), .correct (.const 1 7) (.identity 1) 1 (some ())] := by
  refine .cons ⟨rfl, rfl, fun _ => rfl⟩ (.cons ?_ (.cons ⟨rfl, rfl, rfl, rfl, (), rfl, rfl, ⟨rfl, rfl⟩, identity_pd 1⟩ .nil))
  intro e e' h
  obtain ⟨r, h1, h2⟩ := setSigma_wellFormed (T := ℝ) (K := Unit) (n := 1) (m := 1) (X := Unit) (Y := Unit) (kd := fun _ => 1)
    (N := NoisePD 1) (Q := EstimatePD 1) 0.5 1 2 (by norm_num) (by norm_num) e' ⟨h.2.1, h.2.2.1⟩
  have h3 : r.1 = e'.1 := by
    unfold ukfSetSigma at h1
    cases hq : setSigma e'.1.sys.der.g.size e'.1.sys.stateSize 0.5 1 2 with
    | none => rw [hq] at h1; cases h1
    | some q => rw [hq] at h1; injection h1 with h1; rw [← h1]
  refine optRel_of_eq rfl h1 ⟨h.1, h2.1, h2.2, ?_⟩
  rw [h3]
  exact ⟨h.2.2.2.1, h.2.2.2.2⟩

end Props
end StateEstimation
