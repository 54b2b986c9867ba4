import Verif.Lemmas.Vague

/-! # `correct` at any time not before the state's, as one step on what `predict` reports -/

set_option linter.unusedSectionVars false

namespace StateEstimation

open Filter Matrix Kalman

section
variable {T K X Y : Type} [LinearOrder T] [ExactTime T] [DecidableEq K] {n m k ns ks : Nat}

theorem yields_update {D : Type} {dz : Nat → Nat → D → Prop} {mc : MeasClass T D Y} (hmc : MeasContract dz mc) {me : Meas D Y}
    (hm : me.Sized dz n k) {x : Fin n → ℝ} {dt : T} {d : D → Prop} (hd : mc.Yields dz me k x dt d) (R : Matrix (Fin k) (Fin k) ℝ) :
    ∃ ms, (me.withCov (.of R)).update mc (.of x) dt = some ms ∧ ms.cov = .of R ∧ ms.Sized dz n k ∧ d ms.der := by
  have hsz : (me.withCov (.of R)).Sized dz n k := ⟨hm.states, hm.meas, hm.der, rfl, rfl⟩
  obtain ⟨ms, h1, h2, h3⟩ := hsz.update hmc (x := .of x) rfl dt
  refine ⟨ms, h1, h3.cov, h2, ?_⟩
  unfold Meas.update at h1
  rw [if_pos (by rw [hsz.states])] at h1
  exact hd _ _ hsz rfl rfl h1

theorem kf_correct_at {sc : SysClass T LinSysData X} {mc : K → MeasClass T LinMeasData Y} (hso : sc.PlainOps)
    (hmc : ∀ j, MeasContract LinMeasData.Sized (mc j)) (hmo : ∀ j, (mc j).PlainOps)
    (f q : Filter T DVec DMat K (Env K LinSysData X LinMeasData Y)) (j : K) (t : T) (ht : f.getStateTime ≤ t)
    (hs : f.env.sys.fm.checkStationary = false) (hst : (f.env.meas j).fm.checkStationary = false)
    (hq : f.predictTime (kfPlant sc mc) t = some q) {x : Fin n → ℝ} {P : Matrix (Fin n) (Fin n) ℝ} (hx : q.getState = .of x)
    (hP : q.getCovariance = .of P) (hm : (q.env.meas j).Sized LinMeasData.Sized n k) {C : Matrix (Fin k) (Fin n) ℝ}
    (hC : (mc j).Yields LinMeasData.Sized (q.env.meas j) k x (TimeOps.sub t f.getStateTime) fun d => d.C = .of C)
    (z : Fin k → ℝ) (R : Matrix (Fin k) (Fin k) ℝ) (hS : IsUnit (innov P C R).det) :
    ∃ g, f.correct (kfPlant sc mc) (.of z) (.of R) t (some j) = some g ∧ g.getStateTime = t ∧
      g.getState = .of (postState x P C R z) ∧ g.getCovariance = .of (post P C R) := by
  obtain ⟨ms, h1, h2, h3, h4⟩ := yields_update (hmc j) hm hC R
  have hstep : (kfPlant sc mc).myCorrect (q.env.setMeas j ((q.env.meas j).withCov (.of R))) q.getState q.getCovariance
      (.of z) j (TimeOps.sub t f.getStateTime)
      = some (.of (postState x P C R z), .of (post P C R), q.env.setMeas j ms) := by
    show kfCorrect sc (mc j) q.env.sys ((q.env.setMeas j ((q.env.meas j).withCov (.of R))).meas j) q.getState
        q.getCovariance (.of z) _ ((q.env.setMeas j ((q.env.meas j).withCov (.of R))).setMeas j) = _
    rw [Env.setMeas_meas, hx, hP]
    unfold kfCorrect
    simp only [Option.bind_eq_bind, h1, Option.bind_some, h4, h2, kalmanGain_of _ _ _ hS, DMat.mulVec_of, (hmo j).sub,
      DVec.sub_of, hso.add, DVec.add_of, shrinkCov_of, Env.setMeas_setMeas]
    rfl
  obtain ⟨g, g1, g2, g3, g4, _⟩ := correct_step_some (kf_keepsChecks sc mc) f j t hs hst ht hq
    (mkPlant_setMeasCov q.env j (.of R) (by rw [hm.meas]; exact ⟨rfl, rfl⟩)) hstep
  exact ⟨g, g1, g4, g2, g3⟩

theorem ekf_correct_at {sc : SysClass T NonlinSysData X} {mc : K → MeasClass T NonlinMeasData Y} (hso : sc.PlainOps)
    (hmc : ∀ j, MeasContract NonlinMeasData.Sized (mc j)) (hmo : ∀ j, (mc j).PlainOps)
    (f q : Filter T DVec DMat K (Env K NonlinSysData X NonlinMeasData Y)) (j : K) (t : T) (ht : f.getStateTime ≤ t)
    (hs : f.env.sys.fm.checkStationary = false) (hst : (f.env.meas j).fm.checkStationary = false)
    (hq : f.predictTime (ekfPlant sc mc) t = some q) {x : Fin n → ℝ} {P : Matrix (Fin n) (Fin n) ℝ} (hx : q.getState = .of x)
    (hP : q.getCovariance = .of P) (hm : (q.env.meas j).Sized NonlinMeasData.Sized n k) {h : Fin k → ℝ}
    {H : Matrix (Fin k) (Fin n) ℝ}
    (hH : (mc j).Yields NonlinMeasData.Sized (q.env.meas j) k x (TimeOps.sub t f.getStateTime) fun d => d = ⟨.of h, .of H⟩)
    (z : Fin k → ℝ) (R : Matrix (Fin k) (Fin k) ℝ) (hS : IsUnit (innov P H R).det) :
    ∃ g, f.correct (ekfPlant sc mc) (.of z) (.of R) t (some j) = some g ∧ g.getStateTime = t ∧
      g.getState = .of (x + gain P H R *ᵥ (z - h)) ∧ g.getCovariance = .of (post P H R) := by
  obtain ⟨ms, h1, h2, h3, h4⟩ := yields_update (hmc j) hm hH R
  have hstep : (ekfPlant sc mc).myCorrect (q.env.setMeas j ((q.env.meas j).withCov (.of R))) q.getState q.getCovariance
      (.of z) j (TimeOps.sub t f.getStateTime)
      = some (.of (x + gain P H R *ᵥ (z - h)), .of (post P H R), q.env.setMeas j ms) := by
    show ekfCorrect sc (mc j) q.env.sys ((q.env.setMeas j ((q.env.meas j).withCov (.of R))).meas j) q.getState
        q.getCovariance (.of z) _ ((q.env.setMeas j ((q.env.meas j).withCov (.of R))).setMeas j) = _
    rw [Env.setMeas_meas, hx, hP]
    unfold ekfCorrect
    simp only [Option.bind_eq_bind, h1, Option.bind_some, h4, h2, kalmanGain_of _ _ _ hS, DMat.mulVec_of, (hmo j).sub,
      DVec.sub_of, hso.add, DVec.add_of, shrinkCov_of, Env.setMeas_setMeas]
    rfl
  obtain ⟨g, g1, g2, g3, g4, _⟩ := correct_step_some (ekf_keepsChecks sc mc) f j t hs hst ht hq
    (mkPlant_setMeasCov q.env j (.of R) (by rw [hm.meas]; exact ⟨rfl, rfl⟩)) hstep
  exact ⟨g, g1, g4, g2, g3⟩

theorem kfvs_correct_at {sc : SysClass T LinSysData X} {mc : K → MeasClass T LinMeasData Y}
    (hsc : SysContract LinSysData.Sized sc) (hso : sc.PlainOps)
    (hmc : ∀ j, MeasContract LinMeasData.Sized (mc j)) (hmo : ∀ j, (mc j).PlainOps)
    (f q : Filter T DVec DMat K (Env K LinSysData X LinMeasData Y)) (j : K) (t : T) (ht : f.getStateTime ≤ t)
    (hs : f.env.sys.fm.checkStationary = false) (hst : (f.env.meas j).fm.checkStationary = false)
    (hq : f.predictTime (kfvsPlant sc mc) t = some q) {x : Fin n → ℝ} {P : Matrix (Fin n) (Fin n) ℝ} (hx : q.getState = .of x)
    (hP : q.getCovariance = .of P) (hss : q.env.sys.Sized LinSysData.Sized n m)
    (hm : (q.env.meas j).Sized LinMeasData.Sized n k) {σ : Fin ns → Fin n} (hσ : Selects q.env.sys.activeStates σ)
    {ρ : Fin ks → Fin k} (hρ : Selects (q.env.meas j).activeMeasurements ρ) (hPsd : (P.submatrix σ σ).PosSemidef)
    {C : Matrix (Fin k) (Fin n) ℝ}
    (hC : (mc j).Yields LinMeasData.Sized (q.env.meas j) k x (TimeOps.sub t f.getStateTime) fun d => d.C = .of C)
    (z : Fin k → ℝ) (R : Matrix (Fin k) (Fin k) ℝ) (hR : (R.submatrix ρ ρ).PosDef) :
    ∃ g x' P', f.correct (kfvsPlant sc mc) (.of z) (.of R) t (some j) = some g ∧ g.getStateTime = t ∧
      g.getState = .of x' ∧ g.getCovariance = .of P' ∧
      x' ∘ σ = postState (x ∘ σ) (P.submatrix σ σ) (C.submatrix ρ σ) (R.submatrix ρ ρ) (z ∘ ρ) ∧
      P'.submatrix σ σ = post (P.submatrix σ σ) (C.submatrix ρ σ) (R.submatrix ρ ρ) := by
  have hsz : ((q.env.meas j).withCov (.of R)).Sized LinMeasData.Sized n k := ⟨hm.states, hm.meas, hm.der, rfl, rfl⟩
  obtain ⟨ms, C', zf, dz, dx, x', P', a1, a2, a3, a4, a5, a6, a7, a8, a9, a10⟩ := kfvsCorrect_of hsc (hmc j) hss
    hsz hσ (ρ := ρ) hρ x P hPsd (R := R) rfl hR z (TimeOps.sub t f.getStateTime) (q.env.setMeas j)
  rw [(hmo j).sub, DVec.sub_of, Option.some.injEq, DVec.of_inj] at a7
  rw [hso.add, DVec.add_of, Option.some.injEq, DVec.of_inj] at a9
  have eC : C' = C := by
    have := hC _ _ hsz rfl rfl a2
    change ms.der.C = _ at this
    rw [a5] at this
    exact DMat.of_inj.mp this
  subst eC
  have hstep : (kfvsPlant sc mc).myCorrect (q.env.setMeas j ((q.env.meas j).withCov (.of R))) q.getState q.getCovariance
      (.of z) j (TimeOps.sub t f.getStateTime) = some (.of x', .of P', q.env.setMeas j ms) := by
    show kfvsCorrect sc (mc j) q.env.sys ((q.env.setMeas j ((q.env.meas j).withCov (.of R))).meas j) q.getState
      q.getCovariance (.of z) _ ((q.env.setMeas j ((q.env.meas j).withCov (.of R))).setMeas j) = _
    rw [Env.setMeas_meas, hx, hP]
    have : (q.env.setMeas j ((q.env.meas j).withCov (.of R))).setMeas j = q.env.setMeas j := by
      funext s; exact Env.setMeas_setMeas _ _ _ _
    rw [this]
    exact a1
  obtain ⟨g, g1, g2, g3, g4, _⟩ := correct_step_some (kfvs_keepsChecks sc mc) f j t hs hst ht hq
    (mkPlant_setMeasCov q.env j (.of R) (by rw [hm.meas]; exact ⟨rfl, rfl⟩)) hstep
  refine ⟨g, x', P', g1, g4, g2, g3, ?_, ?_⟩
  · funext i
    have e1 := a8.selected i
    have e2 : dz ∘ ρ = z ∘ ρ - C'.submatrix ρ σ *ᵥ (x ∘ σ) := by
      funext l
      have := a6.selected l
      simp only [Function.comp, Pi.sub_apply, ← a7, this]
    rw [e2] at e1
    simp only [Function.comp, ← a9, Pi.add_apply, e1]
    rfl
  · funext i l
    exact a10.selected i l

theorem ekfvs_correct_at {sc : SysClass T NonlinSysData X} {mc : K → MeasClass T NonlinMeasData Y}
    (hsc : SysContract NonlinSysData.Sized sc) (hso : sc.PlainOps)
    (hmc : ∀ j, MeasContract NonlinMeasData.Sized (mc j)) (hmo : ∀ j, (mc j).PlainOps)
    (f q : Filter T DVec DMat K (Env K NonlinSysData X NonlinMeasData Y)) (j : K) (t : T) (ht : f.getStateTime ≤ t)
    (hs : f.env.sys.fm.checkStationary = false) (hst : (f.env.meas j).fm.checkStationary = false)
    (hq : f.predictTime (ekfvsPlant sc mc) t = some q) {x : Fin n → ℝ} {P : Matrix (Fin n) (Fin n) ℝ} (hx : q.getState = .of x)
    (hP : q.getCovariance = .of P) (hss : q.env.sys.Sized NonlinSysData.Sized n m)
    (hm : (q.env.meas j).Sized NonlinMeasData.Sized n k) {σ : Fin ns → Fin n} (hσ : Selects q.env.sys.activeStates σ)
    {ρ : Fin ks → Fin k} (hρ : Selects (q.env.meas j).activeMeasurements ρ) (hPsd : (P.submatrix σ σ).PosSemidef)
    {h : Fin k → ℝ} {H : Matrix (Fin k) (Fin n) ℝ}
    (hH : (mc j).Yields NonlinMeasData.Sized (q.env.meas j) k x (TimeOps.sub t f.getStateTime) fun d => d = ⟨.of h, .of H⟩)
    (z : Fin k → ℝ) (R : Matrix (Fin k) (Fin k) ℝ) (hR : (R.submatrix ρ ρ).PosDef) :
    ∃ g x' P', f.correct (ekfvsPlant sc mc) (.of z) (.of R) t (some j) = some g ∧ g.getStateTime = t ∧
      g.getState = .of x' ∧ g.getCovariance = .of P' ∧
      x' ∘ σ = x ∘ σ + gain (P.submatrix σ σ) (H.submatrix ρ σ) (R.submatrix ρ ρ) *ᵥ (z ∘ ρ - h ∘ ρ) ∧
      P'.submatrix σ σ = post (P.submatrix σ σ) (H.submatrix ρ σ) (R.submatrix ρ ρ) := by
  have hsz : ((q.env.meas j).withCov (.of R)).Sized NonlinMeasData.Sized n k := ⟨hm.states, hm.meas, hm.der, rfl, rfl⟩
  obtain ⟨ms, zh, H', dz, dx, x', P', a1, a2, a3, a4, a5, a7, a8, a9, a10⟩ := ekfvsCorrect_of hsc (hmc j) hss
    hsz hσ (ρ := ρ) hρ x P hPsd (R := R) rfl hR z (TimeOps.sub t f.getStateTime) (q.env.setMeas j)
  rw [(hmo j).sub, DVec.sub_of, Option.some.injEq, DVec.of_inj] at a7
  rw [hso.add, DVec.add_of, Option.some.injEq, DVec.of_inj] at a9
  have eC : h = zh ∧ H = H' := by
    have := hH _ _ hsz rfl rfl a2
    change ms.der = _ at this
    rw [a5, NonlinMeasData.mk.injEq, DVec.of_inj, DMat.of_inj] at this
    exact ⟨this.1.symm, this.2.symm⟩
  obtain ⟨rfl, rfl⟩ := eC
  have hstep : (ekfvsPlant sc mc).myCorrect (q.env.setMeas j ((q.env.meas j).withCov (.of R))) q.getState q.getCovariance
      (.of z) j (TimeOps.sub t f.getStateTime) = some (.of x', .of P', q.env.setMeas j ms) := by
    show ekfvsCorrect sc (mc j) q.env.sys ((q.env.setMeas j ((q.env.meas j).withCov (.of R))).meas j) q.getState
      q.getCovariance (.of z) _ ((q.env.setMeas j ((q.env.meas j).withCov (.of R))).setMeas j) = _
    rw [Env.setMeas_meas, hx, hP]
    have : (q.env.setMeas j ((q.env.meas j).withCov (.of R))).setMeas j = q.env.setMeas j := by
      funext s; exact Env.setMeas_setMeas _ _ _ _
    rw [this]
    exact a1
  obtain ⟨g, g1, g2, g3, g4, _⟩ := correct_step_some (ekfvs_keepsChecks sc mc) f j t hs hst ht hq
    (mkPlant_setMeasCov q.env j (.of R) (by rw [hm.meas]; exact ⟨rfl, rfl⟩)) hstep
  refine ⟨g, x', P', g1, g4, g2, g3, ?_, ?_⟩
  · funext i
    have e1 := a8.selected i
    have e2 : dz ∘ ρ = z ∘ ρ - h ∘ ρ := by
      funext l
      simp only [Function.comp, Pi.sub_apply, ← a7]
    rw [e2] at e1
    simp only [Function.comp, ← a9, Pi.add_apply, e1]
  · funext i l
    exact a10.selected i l

end
end StateEstimation
