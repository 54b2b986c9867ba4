import Verif.Lemmas.Vague
import Verif.Props.Kalman

/-!
# C117: a measurement with a very large covariance is ignored

For all six filter classes: as the covariance handed in with a measurement grows, the estimate after the correction tends to the
estimate without it.
-/

set_option linter.unusedSectionVars false

namespace StateEstimation
namespace Props

open Filter Matrix Kalman Sigma

section
variable {T K X Y : Type} [LinearOrder T] [ExactTime T] [DecidableEq K] {n m k ns ks : Nat}

private theorem entry_vec {σ : Fin ns → Fin n} {v : Fin ns → ℝ} {dx : Fin n → ℝ} (h : OverwritesVec σ v 0 dx) {ε : ℝ} (hε : 0 < ε)
    (hv : ∀ i, |v i| ≤ ε) (a : Fin n) : |dx a| ≤ ε := by
  by_cases ha : ∃ i, σ i = a
  · obtain ⟨i, rfl⟩ := ha
    rw [h.selected]; exact hv i
  · rw [h.others a fun i hi => ha ⟨i, hi⟩]
    simpa using hε.le

private theorem entry_mat {σ : Fin ns → Fin n} {B : Matrix (Fin ns) (Fin ns) ℝ} {P P' : Matrix (Fin n) (Fin n) ℝ}
    (h : OverwritesMat σ σ B P P') {ε : ℝ} (hε : 0 < ε) (hB : ∀ i j, |B i j - P.submatrix σ σ i j| ≤ ε) (a b : Fin n) :
    |P' a b - P a b| ≤ ε := by
  by_cases ha : ∃ i j, σ i = a ∧ σ j = b
  · obtain ⟨i, j, rfl, rfl⟩ := ha
    rw [h.selected]; exact hB i j
  · rw [h.others a b fun i j hij => ha ⟨i, j, hij⟩]
    simpa using hε.le

private theorem sized_cov {D : Type} {dz : Nat → Nat → D → Prop} {me : Meas D Y} (hm : me.Sized dz n k) (R : Matrix (Fin k) (Fin k) ℝ) :
    (me.withCov (.of R)).Sized dz n k := ⟨hm.states, hm.meas, hm.der, rfl, rfl⟩

/-- **C117 (Kalman filter).**  `t` is not before the state's time, neither model tests for stationarity, `predict(t)` reports
`x`, `P` (positive semidefinite); the sensor's matrix does not depend on the covariance set; `R0` is positive definite.  Then
`correct(z, r • R0, t, sensor)` tends to `x`, `P` as `r` grows. -/
theorem C117_kf {sc : SysClass T LinSysData X} {mc : K → MeasClass T LinMeasData Y} (hso : sc.PlainOps)
    (hmc : ∀ j, MeasContract LinMeasData.Sized (mc j)) (hmo : ∀ j, (mc j).PlainOps)
    (f q : Filter T DVec DMat K (Env K LinSysData X LinMeasData Y)) (j : K) (t : T) (ht : f.getStateTime ≤ t)
    (hs : f.env.sys.fm.checkStationary = false) (hst : (f.env.meas j).fm.checkStationary = false)
    (hq : f.predictTime (kfPlant sc mc) t = some q) {x : Fin n → ℝ} {P : Matrix (Fin n) (Fin n) ℝ} (hx : q.getState = .of x)
    (hP : q.getCovariance = .of P) (hPsd : P.PosSemidef) (hm : (q.env.meas j).Sized LinMeasData.Sized n k)
    (hd : (mc j).Determines LinMeasData.Sized (q.env.meas j) n k LinMeasData.C) (z : Fin k → ℝ) {R0 : Matrix (Fin k) (Fin k) ℝ}
    (hR0 : R0.PosDef) : Fades (kfPlant sc mc) f j t z R0 x P := by
  obtain ⟨val, hval⟩ := hd
  have hup : ∀ R : Matrix (Fin k) (Fin k) ℝ, ∃ ms, ((q.env.meas j).withCov (.of R)).update (mc j) (.of x)
      (TimeOps.sub t f.getStateTime) = some ms ∧ ms.cov = .of R ∧ ms.Sized LinMeasData.Sized n k ∧
      ms.der.C = val x (TimeOps.sub t f.getStateTime) := by
    intro R
    obtain ⟨ms, h1, h2, h3⟩ := (sized_cov hm R).update (hmc j) (x := .of x) rfl (TimeOps.sub t f.getStateTime)
    refine ⟨ms, h1, h3.cov, h2, ?_⟩
    unfold Meas.update at h1
    rw [if_pos (by rw [(sized_cov hm R).states])] at h1
    exact hval _ _ _ _ (sized_cov hm R) rfl rfl h1
  obtain ⟨C, hC⟩ : ∃ C : Matrix (Fin k) (Fin n) ℝ, val x (TimeOps.sub t f.getStateTime) = .of C := by
    obtain ⟨ms, _, _, h2, h3⟩ := hup 1
    rw [← h3]
    exact h2.der.exists_of
  intro ε hε
  obtain ⟨r0, hr0, hr⟩ := gain_fades P C hR0 (z - C *ᵥ x) hε
  refine ⟨r0, hr0, fun r hle => ?_⟩
  obtain ⟨ms, h1, h2, h3, h4⟩ := hup (r • R0)
  have hS : IsUnit (innov P C (r • R0)).det := pd_isUnit_det (innov_pd hPsd C (hR0.smul (hr0.trans_le hle)))
  have hstep : (kfPlant sc mc).myCorrect (q.env.setMeas j ((q.env.meas j).withCov (.of (r • R0)))) q.getState q.getCovariance
      (.of z) j (TimeOps.sub t f.getStateTime)
      = some (.of (x + gain P C (r • R0) *ᵥ (z - C *ᵥ x)), .of (post P C (r • R0)), q.env.setMeas j ms) := by
    show kfCorrect sc (mc j) q.env.sys ((q.env.setMeas j ((q.env.meas j).withCov (.of (r • R0)))).meas j) q.getState
        q.getCovariance (.of z) _ ((q.env.setMeas j ((q.env.meas j).withCov (.of (r • R0)))).setMeas j) = _
    rw [Env.setMeas_meas, hx, hP]
    unfold kfCorrect
    simp only [Option.bind_eq_bind, h1, Option.bind_some, h4, hC, h2, kalmanGain_of _ _ _ hS, DMat.mulVec_of, (hmo j).sub,
      DVec.sub_of, hso.add, DVec.add_of, shrinkCov_of, Env.setMeas_setMeas]
    rfl
  obtain ⟨g, g1, g2, g3, g4, _⟩ := correct_step_some (kf_keepsChecks sc mc) f j t hs hst ht hq
    (mkPlant_setMeasCov q.env j (.of (r • R0)) (by rw [hm.meas]; exact ⟨rfl, rfl⟩)) hstep
  refine ⟨g, _, _, g1, g4, g2, g3, fun a => ?_, (hr r hle).2⟩
  simpa using (hr r hle).1 a

/-- **C117 (EKF).**  The sensor's predicted measurement and Jacobian do not depend on the covariance set. -/
theorem C117_ekf {sc : SysClass T NonlinSysData X} {mc : K → MeasClass T NonlinMeasData Y} (hso : sc.PlainOps)
    (hmc : ∀ j, MeasContract NonlinMeasData.Sized (mc j)) (hmo : ∀ j, (mc j).PlainOps)
    (f q : Filter T DVec DMat K (Env K NonlinSysData X NonlinMeasData Y)) (j : K) (t : T) (ht : f.getStateTime ≤ t)
    (hs : f.env.sys.fm.checkStationary = false) (hst : (f.env.meas j).fm.checkStationary = false)
    (hq : f.predictTime (ekfPlant sc mc) t = some q) {x : Fin n → ℝ} {P : Matrix (Fin n) (Fin n) ℝ} (hx : q.getState = .of x)
    (hP : q.getCovariance = .of P) (hPsd : P.PosSemidef) (hm : (q.env.meas j).Sized NonlinMeasData.Sized n k)
    (hd : (mc j).Determines NonlinMeasData.Sized (q.env.meas j) n k id) (z : Fin k → ℝ) {R0 : Matrix (Fin k) (Fin k) ℝ}
    (hR0 : R0.PosDef) : Fades (ekfPlant sc mc) f j t z R0 x P := by
  obtain ⟨val, hval⟩ := hd
  have hup : ∀ R : Matrix (Fin k) (Fin k) ℝ, ∃ ms, ((q.env.meas j).withCov (.of R)).update (mc j) (.of x)
      (TimeOps.sub t f.getStateTime) = some ms ∧ ms.cov = .of R ∧ ms.Sized NonlinMeasData.Sized n k ∧
      ms.der = val x (TimeOps.sub t f.getStateTime) := by
    intro R
    obtain ⟨ms, h1, h2, h3⟩ := (sized_cov hm R).update (hmc j) (x := .of x) rfl (TimeOps.sub t f.getStateTime)
    refine ⟨ms, h1, h3.cov, h2, ?_⟩
    unfold Meas.update at h1
    rw [if_pos (by rw [(sized_cov hm R).states])] at h1
    exact hval _ _ _ _ (sized_cov hm R) rfl rfl h1
  obtain ⟨h, H, hH⟩ : ∃ (h : Fin k → ℝ) (H : Matrix (Fin k) (Fin n) ℝ),
      val x (TimeOps.sub t f.getStateTime) = ⟨.of h, .of H⟩ := by
    obtain ⟨ms, _, _, h2, h3⟩ := hup 1
    rw [← h3]
    obtain ⟨h, e1⟩ := ms.der.h.exists_of h2.der.1
    obtain ⟨H, e2⟩ := h2.der.2.exists_of
    exact ⟨h, H, by rw [← e1, ← e2]⟩
  intro ε hε
  obtain ⟨r0, hr0, hr⟩ := gain_fades P H hR0 (z - h) hε
  refine ⟨r0, hr0, fun r hle => ?_⟩
  obtain ⟨ms, h1, h2, h3, h4⟩ := hup (r • R0)
  have hS : IsUnit (innov P H (r • R0)).det := pd_isUnit_det (innov_pd hPsd H (hR0.smul (hr0.trans_le hle)))
  have hstep : (ekfPlant sc mc).myCorrect (q.env.setMeas j ((q.env.meas j).withCov (.of (r • R0)))) q.getState q.getCovariance
      (.of z) j (TimeOps.sub t f.getStateTime)
      = some (.of (x + gain P H (r • R0) *ᵥ (z - h)), .of (post P H (r • R0)), q.env.setMeas j ms) := by
    show ekfCorrect sc (mc j) q.env.sys ((q.env.setMeas j ((q.env.meas j).withCov (.of (r • R0)))).meas j) q.getState
        q.getCovariance (.of z) _ ((q.env.setMeas j ((q.env.meas j).withCov (.of (r • R0)))).setMeas j) = _
    rw [Env.setMeas_meas, hx, hP]
    unfold ekfCorrect
    simp only [Option.bind_eq_bind, h1, Option.bind_some, h4, hH, h2, kalmanGain_of _ _ _ hS, DMat.mulVec_of, (hmo j).sub,
      DVec.sub_of, hso.add, DVec.add_of, shrinkCov_of, Env.setMeas_setMeas]
    rfl
  obtain ⟨g, g1, g2, g3, g4, _⟩ := correct_step_some (ekf_keepsChecks sc mc) f j t hs hst ht hq
    (mkPlant_setMeasCov q.env j (.of (r • R0)) (by rw [hm.meas]; exact ⟨rfl, rfl⟩)) hstep
  refine ⟨g, _, _, g1, g4, g2, g3, fun a => ?_, (hr r hle).2⟩
  simpa using (hr r hle).1 a

/-- **C117 (Kalman filter with variable states)**, for any active states and measurements (no index twice). -/
theorem C117_kf_vs {sc : SysClass T LinSysData X} {mc : K → MeasClass T LinMeasData Y}
    (hsc : SysContract LinSysData.Sized sc) (hso : sc.PlainOps)
    (hmc : ∀ j, MeasContract LinMeasData.Sized (mc j)) (hmo : ∀ j, (mc j).PlainOps)
    (f q : Filter T DVec DMat K (Env K LinSysData X LinMeasData Y)) (j : K) (t : T) (ht : f.getStateTime ≤ t)
    (hs : f.env.sys.fm.checkStationary = false) (hst : (f.env.meas j).fm.checkStationary = false)
    (hq : f.predictTime (kfvsPlant sc mc) t = some q) {x : Fin n → ℝ} {P : Matrix (Fin n) (Fin n) ℝ} (hx : q.getState = .of x)
    (hP : q.getCovariance = .of P) (hss : q.env.sys.Sized LinSysData.Sized n m)
    (hm : (q.env.meas j).Sized LinMeasData.Sized n k) {σ : Fin ns → Fin n} (hσ : Selects q.env.sys.activeStates σ)
    {ρ : Fin ks → Fin k} (hρ : Selects (q.env.meas j).activeMeasurements ρ) (hPsd : (P.submatrix σ σ).PosSemidef)
    (hd : (mc j).Determines LinMeasData.Sized (q.env.meas j) n k LinMeasData.C) (z : Fin k → ℝ) {R0 : Matrix (Fin k) (Fin k) ℝ}
    (hR0 : R0.PosDef) : Fades (kfvsPlant sc mc) f j t z R0 x P := by
  obtain ⟨val, hval⟩ := hd
  have hRs : (R0.submatrix ρ ρ).PosDef := hR0.submatrix hρ.inj
  have hstep : ∀ r : ℝ, 0 < r → ∃ ms, ∃ (C : Matrix (Fin k) (Fin n) ℝ) (zf dz : Fin k → ℝ) (dx x' : Fin n → ℝ)
      (P' : Matrix (Fin n) (Fin n) ℝ),
      (kfvsPlant sc mc).myCorrect (q.env.setMeas j ((q.env.meas j).withCov (.of (r • R0)))) q.getState q.getCovariance
        (.of z) j (TimeOps.sub t f.getStateTime) = some (.of x', .of P', q.env.setMeas j ms) ∧
      val x (TimeOps.sub t f.getStateTime) = .of C ∧
      OverwritesVec ρ (C.submatrix ρ σ *ᵥ (x ∘ σ)) 0 zf ∧ z - zf = dz ∧
      OverwritesVec σ (gain (P.submatrix σ σ) (C.submatrix ρ σ) (r • R0.submatrix ρ ρ) *ᵥ (dz ∘ ρ)) 0 dx ∧
      x + dx = x' ∧ OverwritesMat σ σ (post (P.submatrix σ σ) (C.submatrix ρ σ) (r • R0.submatrix ρ ρ)) P P' := by
    intro r hr
    obtain ⟨ms, C, zf, dz, dx, x', P', a1, a2, a3, a4, a5, a6, a7, a8, a9, a10⟩ := kfvsCorrect_of hsc (hmc j) hss
      (sized_cov hm (r • R0)) hσ (ρ := ρ) hρ x P hPsd (R := r • R0) rfl (hRs.smul hr) z (TimeOps.sub t f.getStateTime)
      (q.env.setMeas j)
    rw [(hmo j).sub, DVec.sub_of, Option.some.injEq, DVec.of_inj] at a7
    rw [hso.add, DVec.add_of, Option.some.injEq, DVec.of_inj] at a9
    refine ⟨ms, C, zf, dz, dx, x', P', ?_, ?_, a6, a7, a8, a9, a10⟩
    · show kfvsCorrect sc (mc j) q.env.sys ((q.env.setMeas j ((q.env.meas j).withCov (.of (r • R0)))).meas j) q.getState
        q.getCovariance (.of z) _ ((q.env.setMeas j ((q.env.meas j).withCov (.of (r • R0)))).setMeas j) = _
      rw [Env.setMeas_meas, hx, hP]
      have : (q.env.setMeas j ((q.env.meas j).withCov (.of (r • R0)))).setMeas j = q.env.setMeas j := by
        funext s; exact Env.setMeas_setMeas _ _ _ _
      rw [this]
      exact a1
    · rw [← a5]
      exact (hval _ _ _ _ (sized_cov hm (r • R0)) rfl rfl a2).symm
  obtain ⟨_, C, zf, _, _, _, _, _, hC, hzf, _⟩ := hstep 1 one_pos
  intro ε hε
  obtain ⟨r0, hr0, hr⟩ := gain_fades (P.submatrix σ σ) (C.submatrix ρ σ) hRs ((z - zf) ∘ ρ) hε
  refine ⟨r0, hr0, fun r hle => ?_⟩
  obtain ⟨ms, C', zf', dz, dx, x', P', a1, a2, a3, a4, a5, a6, a7⟩ := hstep r (hr0.trans_le hle)
  have e1 : C' = C := DMat.of_inj.mp (a2.symm.trans hC)
  subst e1
  have e2 : zf' = zf := a3.eq hzf
  subst e2
  subst a4
  obtain ⟨g, g1, g2, g3, g4, _⟩ := correct_step_some (kfvs_keepsChecks sc mc) f j t hs hst ht hq
    (mkPlant_setMeasCov q.env j (.of (r • R0)) (by rw [hm.meas]; exact ⟨rfl, rfl⟩)) a1
  refine ⟨g, x', P', g1, g4, g2, g3, fun a => ?_, entry_mat a7 hε (hr r hle).2⟩
  rw [← a6]
  simpa using entry_vec a5 hε (hr r hle).1 a

/-- **C117 (EKF with variable states).** -/
theorem C117_ekf_vs {sc : SysClass T NonlinSysData X} {mc : K → MeasClass T NonlinMeasData Y}
    (hsc : SysContract NonlinSysData.Sized sc) (hso : sc.PlainOps)
    (hmc : ∀ j, MeasContract NonlinMeasData.Sized (mc j)) (hmo : ∀ j, (mc j).PlainOps)
    (f q : Filter T DVec DMat K (Env K NonlinSysData X NonlinMeasData Y)) (j : K) (t : T) (ht : f.getStateTime ≤ t)
    (hs : f.env.sys.fm.checkStationary = false) (hst : (f.env.meas j).fm.checkStationary = false)
    (hq : f.predictTime (ekfvsPlant sc mc) t = some q) {x : Fin n → ℝ} {P : Matrix (Fin n) (Fin n) ℝ} (hx : q.getState = .of x)
    (hP : q.getCovariance = .of P) (hss : q.env.sys.Sized NonlinSysData.Sized n m)
    (hm : (q.env.meas j).Sized NonlinMeasData.Sized n k) {σ : Fin ns → Fin n} (hσ : Selects q.env.sys.activeStates σ)
    {ρ : Fin ks → Fin k} (hρ : Selects (q.env.meas j).activeMeasurements ρ) (hPsd : (P.submatrix σ σ).PosSemidef)
    (hd : (mc j).Determines NonlinMeasData.Sized (q.env.meas j) n k id) (z : Fin k → ℝ) {R0 : Matrix (Fin k) (Fin k) ℝ}
    (hR0 : R0.PosDef) : Fades (ekfvsPlant sc mc) f j t z R0 x P := by
  obtain ⟨val, hval⟩ := hd
  have hRs : (R0.submatrix ρ ρ).PosDef := hR0.submatrix hρ.inj
  have hstep : ∀ r : ℝ, 0 < r → ∃ ms, ∃ (zh : Fin k → ℝ) (H : Matrix (Fin k) (Fin n) ℝ) (dz : Fin k → ℝ) (dx x' : Fin n → ℝ)
      (P' : Matrix (Fin n) (Fin n) ℝ),
      (ekfvsPlant sc mc).myCorrect (q.env.setMeas j ((q.env.meas j).withCov (.of (r • R0)))) q.getState q.getCovariance
        (.of z) j (TimeOps.sub t f.getStateTime) = some (.of x', .of P', q.env.setMeas j ms) ∧
      val x (TimeOps.sub t f.getStateTime) = ⟨.of zh, .of H⟩ ∧ z - zh = dz ∧
      OverwritesVec σ (gain (P.submatrix σ σ) (H.submatrix ρ σ) (r • R0.submatrix ρ ρ) *ᵥ (dz ∘ ρ)) 0 dx ∧
      x + dx = x' ∧ OverwritesMat σ σ (post (P.submatrix σ σ) (H.submatrix ρ σ) (r • R0.submatrix ρ ρ)) P P' := by
    intro r hr
    obtain ⟨ms, zh, H, dz, dx, x', P', a1, a2, a3, a4, a5, a7, a8, a9, a10⟩ := ekfvsCorrect_of hsc (hmc j) hss
      (sized_cov hm (r • R0)) hσ (ρ := ρ) hρ x P hPsd (R := r • R0) rfl (hRs.smul hr) z (TimeOps.sub t f.getStateTime)
      (q.env.setMeas j)
    rw [(hmo j).sub, DVec.sub_of, Option.some.injEq, DVec.of_inj] at a7
    rw [hso.add, DVec.add_of, Option.some.injEq, DVec.of_inj] at a9
    refine ⟨ms, zh, H, dz, dx, x', P', ?_, ?_, a7, a8, a9, a10⟩
    · show ekfvsCorrect sc (mc j) q.env.sys ((q.env.setMeas j ((q.env.meas j).withCov (.of (r • R0)))).meas j) q.getState
        q.getCovariance (.of z) _ ((q.env.setMeas j ((q.env.meas j).withCov (.of (r • R0)))).setMeas j) = _
      rw [Env.setMeas_meas, hx, hP]
      have : (q.env.setMeas j ((q.env.meas j).withCov (.of (r • R0)))).setMeas j = q.env.setMeas j := by
        funext s; exact Env.setMeas_setMeas _ _ _ _
      rw [this]
      exact a1
    · rw [← a5]
      exact (hval _ _ _ _ (sized_cov hm (r • R0)) rfl rfl a2).symm
  obtain ⟨_, zh, H, _, _, _, _, _, hC, _⟩ := hstep 1 one_pos
  intro ε hε
  obtain ⟨r0, hr0, hr⟩ := gain_fades (P.submatrix σ σ) (H.submatrix ρ σ) hRs ((z - zh) ∘ ρ) hε
  refine ⟨r0, hr0, fun r hle => ?_⟩
  obtain ⟨ms, zh', H', dz, dx, x', P', a1, a2, a4, a5, a6, a7⟩ := hstep r (hr0.trans_le hle)
  have e0 := a2.symm.trans hC
  rw [NonlinMeasData.mk.injEq, DVec.of_inj, DMat.of_inj] at e0
  obtain ⟨rfl, rfl⟩ := e0
  subst a4
  obtain ⟨g, g1, g2, g3, g4, _⟩ := correct_step_some (ekfvs_keepsChecks sc mc) f j t hs hst ht hq
    (mkPlant_setMeasCov q.env j (.of (r • R0)) (by rw [hm.meas]; exact ⟨rfl, rfl⟩)) a1
  refine ⟨g, x', P', g1, g4, g2, g3, fun a => ?_, entry_mat a7 hε (hr r hle).2⟩
  rw [← a6]
  simpa using entry_vec a5 hε (hr r hle).1 a

private theorem sigma_index {N j : Nat} (hj : j < 2 * N + 1) : j = 0 ∨ (∃ i < N, j = i + 1) ∨ ∃ i < N, j = i + 1 + N := by
  rcases Nat.eq_zero_or_pos j with h | h
  · exact Or.inl h
  · by_cases h2 : j ≤ N
    · exact Or.inr (Or.inl ⟨j - 1, by omega, by omega⟩)
    · exact Or.inr (Or.inr ⟨j - 1 - N, by omega, by omega⟩)

private theorem mean_congr {ι : Type} {N : Nat} (lam : ℝ) {y y' : Nat → ι → ℝ} (h : ∀ j < 2 * N + 1, y j = y' j) :
    mean N lam y = mean N lam y' := by
  unfold mean
  exact Finset.sum_congr rfl fun j hj => by rw [h j (Finset.mem_range.mp hj)]

private theorem cross_congr {ι κ : Type} {N : Nat} (lam d : ℝ) {q q' : Nat → ι → ℝ} {y y' : Nat → κ → ℝ} (a : ι → ℝ) (b : κ → ℝ)
    (hq : ∀ j < 2 * N + 1, q j = q' j) (h : ∀ j < 2 * N + 1, y j = y' j) : cross N lam d q y a b = cross N lam d q' y' a b := by
  unfold cross
  exact Finset.sum_congr rfl fun j hj => by rw [h j (Finset.mem_range.mp hj), hq j (Finset.mem_range.mp hj)]

private theorem image_val {mc : MeasClass T NonlinMeasData Y} {me : Meas NonlinMeasData Y} {val : (Fin n → ℝ) → T → DVec}
    (hval : ∀ (m' r : Meas NonlinMeasData Y) (x : Fin n → ℝ) (dt : T), m'.Sized NonlinMeasData.Sized n k → m'.fm = me.fm →
      m'.activeMeasurements = me.activeMeasurements → mc.myUpdate m' (.of x) dt = some r → r.der.h = val x dt) {R : DMat}
    {x : Fin n → ℝ} {dt : T} {y : Fin k → ℝ} (h : MeasImage mc n k (me.withCov R) (.of x) dt y) : val x dt = .of y := by
  obtain ⟨s', ⟨s, h1, h2, h3⟩, h4⟩ := h
  rw [← h4]
  exact (hval s s' x dt h1 h2.fm h2.activeMeasurements h3).symm

/-- **C117 (UKF)**: positive definite covariance, any sigma point parameters with `alpha² (n + kappa) > 0` and `beta ≥ alpha²`; the
sensor's predicted measurement does not depend on the covariance set. -/
theorem C117_ukf {llt : DMat → Option DMat} (hllt : LltSpec llt) (junk : Nat → Nat → ℝ) {sc : SysClass T NonlinSysData X}
    {mc : K → MeasClass T NonlinMeasData Y} (hso : sc.PlainOps)
    (hmc : ∀ j, MeasContract NonlinMeasData.Sized (mc j)) (hmo : ∀ j, (mc j).PlainOps)
    (f q : Filter T DVec DMat K (Env K NonlinSysData X NonlinMeasData Y × SigmaParams)) (j : K) (t : T) (ht : f.getStateTime ≤ t)
    (hs : f.env.1.sys.fm.checkStationary = false) (hst : (f.env.1.meas j).fm.checkStationary = false)
    (hq : f.predictTime (ukfPlant llt junk sc mc) t = some q) {x : Fin n → ℝ} {P : Matrix (Fin n) (Fin n) ℝ}
    (hx : q.getState = .of x) (hP : q.getCovariance = .of P) (hPd : P.PosDef) (hsig : SigmaAdmissible n q.env.2)
    (hss : q.env.1.sys.Sized NonlinSysData.Sized n m) (hm : (q.env.1.meas j).Sized NonlinMeasData.Sized n k)
    (hd : (mc j).Determines NonlinMeasData.Sized (q.env.1.meas j) n k NonlinMeasData.h) (z : Fin k → ℝ)
    {R0 : Matrix (Fin k) (Fin k) ℝ} (hR0 : R0.PosDef) : Fades (ukfPlant llt junk sc mc) f j t z R0 x P := by
  obtain ⟨val, hval⟩ := hd
  obtain ⟨lam, d, hlam, hd0, hsp⟩ := hsig.elim
  obtain ⟨L, hL, _⟩ := hllt.scaled hlam hPd
  have hstep : ∀ r : ℝ, ∃ ms, ∃ (qs : Nat → Fin n → ℝ) (y : Nat → Fin k → ℝ),
      qs 0 = x ∧ Symm n qs (colsOf L) ∧ val x (TimeOps.sub t f.getStateTime) = .of (y 0) ∧
      (∀ i < n, val (x + colsOf L i) (TimeOps.sub t f.getStateTime) = .of (y (i + 1)) ∧
        val (x - colsOf L i) (TimeOps.sub t f.getStateTime) = .of (y (i + 1 + n))) ∧
      (IsUnit (r • R0 + cross n lam d y y (mean n lam y) (mean n lam y)).det →
        (ukfPlant llt junk sc mc).myCorrect (q.env.1.setMeas j ((q.env.1.meas j).withCov (.of (r • R0))), q.env.2) q.getState
          q.getCovariance (.of z) j (TimeOps.sub t f.getStateTime)
        = some (.of (x + (cross n lam d qs y (qs 0) (mean n lam y) *
              (r • R0 + cross n lam d y y (mean n lam y) (mean n lam y))⁻¹) *ᵥ (z - mean n lam y)),
            .of (P - cross n lam d qs y (qs 0) (mean n lam y) * (r • R0 + cross n lam d y y (mean n lam y) (mean n lam y))⁻¹ *
              (r • R0 + cross n lam d y y (mean n lam y) (mean n lam y)) *
              (cross n lam d qs y (qs 0) (mean n lam y) * (r • R0 + cross n lam d y y (mean n lam y) (mean n lam y))⁻¹)ᵀ),
            (q.env.1.setMeas j ms, q.env.2))) := by
    intro r
    obtain ⟨ms, qs, y, R, a1, a2, a3, a4, a5, a6, a7, a8⟩ := ukfCorrect_of (d := d) hso (hmc j) (hmo j) junk hss
      (sized_cov hm (r • R0)) hL x z (TimeOps.sub t f.getStateTime) (q.env.1.setMeas j)
    have hR : r • R0 = R := DMat.of_inj.mp a3
    subst hR
    refine ⟨ms, qs, y, a4, a5, image_val hval a6, fun i hi => ⟨image_val hval (a7 i hi).1, image_val hval (a7 i hi).2⟩, fun hu => ?_⟩
    show (ukfCorrect llt junk sc (mc j) q.env.2 q.env.1.sys
      ((q.env.1.setMeas j ((q.env.1.meas j).withCov (.of (r • R0)))).meas j) q.getState q.getCovariance (.of z) _
      ((q.env.1.setMeas j ((q.env.1.meas j).withCov (.of (r • R0)))).setMeas j)).map _ = _
    have e : (q.env.1.setMeas j ((q.env.1.meas j).withCov (.of (r • R0)))).setMeas j = q.env.1.setMeas j := by
      funext s; exact Env.setMeas_setMeas _ _ _ _
    have e2 := a8 hu
    rw [← hsp] at e2
    rw [Env.setMeas_meas, hx, hP, e, e2]
    rfl
  obtain ⟨_, Q, W, hQ0, hQ, hW0, hW, _⟩ := hstep 1
  have hM := unscented_psd (n := n) hlam hd0 W
  intro ε hε
  obtain ⟨r0, hr0, hr⟩ := sigma_fades P (cross n lam d Q W (Q 0) (mean n lam W)) _ hM hR0 (z - mean n lam W) hε
  refine ⟨r0, hr0, fun r hle => ?_⟩
  obtain ⟨ms, qs, y, b1, b2, b3, b4, b5⟩ := hstep r
  have hy : ∀ i < 2 * n + 1, y i = W i := by
    intro i hi
    rcases sigma_index hi with rfl | ⟨i, h, rfl⟩ | ⟨i, h, rfl⟩
    · exact DVec.of_inj.mp (b3.symm.trans hW0)
    · exact DVec.of_inj.mp ((b4 i h).1.symm.trans (hW i h).1)
    · exact DVec.of_inj.mp ((b4 i h).2.symm.trans (hW i h).2)
  have hqs : ∀ i < 2 * n + 1, qs i = Q i := by
    intro i hi
    rcases sigma_index hi with rfl | ⟨i, h, rfl⟩ | ⟨i, h, rfl⟩
    · rw [b1, hQ0]
    · rw [(b2 i h).1, (hQ i h).1, b1, hQ0]
    · rw [(b2 i h).2, (hQ i h).2, b1, hQ0]
  rw [mean_congr lam hy, cross_congr lam d (mean n lam W) (mean n lam W) hy hy, b1, ← hQ0, cross_congr lam d (Q 0) (mean n lam W) hqs hy] at b5
  have hu : IsUnit (r • R0 + cross n lam d W W (mean n lam W) (mean n lam W)).det :=
    pd_isUnit_det (PosDef.add_posSemidef (hR0.smul (hr0.trans_le hle)) hM)
  obtain ⟨g, g1, g2, g3, g4, _⟩ := correct_step_some (ukf_keepsChecks llt junk sc mc) f j t hs hst ht hq
    (env := (q.env.1.setMeas j ((q.env.1.meas j).withCov (.of (r • R0))), q.env.2))
    (by
      have := mkPlant_setMeasCov (sc := sc) (mc := mc) (pr := fun _ _ _ _ _ => none) (co := fun _ _ _ _ _ _ => none) q.env.1 j
        (.of (r • R0)) (by rw [hm.meas]; exact ⟨rfl, rfl⟩)
      show (((q.env.1.meas j).setCovariance (.of (r • R0))).map (q.env.1.setMeas j)).map _ = _
      change ((q.env.1.meas j).setCovariance (.of (r • R0))).map (q.env.1.setMeas j) = _ at this
      rw [this]; rfl) (b5 hu)
  refine ⟨g, _, _, g1, g4, g2, g3, fun a => ?_, (hr r hle).2⟩
  have := (hr r hle).1 a
  simpa [hQ0] using this

/-- **C117 (UKF with variable states).** -/
theorem C117_ukf_vs {llt : DMat → Option DMat} (hllt : LltSpec llt) (junk : Nat → Nat → ℝ) {sc : SysClass T NonlinSysData X}
    {mc : K → MeasClass T NonlinMeasData Y} (hso : sc.PlainOps)
    (hmc : ∀ j, MeasContract NonlinMeasData.Sized (mc j)) (hmo : ∀ j, (mc j).PlainOps)
    (f q : Filter T DVec DMat K (Env K NonlinSysData X NonlinMeasData Y × SigmaParams)) (j : K) (t : T) (ht : f.getStateTime ≤ t)
    (hs : f.env.1.sys.fm.checkStationary = false) (hst : (f.env.1.meas j).fm.checkStationary = false)
    (hq : f.predictTime (ukfvsPlant llt junk sc mc) t = some q) {x : Fin n → ℝ} {P : Matrix (Fin n) (Fin n) ℝ}
    (hx : q.getState = .of x) (hP : q.getCovariance = .of P) (hsig : SigmaAdmissible ns q.env.2)
    (hss : q.env.1.sys.Sized NonlinSysData.Sized n m) (hm : (q.env.1.meas j).Sized NonlinMeasData.Sized n k)
    {σ : Fin ns → Fin n} (hσ : Selects q.env.1.sys.activeStates σ)
    {ρ : Fin ks → Fin k} (hρ : Selects (q.env.1.meas j).activeMeasurements ρ) (hPd : (P.submatrix σ σ).PosDef)
    (hd : (mc j).Determines NonlinMeasData.Sized (q.env.1.meas j) n k NonlinMeasData.h) (z : Fin k → ℝ)
    {R0 : Matrix (Fin k) (Fin k) ℝ} (hR0 : R0.PosDef) : Fades (ukfvsPlant llt junk sc mc) f j t z R0 x P := by
  obtain ⟨val, hval⟩ := hd
  obtain ⟨lam, d, hlam, hd0, hsp⟩ := hsig.elim
  obtain ⟨L, hL, _⟩ := hllt.scaled hlam hPd
  have hRs : (R0.submatrix ρ ρ).PosDef := hR0.submatrix hρ.inj
  have hstep : ∀ r : ℝ, ∃ ms, ∃ (qs : Nat → Fin n → ℝ) (y : Nat → Fin k → ℝ) (S : Matrix (Fin ks) (Fin ks) ℝ)
      (D : Matrix (Fin ns) (Fin ks) ℝ),
      qs 0 = x ∧ (∀ i < ns, qs (i + 1) = x + spread σ (colsOf L i) ∧ qs (i + 1 + ns) = x - spread σ (colsOf L i)) ∧
      val x (TimeOps.sub t f.getStateTime) = .of (y 0) ∧
      (∀ i < ns, val (x + spread σ (colsOf L i)) (TimeOps.sub t f.getStateTime) = .of (y (i + 1)) ∧
        val (x - spread σ (colsOf L i)) (TimeOps.sub t f.getStateTime) = .of (y (i + 1 + ns))) ∧
      S = r • R0.submatrix ρ ρ + cross ns lam d (fun j => y j ∘ ρ) (fun j => y j ∘ ρ) (mean ns lam y ∘ ρ) (mean ns lam y ∘ ρ) ∧
      D = cross ns lam d (fun j => qs j ∘ σ) (fun j => y j ∘ ρ) (x ∘ σ) (mean ns lam y ∘ ρ) ∧
      (IsUnit S.det → ∃ P' : Matrix (Fin n) (Fin n) ℝ,
        (ukfvsPlant llt junk sc mc).myCorrect (q.env.1.setMeas j ((q.env.1.meas j).withCov (.of (r • R0))), q.env.2) q.getState
          q.getCovariance (.of z) j (TimeOps.sub t f.getStateTime)
        = some (.of (x + spread σ ((D * S⁻¹) *ᵥ ((z - mean ns lam y) ∘ ρ))), .of P', (q.env.1.setMeas j ms, q.env.2)) ∧
        OverwritesMat σ σ (P.submatrix σ σ - D * S⁻¹ * S * (D * S⁻¹)ᵀ) P P') := by
    intro r
    obtain ⟨ms, qs, y, R, S, D, G, a1, a2, a3, a4, a5, a6, a7, a8, a9, a10, a11⟩ := ukfvsCorrect_of (d := d) hso (hmc j) (hmo j)
      junk hss (sized_cov hm (r • R0)) hσ (ρ := ρ) hρ hL x z (TimeOps.sub t f.getStateTime) (q.env.1.setMeas j)
    have hR : r • R0 = R := DMat.of_inj.mp a3
    subst hR
    subst a10
    refine ⟨ms, qs, y, S, D, a4, a5, image_val hval a6, fun i hi => ⟨image_val hval (a7 i hi).1, image_val hval (a7 i hi).2⟩, a8, a9,
      fun hu => ?_⟩
    obtain ⟨P', c1, c2⟩ := a11 hu
    refine ⟨P', ?_, c2⟩
    show (ukfvsCorrect llt junk sc (mc j) q.env.2 q.env.1.sys
      ((q.env.1.setMeas j ((q.env.1.meas j).withCov (.of (r • R0)))).meas j) q.getState q.getCovariance (.of z) _
      ((q.env.1.setMeas j ((q.env.1.meas j).withCov (.of (r • R0)))).setMeas j)).map _ = _
    have e : (q.env.1.setMeas j ((q.env.1.meas j).withCov (.of (r • R0)))).setMeas j = q.env.1.setMeas j := by
      funext s; exact Env.setMeas_setMeas _ _ _ _
    rw [← hsp] at c1
    rw [Env.setMeas_meas, hx, hP, e, c1]
    rfl
  obtain ⟨_, Q, W, _, _, hQ0, hQ, hW0, hW, _⟩ := hstep 1
  have hmr : ∀ y : Nat → Fin k → ℝ, mean ns lam y ∘ ρ = mean ns lam fun j => y j ∘ ρ := by
    intro y
    funext a
    simp [mean, Finset.sum_apply]
  have hM : (cross ns lam d (fun j => W j ∘ ρ) (fun j => W j ∘ ρ) (mean ns lam W ∘ ρ) (mean ns lam W ∘ ρ)).PosSemidef := by
    rw [hmr]
    exact unscented_psd (n := ns) hlam hd0 fun j => W j ∘ ρ
  intro ε hε
  obtain ⟨r0, hr0, hr⟩ := sigma_fades (P.submatrix σ σ)
    (cross ns lam d (fun j => Q j ∘ σ) (fun j => W j ∘ ρ) (x ∘ σ) (mean ns lam W ∘ ρ)) _ hM hRs ((z - mean ns lam W) ∘ ρ) hε
  refine ⟨r0, hr0, fun r hle => ?_⟩
  obtain ⟨ms, qs, y, S, D, b1, b2, b3, b4, b6, b7, b5⟩ := hstep r
  have hy : ∀ i < 2 * ns + 1, y i = W i := by
    intro i hi
    rcases sigma_index hi with rfl | ⟨i, h, rfl⟩ | ⟨i, h, rfl⟩
    · exact DVec.of_inj.mp (b3.symm.trans hW0)
    · exact DVec.of_inj.mp ((b4 i h).1.symm.trans (hW i h).1)
    · exact DVec.of_inj.mp ((b4 i h).2.symm.trans (hW i h).2)
  have hqs : ∀ i < 2 * ns + 1, qs i = Q i := by
    intro i hi
    rcases sigma_index hi with rfl | ⟨i, h, rfl⟩ | ⟨i, h, rfl⟩
    · rw [b1, hQ0]
    · rw [(b2 i h).1, (hQ i h).1]
    · rw [(b2 i h).2, (hQ i h).2]
  have hyr : ∀ i < 2 * ns + 1, (fun j => y j ∘ ρ) i = (fun j => W j ∘ ρ) i := fun i hi => by simp only [hy i hi]
  have hqr : ∀ i < 2 * ns + 1, (fun j => qs j ∘ σ) i = (fun j => Q j ∘ σ) i := fun i hi => by simp only [hqs i hi]
  rw [mean_congr lam hy, cross_congr lam d _ _ hyr hyr] at b6
  rw [mean_congr lam hy, cross_congr lam d _ _ hqr hyr] at b7
  rw [mean_congr lam hy] at b5
  have hu : IsUnit S.det := by
    rw [b6]
    exact pd_isUnit_det (PosDef.add_posSemidef (hRs.smul (hr0.trans_le hle)) hM)
  obtain ⟨P', c1, c2⟩ := b5 hu
  have hr' := hr r hle
  rw [← b6, ← b7] at hr'
  obtain ⟨g, g1, g2, g3, g4, _⟩ := correct_step_some (ukfvs_keepsChecks llt junk sc mc) f j t hs hst ht hq
    (env := (q.env.1.setMeas j ((q.env.1.meas j).withCov (.of (r • R0))), q.env.2))
    (by
      have := mkPlant_setMeasCov (sc := sc) (mc := mc) (pr := fun _ _ _ _ _ => none) (co := fun _ _ _ _ _ _ => none) q.env.1 j
        (.of (r • R0)) (by rw [hm.meas]; exact ⟨rfl, rfl⟩)
      show (((q.env.1.meas j).setCovariance (.of (r • R0))).map (q.env.1.setMeas j)).map _ = _
      change ((q.env.1.meas j).setCovariance (.of (r • R0))).map (q.env.1.setMeas j) = _ at this
      rw [this]; rfl) c1
  refine ⟨g, _, P', g1, g4, g2, g3, fun a => ?_, entry_mat c2 hε hr'.2⟩
  have := entry_vec (spread_overwrites hσ.inj _) hε hr'.1 a
  simpa using this

end

/-! ### A concrete case -/

/-- Non-vacuity: the constant-velocity filter, asked at its own time, with the position sensor. -/
example (z : Fin 1 → ℝ) : Fades (kfPlant Examples.cvClass fun _ : Unit => Examples.posClass) cvFilter () 0 z 1 (0 : Fin 2 → ℝ) 1 := by
  have e : cvFilter.predictTime (kfPlant Examples.cvClass fun _ : Unit => Examples.posClass) 0 = some cvFilter := by
    unfold predictTime
    rw [if_neg]
    rw [LawfulTime.lt_iff, not_lt]
    exact le_refl (0 : ℝ)
  refine C117_kf (Examples.plain_ops _) (fun _ => Examples.pos_contract) (fun _ => Examples.plain_mops _) cvFilter cvFilter () 0
    (le_refl (0 : ℝ)) rfl rfl e (x := 0) (P := 1) rfl rfl Matrix.PosSemidef.one
    ((Examples.cvEnv_ok (Q := EstimatePSD 2)).meas ()) ?_ z Matrix.PosDef.one
  refine ⟨fun _ _ => .of !![1, 0], fun m' r x dt hm' hf ha hr => ?_⟩
  change (if m'.stateSize = 2 ∧ m'.measDims = 1 then some { m' with der := (⟨.of !![1, 0]⟩ : LinMeasData) } else some m') = some r at hr
  rw [if_pos ⟨hm'.states, hm'.meas⟩, Option.some.injEq] at hr
  rw [← hr]

end Props
end StateEstimation
