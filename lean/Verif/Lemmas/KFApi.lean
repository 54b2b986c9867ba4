import Verif.Lemmas.KFSteps
import Verif.Lemmas.Api

/-! # `predict(u, t)` and `correct(z, R, t, m)` of the Kalman filter and the EKF, on well-sized arguments -/

set_option linter.unusedSectionVars false

namespace StateEstimation

open Matrix Kalman

variable {T K X Y : Type} {n m k p : Nat}

/-- The measurement model with the covariance passed to `correct`. -/
def Meas.withCov {D X : Type} (ms : Meas D X) (R : DMat) : Meas D X := { ms with cov := R }

theorem Env.setMeas_meas {K DS XS DM XM : Type} [DecidableEq K] (e : Env K DS XS DM XM) (k : K) (ms : Meas DM XM) :
    (e.setMeas k ms).meas k = ms := by
  unfold Env.setMeas; simp

theorem Env.setMeas_setMeas {K DS XS DM XM : Type} [DecidableEq K] (e : Env K DS XS DM XM) (k : K) (a b : Meas DM XM) :
    (e.setMeas k a).setMeas k b = e.setMeas k b := by
  unfold Env.setMeas
  congr 1
  funext j
  by_cases h : j = k <;> simp [h]

theorem mkPlant_setMeasCov {T K DS XS DM XM : Type} [DecidableEq K] {sc : SysClass T DS XS} {mc : K → MeasClass T DM XM}
    {pr co} (e : Env K DS XS DM XM) (j : K) (R : DMat) (h : R.Is (e.meas j).measDims (e.meas j).measDims) :
    (mkPlant sc mc pr co).setMeasCov e j R = some (e.setMeas j ((e.meas j).withCov R)) := by
  show (((e.meas j).setCovariance R).map _) = _
  unfold Meas.setCovariance
  rw [if_pos ⟨h.1, h.2⟩]; rfl

theorem mkPlant_setRc {T K DS XS DM XM : Type} [DecidableEq K] {sc : SysClass T DS XS} {mc : K → MeasClass T DM XM}
    {pr co} (e : Env K DS XS DM XM) (h : e.sys.Rc.Is e.sys.controlDims e.sys.controlDims) :
    (mkPlant sc mc pr co).setRc e ((mkPlant sc mc pr co).rc e) = some e := by
  show ((e.sys.setControlCovariance e.sys.Rc).map _) = _
  unfold Sys.setControlCovariance
  rw [if_pos ⟨h.1, h.2⟩]; rfl

variable [DecidableEq K] [LinearOrder T] [ExactTime T]

section KF
variable {sc : SysClass T LinSysData X} {mc : K → MeasClass T LinMeasData Y}

/-- `correct` of the Kalman filter at the current time. -/
theorem kf_correct_now (hsc : SysContract LinSysData.Sized sc) (hmc : ∀ j, MeasContract LinMeasData.Sized (mc j))
    (f : Filter T DVec DMat K (Env K LinSysData X LinMeasData Y)) (j : K)
    (hs : f.env.sys.Sized LinSysData.Sized n m) (hm : (f.env.meas j).Sized LinMeasData.Sized n k)
    {x : Fin n → ℝ} {P : Matrix (Fin n) (Fin n) ℝ} (hx : f.getState = .of x) (hP : f.getCovariance = .of P)
    (z : Fin k → ℝ) (R : Matrix (Fin k) (Fin k) ℝ) {C : Matrix (Fin k) (Fin n) ℝ} {ms : Meas LinMeasData Y}
    (hup : (mc j).myUpdate ((f.env.meas j).withCov (.of R)) (.of x) (TimeOps.sub f.getStateTime f.getStateTime) = some ms)
    (hC : ms.der.C = .of C) (hS : IsUnit (innov P C R).det)
    (hst : ((f.env.meas j).fm.checkStationary && (f.env.meas j).fm.isStationary (.of x) (.of z)) = false) :
    ∃ g, ∃ (dz : Fin k → ℝ) (x' : Fin n → ℝ), f.correct (kfPlant sc mc) (.of z) (.of R) f.getStateTime (some j) = some g ∧
      (mc j).sub ms (.of z) (.of (C *ᵥ x)) = some (.of dz) ∧
      sc.add f.env.sys (.of x) (.of (gain P C R *ᵥ dz)) = some (.of x') ∧
      g.getState = .of x' ∧ g.getCovariance = .of (post P C R) ∧ g.getStateTime = f.getStateTime ∧
      g.env = f.env.setMeas j ms ∧ g.prevControl = f.prevControl ∧ g.prevControlCov = f.prevControlCov ∧
      g.params = f.params := by
  have hms : ((f.env.meas j).withCov (.of R)).Sized LinMeasData.Sized n k := ⟨hm.states, hm.meas, hm.der, rfl, rfl⟩
  have hup' : ((f.env.meas j).withCov (.of R)).update (mc j) (.of x) (TimeOps.sub f.getStateTime f.getStateTime)
      = some ms := by
    unfold Meas.update
    rw [if_pos (by rw [hms.states])]; exact hup
  have hms' : ms.Sized LinMeasData.Sized n k ∧ ((f.env.meas j).withCov (.of R)).SameConfig ms := by
    obtain ⟨s', a1, a2, a3⟩ := (hmc j).update _ (.of x) (TimeOps.sub f.getStateTime f.getStateTime) hms rfl
    rw [a1] at hup; injection hup with hup; subst hup; exact ⟨a2, a3⟩
  have hcov : ms.cov = .of R := hms'.2.cov
  obtain ⟨dz, hdz, hdz2⟩ := (hmc j).sub ms (.of z) (.of (C *ᵥ x)) hms'.1 rfl rfl
  obtain ⟨dz, rfl⟩ := dz.exists_of hdz2
  obtain ⟨r, hr, hr2⟩ := hsc.add f.env.sys (.of x) (.of (gain P C R *ᵥ dz)) hs rfl rfl
  obtain ⟨r, rfl⟩ := r.exists_of hr2
  have hset := mkPlant_setMeasCov (sc := sc) (mc := mc)
    (pr := fun e x cov u dt => kfPredict sc e.sys x cov u dt fun s => { e with sys := s })
    (co := fun e x cov z k dt => kfCorrect sc (mc k) e.sys (e.meas k) x cov z dt (e.setMeas k))
    f.env j (.of R) (by rw [hm.meas]; exact ⟨rfl, rfl⟩)
  obtain ⟨g, h1, h2, h3, h4, h5, h6, h7, h8⟩ := f.correct_now (kfPlant sc mc) (.of z) (.of R) j (x := .of r)
    (c := .of (post P C R)) (e' := f.env.setMeas j ms) hset
    (by
      show (((f.env.setMeas j ((f.env.meas j).withCov (.of R))).meas j).fm.checkStationary &&
        ((f.env.setMeas j ((f.env.meas j).withCov (.of R))).meas j).fm.isStationary f.getState (.of z)) = false
      rw [Env.setMeas_meas, hx]; exact hst)
    (by
      show kfCorrect sc (mc j) f.env.sys ((f.env.setMeas j ((f.env.meas j).withCov (.of R))).meas j) f.getState
        f.getCovariance (.of z) _ ((f.env.setMeas j ((f.env.meas j).withCov (.of R))).setMeas j) = _
      rw [Env.setMeas_meas, hx, hP]
      unfold kfCorrect
      simp only [Option.bind_eq_bind, hup', Option.bind_some, hC, hcov, kalmanGain_of _ _ _ hS, DMat.mulVec_of, hdz, hr,
        shrinkCov_of, Env.setMeas_setMeas]
      rfl)
  exact ⟨g, dz, r, h1, hdz, hr, h2, h3, h4, h5, h6, h7, h8⟩

/-- `predict(u, t)` of the Kalman filter. -/
theorem kf_predict_now (hsc : SysContract LinSysData.Sized sc)
    (f : Filter T DVec DMat K (Env K LinSysData X LinMeasData Y))
    (hs : f.env.sys.Sized LinSysData.Sized n m)
    {x : Fin n → ℝ} {P : Matrix (Fin n) (Fin n) ℝ} (hx : f.getState = .of x) (hP : f.getCovariance = .of P)
    (u : Fin m → ℝ) (hm : 0 < m) (t : T) (ht : f.getStateTime ≤ t)
    (hst : (f.env.sys.fm.checkStationary && f.env.sys.fm.isStationary (.of x) (.of u)) = false) :
    ∃ g p, ∃ (A : Matrix (Fin n) (Fin n) ℝ) (B : Matrix (Fin n) (Fin m) ℝ) (W : Matrix (Fin n) (Fin p) ℝ)
      (V : Matrix (Fin n) (Fin m) ℝ) (Rp : Matrix (Fin p) (Fin p) ℝ) (Rc : Matrix (Fin m) (Fin m) ℝ) (x' : Fin n → ℝ),
      f.predictControl (kfPlant sc mc) (.of u) t = some g ∧
      sc.myUpdate f.env.sys (.of x) (.of u) (TimeOps.sub t f.getStateTime) = some g.env.sys ∧
      g.env.sys.der = ⟨.of A, .of B⟩ ∧ g.env.sys.P = .of W ∧ g.env.sys.V = .of V ∧
      f.env.sys.Rp = .of Rp ∧ f.env.sys.Rc = .of Rc ∧
      sc.add g.env.sys (.of (A *ᵥ x)) (.of (B *ᵥ u)) = some (.of x') ∧
      g.getState = .of x' ∧ g.getCovariance = .of (A * P * Aᵀ + W * Rp * Wᵀ + V * Rc * Vᵀ) ∧ g.getStateTime = t ∧
      g.env.meas = f.env.meas ∧ g.params = f.params := by
  obtain ⟨s', e1, hs', hc⟩ := hs.update hsc (x := .of x) (u := .of u) rfl rfl (TimeOps.sub t f.getStateTime)
  have e1' : sc.myUpdate f.env.sys (.of x) (.of u) (TimeOps.sub t f.getStateTime) = some s' := by
    unfold Sys.update at e1
    rwa [if_pos ⟨hs.states.symm, hs.controls.symm⟩] at e1
  obtain ⟨A, hA⟩ := hs'.der.1.exists_of
  obtain ⟨B, hB⟩ := hs'.der.2.exists_of
  obtain ⟨p, W, Rp, V, Rc, hW, hRp, hV, hRc⟩ := hs'.noise
  obtain ⟨r, hr, hr2⟩ := hsc.add s' (.of (A *ᵥ x)) (.of (B *ᵥ u)) hs' rfl rfl
  obtain ⟨r, rfl⟩ := r.exists_of hr2
  obtain ⟨g, h1, h2, h3, h4, h5, h6, h7⟩ := f.predict_now (kfPlant sc mc) (.of u) t ht hm (x := .of r)
    (c := .of (A * P * Aᵀ + W * Rp * Wᵀ + V * Rc * Vᵀ)) (e' := { f.env with sys := s' })
    (mkPlant_setRc (sc := sc) (mc := mc)
      (pr := fun e x cov u dt => kfPredict sc e.sys x cov u dt fun s => { e with sys := s })
      (co := fun e x cov z k dt => kfCorrect sc (mc k) e.sys (e.meas k) x cov z dt (e.setMeas k))
      f.env (by rw [hs.controls]; exact hs.Rc))
    (by
      show (f.env.sys.fm.checkStationary && f.env.sys.fm.isStationary f.getState (.of u)) = false
      rw [hx]; exact hst)
    (by
      show kfPredict sc f.env.sys f.getState f.getCovariance (.of u) _ _ = _
      rw [hx, hP]
      unfold kfPredict
      simp only [Option.bind_eq_bind, e1, Option.bind_some, hA, hB, hW, hRp, hV, hRc, DMat.mulVec_of, hr,
        propagateCov_of])
  refine ⟨g, p, A, B, W, V, Rp, Rc, r, h1, by rw [h5]; exact e1', ?_, by rw [h5]; exact hW, by rw [h5]; exact hV,
    by rw [← hc.Rp]; exact hRp, by rw [← hc.Rc]; exact hRc, by rw [h5]; exact hr, h2, h3, h4, by rw [h5], h7⟩
  rw [h5]
  show s'.der = _
  rw [← hA, ← hB]

end KF

section EKF
variable {sc : SysClass T NonlinSysData X} {mc : K → MeasClass T NonlinMeasData Y}

/-- `correct` of the EKF at the current time. -/
theorem ekf_correct_now (hsc : SysContract NonlinSysData.Sized sc)
    (hmc : ∀ j, MeasContract NonlinMeasData.Sized (mc j))
    (f : Filter T DVec DMat K (Env K NonlinSysData X NonlinMeasData Y)) (j : K)
    (hs : f.env.sys.Sized NonlinSysData.Sized n m) (hm : (f.env.meas j).Sized NonlinMeasData.Sized n k)
    {x : Fin n → ℝ} {P : Matrix (Fin n) (Fin n) ℝ} (hx : f.getState = .of x) (hP : f.getCovariance = .of P)
    (z : Fin k → ℝ) (R : Matrix (Fin k) (Fin k) ℝ) {H : Matrix (Fin k) (Fin n) ℝ} {ms : Meas NonlinMeasData Y}
    (hup : (mc j).myUpdate ((f.env.meas j).withCov (.of R)) (.of x) (TimeOps.sub f.getStateTime f.getStateTime) = some ms)
    (hH : ms.der.H = .of H) (hS : IsUnit (innov P H R).det)
    (hst : ((f.env.meas j).fm.checkStationary && (f.env.meas j).fm.isStationary (.of x) (.of z)) = false) :
    ∃ g, ∃ (dz : Fin k → ℝ) (x' : Fin n → ℝ), f.correct (ekfPlant sc mc) (.of z) (.of R) f.getStateTime (some j) = some g ∧
      (mc j).sub ms (.of z) ms.der.h = some (.of dz) ∧
      sc.add f.env.sys (.of x) (.of (gain P H R *ᵥ dz)) = some (.of x') ∧
      g.getState = .of x' ∧ g.getCovariance = .of (post P H R) ∧ g.getStateTime = f.getStateTime ∧
      g.env = f.env.setMeas j ms ∧ g.prevControl = f.prevControl ∧ g.prevControlCov = f.prevControlCov ∧
      g.params = f.params := by
  have hms : ((f.env.meas j).withCov (.of R)).Sized NonlinMeasData.Sized n k := ⟨hm.states, hm.meas, hm.der, rfl, rfl⟩
  have hup' : ((f.env.meas j).withCov (.of R)).update (mc j) (.of x) (TimeOps.sub f.getStateTime f.getStateTime)
      = some ms := by
    unfold Meas.update
    rw [if_pos (by rw [hms.states])]; exact hup
  have hms' : ms.Sized NonlinMeasData.Sized n k ∧ ((f.env.meas j).withCov (.of R)).SameConfig ms := by
    obtain ⟨s', a1, a2, a3⟩ := (hmc j).update _ (.of x) (TimeOps.sub f.getStateTime f.getStateTime) hms rfl
    rw [a1] at hup; injection hup with hup; subst hup; exact ⟨a2, a3⟩
  have hcov : ms.cov = .of R := hms'.2.cov
  obtain ⟨dz, hdz, hdz2⟩ := (hmc j).sub ms (.of z) ms.der.h hms'.1 rfl hms'.1.der.1
  obtain ⟨dz, rfl⟩ := dz.exists_of hdz2
  obtain ⟨r, hr, hr2⟩ := hsc.add f.env.sys (.of x) (.of (gain P H R *ᵥ dz)) hs rfl rfl
  obtain ⟨r, rfl⟩ := r.exists_of hr2
  have hset := mkPlant_setMeasCov (sc := sc) (mc := mc)
    (pr := fun e x cov u dt => ekfPredict sc e.sys x cov u dt fun s => { e with sys := s })
    (co := fun e x cov z k dt => ekfCorrect sc (mc k) e.sys (e.meas k) x cov z dt (e.setMeas k))
    f.env j (.of R) (by rw [hm.meas]; exact ⟨rfl, rfl⟩)
  obtain ⟨g, h1, h2, h3, h4, h5, h6, h7, h8⟩ := f.correct_now (ekfPlant sc mc) (.of z) (.of R) j (x := .of r)
    (c := .of (post P H R)) (e' := f.env.setMeas j ms) hset
    (by
      show (((f.env.setMeas j ((f.env.meas j).withCov (.of R))).meas j).fm.checkStationary &&
        ((f.env.setMeas j ((f.env.meas j).withCov (.of R))).meas j).fm.isStationary f.getState (.of z)) = false
      rw [Env.setMeas_meas, hx]; exact hst)
    (by
      show ekfCorrect sc (mc j) f.env.sys ((f.env.setMeas j ((f.env.meas j).withCov (.of R))).meas j) f.getState
        f.getCovariance (.of z) _ ((f.env.setMeas j ((f.env.meas j).withCov (.of R))).setMeas j) = _
      rw [Env.setMeas_meas, hx, hP]
      unfold ekfCorrect
      simp only [Option.bind_eq_bind, hup', Option.bind_some, hH, hcov, kalmanGain_of _ _ _ hS, DMat.mulVec_of, hdz, hr,
        shrinkCov_of, Env.setMeas_setMeas]
      rfl)
  exact ⟨g, dz, r, h1, hdz, hr, h2, h3, h4, h5, h6, h7, h8⟩

/-- `predict(u, t)` of the EKF. -/
theorem ekf_predict_now (hsc : SysContract NonlinSysData.Sized sc)
    (f : Filter T DVec DMat K (Env K NonlinSysData X NonlinMeasData Y))
    (hs : f.env.sys.Sized NonlinSysData.Sized n m)
    {x : Fin n → ℝ} {P : Matrix (Fin n) (Fin n) ℝ} (hx : f.getState = .of x) (hP : f.getCovariance = .of P)
    (u : Fin m → ℝ) (hm : 0 < m) (t : T) (ht : f.getStateTime ≤ t)
    (hst : (f.env.sys.fm.checkStationary && f.env.sys.fm.isStationary (.of x) (.of u)) = false) :
    ∃ g p, ∃ (A : Matrix (Fin n) (Fin n) ℝ) (W : Matrix (Fin n) (Fin p) ℝ)
      (V : Matrix (Fin n) (Fin m) ℝ) (Rp : Matrix (Fin p) (Fin p) ℝ) (Rc : Matrix (Fin m) (Fin m) ℝ),
      f.predictControl (ekfPlant sc mc) (.of u) t = some g ∧
      sc.myUpdate f.env.sys (.of x) (.of u) (TimeOps.sub t f.getStateTime) = some g.env.sys ∧
      g.env.sys.der.G = .of A ∧ g.env.sys.P = .of W ∧ g.env.sys.V = .of V ∧
      f.env.sys.Rp = .of Rp ∧ f.env.sys.Rc = .of Rc ∧
      g.getState = g.env.sys.der.g ∧ g.getCovariance = .of (A * P * Aᵀ + W * Rp * Wᵀ + V * Rc * Vᵀ) ∧
      g.getStateTime = t ∧ g.env.meas = f.env.meas ∧ g.params = f.params := by
  obtain ⟨s', e1, hs', hc⟩ := hs.update hsc (x := .of x) (u := .of u) rfl rfl (TimeOps.sub t f.getStateTime)
  have e1' : sc.myUpdate f.env.sys (.of x) (.of u) (TimeOps.sub t f.getStateTime) = some s' := by
    unfold Sys.update at e1
    rwa [if_pos ⟨hs.states.symm, hs.controls.symm⟩] at e1
  obtain ⟨A, hA⟩ := hs'.der.2.exists_of
  obtain ⟨p, W, Rp, V, Rc, hW, hRp, hV, hRc⟩ := hs'.noise
  obtain ⟨g, h1, h2, h3, h4, h5, h6, h7⟩ := f.predict_now (ekfPlant sc mc) (.of u) t ht hm (x := s'.der.g)
    (c := .of (A * P * Aᵀ + W * Rp * Wᵀ + V * Rc * Vᵀ)) (e' := { f.env with sys := s' })
    (mkPlant_setRc (sc := sc) (mc := mc)
      (pr := fun e x cov u dt => ekfPredict sc e.sys x cov u dt fun s => { e with sys := s })
      (co := fun e x cov z k dt => ekfCorrect sc (mc k) e.sys (e.meas k) x cov z dt (e.setMeas k))
      f.env (by rw [hs.controls]; exact hs.Rc))
    (by
      show (f.env.sys.fm.checkStationary && f.env.sys.fm.isStationary f.getState (.of u)) = false
      rw [hx]; exact hst)
    (by
      show ekfPredict sc f.env.sys f.getState f.getCovariance (.of u) _ _ = _
      rw [hx, hP]
      unfold ekfPredict
      simp only [Option.bind_eq_bind, e1, Option.bind_some, hA, hW, hRp, hV, hRc, propagateCov_of])
  exact ⟨g, p, A, W, V, Rp, Rc, h1, by rw [h5]; exact e1', by rw [h5]; exact hA, by rw [h5]; exact hW,
    by rw [h5]; exact hV, by rw [← hc.Rp]; exact hRp, by rw [← hc.Rc]; exact hRc, by rw [h5]; exact h2, h3, h4,
    by rw [h5], h7⟩

end EKF
end StateEstimation
