import Verif.Lemmas.VSApi
import Verif.Props.Kalman
import Verif.Props.Unscented
import Verif.Props.Subsets

/-!
# C40-C42: one call of the variable-state filters

`σ` lists the active states, `τ` the active controls, `ρ` the active measurements (`Selects`).
`M.submatrix σ σ` is the block of the active states.
-/

set_option linter.unusedSectionVars false

namespace StateEstimation
namespace Props

open Matrix Kalman Examples Sigma

variable {T K X Y : Type} [DecidableEq K] {n m k ns ms ks : Nat}

section Step

variable [LinearOrder T] [ExactTime T]

/-- **C41 (KalmanFilterVS, predict).**  The covariance entries with an inactive row or column keep their value; the active
block becomes `A P Aᵀ + W Rp Wᵀ + V Rc Vᵀ` on the blocks of the active states and controls. -/
theorem C41_kfvs_predict {sc : SysClass T LinSysData X} {mc : K → MeasClass T LinMeasData Y}
    (hsc : SysContract LinSysData.Sized sc) (f : Filter T DVec DMat K (Env K LinSysData X LinMeasData Y))
    (hs : f.env.sys.Sized LinSysData.Sized n m)
    {σ : Fin ns → Fin n} (hσ : Selects f.env.sys.activeStates σ) {τ : Fin ms → Fin m} (hτ : Selects f.env.sys.activeControls τ)
    {x : Fin n → ℝ} {P : Matrix (Fin n) (Fin n) ℝ} (hx : f.getState = .of x) (hP : f.getCovariance = .of P)
    (u : Fin m → ℝ) (hm : 0 < m) (t : T) (ht : f.getStateTime ≤ t)
    (hst : (f.env.sys.fm.checkStationary && f.env.sys.fm.isStationary (.of x) (.of u)) = false) :
    ∃ g p, ∃ (A : Matrix (Fin n) (Fin n) ℝ) (B : Matrix (Fin n) (Fin m) ℝ) (W : Matrix (Fin n) (Fin p) ℝ)
      (V : Matrix (Fin n) (Fin m) ℝ) (Rp : Matrix (Fin p) (Fin p) ℝ) (Rc : Matrix (Fin m) (Fin m) ℝ)
      (a b : Fin n → ℝ) (P' : Matrix (Fin n) (Fin n) ℝ),
      f.predictControl (kfvsPlant sc mc) (.of u) t = some g ∧ g.getStateTime = t ∧
      sc.myUpdate f.env.sys (.of x) (.of u) (TimeOps.sub t f.getStateTime) = some g.env.sys ∧
      g.env.sys.der = ⟨.of A, .of B⟩ ∧ g.env.sys.P = .of W ∧ g.env.sys.V = .of V ∧
      f.env.sys.Rp = .of Rp ∧ f.env.sys.Rc = .of Rc ∧
      OverwritesVec σ (A.submatrix σ σ *ᵥ (x ∘ σ)) 0 a ∧ OverwritesVec σ (B.submatrix σ τ *ᵥ (u ∘ τ)) 0 b ∧
      sc.add g.env.sys (.of a) (.of b) = some g.getState ∧
      g.getCovariance = .of P' ∧
      OverwritesMat σ σ (A.submatrix σ σ * P.submatrix σ σ * (A.submatrix σ σ)ᵀ
        + W.submatrix σ id * Rp * (W.submatrix σ id)ᵀ
        + V.submatrix σ τ * Rc.submatrix τ τ * (V.submatrix σ τ)ᵀ) P P' := by
  obtain ⟨s', p, A, B, W, V, Rp, Rc, a, b, x', P', h1, h2, h3, h4, h5, h6, h7, h8, h9, h10, h11, h12, h13⟩ :=
    kfvsPredict_of hsc hs hσ hτ x P u (TimeOps.sub t f.getStateTime)
      (fun s => ({ f.env with sys := s } : Env K LinSysData X LinMeasData Y))
  obtain ⟨g, g1, g2, g3, g4, g5, _⟩ := mk_predict_now (sc := sc) (mc := mc)
    (predict := fun e x cov u dt => kfvsPredict sc e.sys x cov u dt fun s => { e with sys := s })
    (correct := fun e x cov z k dt => kfvsCorrect sc (mc k) e.sys (e.meas k) x cov z dt (e.setMeas k))
    f (.of u) hm t ht (by rw [hs.controls]; exact hs.Rc) (by rw [hx]; exact hst) (by rw [hx, hP]; exact h1)
  refine ⟨g, p, A, B, W, V, Rp, Rc, a, b, P', g1, g4, by rw [g5]; exact h2, by rw [g5]; exact h5, by rw [g5]; exact h6,
    by rw [g5]; exact h7, h8, h9, h10, h11, by rw [g5, g2]; exact h12, g3, h13⟩

/-- **C41 (EKFVS, predict).** -/
theorem C41_ekfvs_predict {sc : SysClass T NonlinSysData X} {mc : K → MeasClass T NonlinMeasData Y}
    (hsc : SysContract NonlinSysData.Sized sc) (f : Filter T DVec DMat K (Env K NonlinSysData X NonlinMeasData Y))
    (hs : f.env.sys.Sized NonlinSysData.Sized n m)
    {σ : Fin ns → Fin n} (hσ : Selects f.env.sys.activeStates σ) {τ : Fin ms → Fin m} (hτ : Selects f.env.sys.activeControls τ)
    {x : Fin n → ℝ} {P : Matrix (Fin n) (Fin n) ℝ} (hx : f.getState = .of x) (hP : f.getCovariance = .of P)
    (u : Fin m → ℝ) (hm : 0 < m) (t : T) (ht : f.getStateTime ≤ t)
    (hst : (f.env.sys.fm.checkStationary && f.env.sys.fm.isStationary (.of x) (.of u)) = false) :
    ∃ g p, ∃ (G : Matrix (Fin n) (Fin n) ℝ) (W : Matrix (Fin n) (Fin p) ℝ)
      (V : Matrix (Fin n) (Fin m) ℝ) (Rp : Matrix (Fin p) (Fin p) ℝ) (Rc : Matrix (Fin m) (Fin m) ℝ)
      (P' : Matrix (Fin n) (Fin n) ℝ),
      f.predictControl (ekfvsPlant sc mc) (.of u) t = some g ∧ g.getStateTime = t ∧
      sc.myUpdate f.env.sys (.of x) (.of u) (TimeOps.sub t f.getStateTime) = some g.env.sys ∧
      g.env.sys.der.G = .of G ∧ g.env.sys.P = .of W ∧ g.env.sys.V = .of V ∧
      f.env.sys.Rp = .of Rp ∧ f.env.sys.Rc = .of Rc ∧
      g.getState = g.env.sys.der.g ∧ g.getCovariance = .of P' ∧
      OverwritesMat σ σ (G.submatrix σ σ * P.submatrix σ σ * (G.submatrix σ σ)ᵀ
        + W.submatrix σ id * Rp * (W.submatrix σ id)ᵀ
        + V.submatrix σ τ * Rc.submatrix τ τ * (V.submatrix σ τ)ᵀ) P P' := by
  obtain ⟨s', p, x', A, W, V, Rp, Rc, P', h1, h2, h3, h4, h5, h6, h7, h8, h9, h13⟩ :=
    ekfvsPredict_of hsc hs hσ hτ x P (u := .of u) rfl (TimeOps.sub t f.getStateTime)
      (fun s => ({ f.env with sys := s } : Env K NonlinSysData X NonlinMeasData Y))
  obtain ⟨g, g1, g2, g3, g4, g5, _⟩ := mk_predict_now (sc := sc) (mc := mc)
    (predict := fun e x cov u dt => ekfvsPredict sc e.sys x cov u dt fun s => { e with sys := s })
    (correct := fun e x cov z k dt => ekfvsCorrect sc (mc k) e.sys (e.meas k) x cov z dt (e.setMeas k))
    f (.of u) hm t ht (by rw [hs.controls]; exact hs.Rc) (by rw [hx]; exact hst) (by rw [hx, hP]; exact h1)
  refine ⟨g, p, A, W, V, Rp, Rc, P', g1, g4, by rw [g5]; exact h2, by rw [g5, h5], by rw [g5]; exact h6,
    by rw [g5]; exact h7, h8, h9, by rw [g5, g2, h5], g3, h13⟩

/-- **C41 (KalmanFilterVS, correct).**  With `Pσ`, `C`, `R` the blocks of the active states and measurements and
`L = Pσ Cᵀ (C Pσ Cᵀ + R)⁻¹`: the active block becomes `(I - L C) Pσ` - positive semidefinite and not larger than before - all
other entries keep their value. -/
theorem C41_kfvs_correct {sc : SysClass T LinSysData X} {mc : K → MeasClass T LinMeasData Y}
    (hsc : SysContract LinSysData.Sized sc) (hmc : ∀ j, MeasContract LinMeasData.Sized (mc j))
    (f : Filter T DVec DMat K (Env K LinSysData X LinMeasData Y)) (j : K)
    (hs : f.env.sys.Sized LinSysData.Sized n m) (hm : (f.env.meas j).Sized LinMeasData.Sized n k)
    {σ : Fin ns → Fin n} (hσ : Selects f.env.sys.activeStates σ)
    {ρ : Fin ks → Fin k} (hρ : Selects (f.env.meas j).activeMeasurements ρ)
    {x : Fin n → ℝ} {P : Matrix (Fin n) (Fin n) ℝ} (hx : f.getState = .of x) (hP : f.getCovariance = .of P)
    (hPsd : (P.submatrix σ σ).PosSemidef) (z : Fin k → ℝ) (R : Matrix (Fin k) (Fin k) ℝ) (hR : R.PosDef)
    (hst : ((f.env.meas j).fm.checkStationary && (f.env.meas j).fm.isStationary (.of x) (.of z)) = false) :
    ∃ g, ∃ (C : Matrix (Fin k) (Fin n) ℝ) (L : Matrix (Fin ns) (Fin ks) ℝ) (zf dz : Fin k → ℝ) (dx : Fin n → ℝ)
      (P' : Matrix (Fin n) (Fin n) ℝ),
      f.correct (kfvsPlant sc mc) (.of z) (.of R) f.getStateTime (some j) = some g ∧ g.getStateTime = f.getStateTime ∧
      (mc j).myUpdate ((f.env.meas j).withCov (.of R)) (.of x) (TimeOps.sub f.getStateTime f.getStateTime)
        = some (g.env.meas j) ∧
      (g.env.meas j).der.C = .of C ∧
      L = P.submatrix σ σ * (C.submatrix ρ σ)ᵀ *
        (C.submatrix ρ σ * P.submatrix σ σ * (C.submatrix ρ σ)ᵀ + R.submatrix ρ ρ)⁻¹ ∧
      OverwritesVec ρ (C.submatrix ρ σ *ᵥ (x ∘ σ)) 0 zf ∧
      (mc j).sub (g.env.meas j) (.of z) (.of zf) = some (.of dz) ∧
      OverwritesVec σ (L *ᵥ (dz ∘ ρ)) 0 dx ∧ sc.add f.env.sys (.of x) (.of dx) = some g.getState ∧
      g.getCovariance = .of P' ∧ OverwritesMat σ σ ((1 - L * C.submatrix ρ σ) * P.submatrix σ σ) P P' ∧
      (P'.submatrix σ σ).PosSemidef ∧ (P.submatrix σ σ - P'.submatrix σ σ).PosSemidef := by
  have hms : ((f.env.meas j).withCov (.of R)).Sized LinMeasData.Sized n k := ⟨hm.states, hm.meas, hm.der, rfl, rfl⟩
  have hR' := hR.submatrix hρ.inj
  obtain ⟨m', C, zf, dz, dx, x', P', h1, h2, h3, h4, h5, h6, h7, h8, h9, h10⟩ :=
      kfvsCorrect_of hsc (hmc j) hs hms hσ (ρ := ρ) hρ x P hPsd rfl hR' z (TimeOps.sub f.getStateTime f.getStateTime)
        ((f.env.setMeas j ((f.env.meas j).withCov (.of R))).setMeas j)
  obtain ⟨g, g1, g2, g3, g4, g5, _⟩ := mk_correct_now (sc := sc) (mc := mc)
    (predict := fun e x cov u dt => kfvsPredict sc e.sys x cov u dt fun s => { e with sys := s })
    (correct := fun e x cov z k dt => kfvsCorrect sc (mc k) e.sys (e.meas k) x cov z dt (e.setMeas k))
    f (.of z) (.of R) j (by rw [hm.meas]; exact ⟨rfl, rfl⟩) (by rw [hx]; exact hst)
    (by rw [hx, hP, Env.setMeas_meas]; exact h1)
  have henv : g.env.meas j = m' := by rw [g5, Env.setMeas_meas]
  refine ⟨g, C, _, zf, dz, dx, P', g1, g4, by rw [henv]; exact h2, by rw [henv]; exact h5, ?_, h6, by rw [henv]; exact h7, h8,
    by rw [g2]; exact h9, g3, h10, ?_, ?_⟩
  · unfold gain innov; rw [Matrix.mul_assoc (C.submatrix ρ σ)]
  · rw [h10.block]; exact post_psd hPsd _ hR'
  · rw [h10.block]; exact post_le hPsd _ hR'

/-- **C41 (EKFVS, correct).** -/
theorem C41_ekfvs_correct {sc : SysClass T NonlinSysData X} {mc : K → MeasClass T NonlinMeasData Y}
    (hsc : SysContract NonlinSysData.Sized sc) (hmc : ∀ j, MeasContract NonlinMeasData.Sized (mc j))
    (f : Filter T DVec DMat K (Env K NonlinSysData X NonlinMeasData Y)) (j : K)
    (hs : f.env.sys.Sized NonlinSysData.Sized n m) (hm : (f.env.meas j).Sized NonlinMeasData.Sized n k)
    {σ : Fin ns → Fin n} (hσ : Selects f.env.sys.activeStates σ)
    {ρ : Fin ks → Fin k} (hρ : Selects (f.env.meas j).activeMeasurements ρ)
    {x : Fin n → ℝ} {P : Matrix (Fin n) (Fin n) ℝ} (hx : f.getState = .of x) (hP : f.getCovariance = .of P)
    (hPsd : (P.submatrix σ σ).PosSemidef) (z : Fin k → ℝ) (R : Matrix (Fin k) (Fin k) ℝ) (hR : R.PosDef)
    (hst : ((f.env.meas j).fm.checkStationary && (f.env.meas j).fm.isStationary (.of x) (.of z)) = false) :
    ∃ g, ∃ (H : Matrix (Fin k) (Fin n) ℝ) (L : Matrix (Fin ns) (Fin ks) ℝ) (dz : Fin k → ℝ) (dx : Fin n → ℝ)
      (P' : Matrix (Fin n) (Fin n) ℝ),
      f.correct (ekfvsPlant sc mc) (.of z) (.of R) f.getStateTime (some j) = some g ∧ g.getStateTime = f.getStateTime ∧
      (mc j).myUpdate ((f.env.meas j).withCov (.of R)) (.of x) (TimeOps.sub f.getStateTime f.getStateTime)
        = some (g.env.meas j) ∧
      (g.env.meas j).der.H = .of H ∧
      L = P.submatrix σ σ * (H.submatrix ρ σ)ᵀ *
        (H.submatrix ρ σ * P.submatrix σ σ * (H.submatrix ρ σ)ᵀ + R.submatrix ρ ρ)⁻¹ ∧
      (mc j).sub (g.env.meas j) (.of z) (g.env.meas j).der.h = some (.of dz) ∧
      OverwritesVec σ (L *ᵥ (dz ∘ ρ)) 0 dx ∧ sc.add f.env.sys (.of x) (.of dx) = some g.getState ∧
      g.getCovariance = .of P' ∧ OverwritesMat σ σ ((1 - L * H.submatrix ρ σ) * P.submatrix σ σ) P P' ∧
      (P'.submatrix σ σ).PosSemidef ∧ (P.submatrix σ σ - P'.submatrix σ σ).PosSemidef := by
  have hms : ((f.env.meas j).withCov (.of R)).Sized NonlinMeasData.Sized n k := ⟨hm.states, hm.meas, hm.der, rfl, rfl⟩
  have hR' := hR.submatrix hρ.inj
  obtain ⟨m', zh, C, dz, dx, x', P', h1, h2, h3, h4, h5, h7, h8, h9, h10⟩ :=
      ekfvsCorrect_of hsc (hmc j) hs hms hσ (ρ := ρ) hρ x P hPsd rfl hR' z (TimeOps.sub f.getStateTime f.getStateTime)
        ((f.env.setMeas j ((f.env.meas j).withCov (.of R))).setMeas j)
  obtain ⟨g, g1, g2, g3, g4, g5, _⟩ := mk_correct_now (sc := sc) (mc := mc)
    (predict := fun e x cov u dt => ekfvsPredict sc e.sys x cov u dt fun s => { e with sys := s })
    (correct := fun e x cov z k dt => ekfvsCorrect sc (mc k) e.sys (e.meas k) x cov z dt (e.setMeas k))
    f (.of z) (.of R) j (by rw [hm.meas]; exact ⟨rfl, rfl⟩) (by rw [hx]; exact hst)
    (by rw [hx, hP, Env.setMeas_meas]; exact h1)
  have henv : g.env.meas j = m' := by rw [g5, Env.setMeas_meas]
  refine ⟨g, C, _, dz, dx, P', g1, g4, by rw [henv]; exact h2, by rw [henv, h5], ?_, by rw [henv, h5]; exact h7, h8,
    by rw [g2]; exact h9, g3, h10, ?_, ?_⟩
  · unfold gain innov; rw [Matrix.mul_assoc (C.submatrix ρ σ)]
  · rw [h10.block]; exact post_psd hPsd _ hR'
  · rw [h10.block]; exact post_le hPsd _ hR'

/-- **C41 (UKFVS, predict).**  With `L Lᵀ = alpha² (ns + kappa) Pσ` on the active block and sigma points that only move the
active states: the state becomes the weighted mean of the images, the active block the noise plus the weighted covariance of the
images' active parts; all other covariance entries keep their value. -/
theorem C41_ukfvs_predict {llt : DMat → Option DMat} (hllt : LltSpec llt) (junk : Nat → Nat → ℝ)
    {sc : SysClass T NonlinSysData X} {mc : K → MeasClass T NonlinMeasData Y}
    (hsc : SysContract NonlinSysData.Sized sc) (hso : sc.PlainOps)
    (f : Filter T DVec DMat K (Env K NonlinSysData X NonlinMeasData Y × SigmaParams))
    (hs : f.env.1.sys.Sized NonlinSysData.Sized n m)
    {σ : Fin ns → Fin n} (hσ : Selects f.env.1.sys.activeStates σ) {τ : Fin ms → Fin m}
    (hτ : Selects f.env.1.sys.activeControls τ)
    {al ka be : ℝ} (hsp : setSigma ns ns al ka be = some f.env.2)
    (hal : 0 < al ^ 2 * (ns + ka)) (hbe : al ^ 2 ≤ be)
    {x : Fin n → ℝ} {P : Matrix (Fin n) (Fin n) ℝ} (hx : f.getState = .of x) (hP : f.getCovariance = .of P)
    (hPd : (P.submatrix σ σ).PosDef) (u : Fin m → ℝ) (hm : 0 < m) (t : T) (ht : f.getStateTime ≤ t)
    (hst : (f.env.1.sys.fm.checkStationary && f.env.1.sys.fm.isStationary (.of x) (.of u)) = false) :
    ∃ g p, ∃ (L : Matrix (Fin ns) (Fin ns) ℝ) (y : Nat → Fin n → ℝ) (W : Matrix (Fin n) (Fin p) ℝ)
      (V : Matrix (Fin n) (Fin m) ℝ) (Rp : Matrix (Fin p) (Fin p) ℝ) (Rc : Matrix (Fin m) (Fin m) ℝ)
      (P' : Matrix (Fin n) (Fin n) ℝ),
      f.predictControl (ukfvsPlant llt junk sc mc) (.of u) t = some g ∧ g.getStateTime = t ∧ g.env.2 = f.env.2 ∧
      L * Lᵀ = (al ^ 2 * (ns + ka)) • P.submatrix σ σ ∧
      SysImage sc n m f.env.1.sys (.of x) (.of u) (TimeOps.sub t f.getStateTime) (y 0) ∧
      (∀ i < ns, SysImage sc n m f.env.1.sys (.of (x + spread σ (colsOf L i))) (.of u) (TimeOps.sub t f.getStateTime) (y (i + 1)) ∧
        SysImage sc n m f.env.1.sys (.of (x - spread σ (colsOf L i))) (.of u) (TimeOps.sub t f.getStateTime) (y (i + 1 + ns))) ∧
      g.env.1.sys.P = .of W ∧ g.env.1.sys.V = .of V ∧ f.env.1.sys.Rp = .of Rp ∧ f.env.1.sys.Rc = .of Rc ∧
      g.getState = .of (mean ns (al ^ 2 * (ns + ka) - ns) y) ∧
      g.getCovariance = .of P' ∧
      OverwritesMat σ σ (W.submatrix σ id * Rp * (W.submatrix σ id)ᵀ + V.submatrix σ τ * Rc.submatrix τ τ * (V.submatrix σ τ)ᵀ +
        (cross ns (al ^ 2 * (ns + ka) - ns) (be - al ^ 2) y y (mean ns (al ^ 2 * (ns + ka) - ns) y)
          (mean ns (al ^ 2 * (ns + ka) - ns) y)).submatrix σ σ) P P' ∧
      (Rp.PosSemidef → Rc.PosSemidef → (P'.submatrix σ σ).PosSemidef) := by
  obtain ⟨lam, e1, e2, e3⟩ := setSigma_eq hsp
  have hlam : lam = al ^ 2 * (ns + ka) - ns := by linarith
  subst hlam
  have hpos : 0 < (ns : ℝ) + (al ^ 2 * (ns + ka) - ns) := by rw [e1]; exact hal
  obtain ⟨L, hL, hLL⟩ := hllt.scaled hpos hPd
  obtain ⟨s', p, y, W, V, Rp, Rc, P', e, hov, hs', hc, hy0, hy, hup, hW, hV, hRp, hRc⟩ :=
    ukfvsPredict_of (d := be - al ^ 2) hsc hso junk hs hσ hτ hL x (u := .of u) rfl (TimeOps.sub t f.getStateTime)
      (fun s => ({ f.env.1 with sys := s } : Env K NonlinSysData X NonlinMeasData Y))
  obtain ⟨g, h1, h2, h3, h4, h5, h6⟩ := with_predict_now (sc := sc) (mc := mc)
    (predict := fun sp e x cov u dt => ukfvsPredict llt junk sc sp e.sys x cov u dt fun s => { e with sys := s })
    (correct := fun sp e x cov z k dt => ukfvsCorrect llt junk sc (mc k) sp e.sys (e.meas k) x cov z dt (e.setMeas k))
    f (.of u) hm t ht (by rw [hs.controls]; exact hs.Rc) (by rw [hx]; exact hst) (by rw [hx, hP, e3]; exact e)
  rw [cross_comp] at hov
  refine ⟨g, p, L, y, W, V, Rp, Rc, P', h1, h4, by rw [h5], by rw [hLL, e1], hy0, hy, by rw [h5]; exact hW, by rw [h5]; exact hV,
    hRp, hRc, h2, h3, hov, ?_⟩
  intro q1 q2
  rw [hov.block]
  exact ((psd_conj q1 _).add (psd_conj (q2.submatrix τ) _)).add ((unscented_psd hpos (by linarith) y).submatrix σ)

/-- **C40 and C41 (UKFVS, correct).**  The inactive states do not move, the active block stays positive definite and is not
larger than before, all other covariance entries keep their value. -/
theorem C40_C41_ukfvs_correct {llt : DMat → Option DMat} (hllt : LltSpec llt) (junk : Nat → Nat → ℝ)
    {sc : SysClass T NonlinSysData X} {mc : K → MeasClass T NonlinMeasData Y} (hso : sc.PlainOps)
    (hmc : ∀ j, MeasContract NonlinMeasData.Sized (mc j)) (hmo : ∀ j, (mc j).PlainOps)
    (f : Filter T DVec DMat K (Env K NonlinSysData X NonlinMeasData Y × SigmaParams)) (j : K)
    (hs : f.env.1.sys.Sized NonlinSysData.Sized n m) (hm : (f.env.1.meas j).Sized NonlinMeasData.Sized n k)
    {σ : Fin ns → Fin n} (hσ : Selects f.env.1.sys.activeStates σ)
    {ρ : Fin ks → Fin k} (hρ : Selects (f.env.1.meas j).activeMeasurements ρ)
    {al ka be : ℝ} (hsp : setSigma ns ns al ka be = some f.env.2)
    (hal : 0 < al ^ 2 * (ns + ka)) (hbe : al ^ 2 ≤ be)
    {x : Fin n → ℝ} {P : Matrix (Fin n) (Fin n) ℝ} (hx : f.getState = .of x) (hP : f.getCovariance = .of P)
    (hPd : (P.submatrix σ σ).PosDef) (z : Fin k → ℝ) (R : Matrix (Fin k) (Fin k) ℝ) (hR : R.PosDef)
    (hst : ((f.env.1.meas j).fm.checkStationary && (f.env.1.meas j).fm.isStationary (.of x) (.of z)) = false) :
    ∃ g, ∃ (L : Matrix (Fin ns) (Fin ns) ℝ) (q : Nat → Fin n → ℝ) (y : Nat → Fin k → ℝ)
      (S : Matrix (Fin ks) (Fin ks) ℝ) (D G : Matrix (Fin ns) (Fin ks) ℝ) (x' : Fin n → ℝ) (P' : Matrix (Fin n) (Fin n) ℝ),
      f.correct (ukfvsPlant llt junk sc mc) (.of z) (.of R) f.getStateTime (some j) = some g ∧
      g.getStateTime = f.getStateTime ∧ g.env.2 = f.env.2 ∧
      L * Lᵀ = (al ^ 2 * (ns + ka)) • P.submatrix σ σ ∧
      q 0 = x ∧ (∀ i < ns, q (i + 1) = x + spread σ (colsOf L i) ∧ q (i + 1 + ns) = x - spread σ (colsOf L i)) ∧
      (∀ i ≤ 2 * ns, MeasImage (mc j) n k ((f.env.1.meas j).withCov (.of R)) (.of (q i))
        (TimeOps.sub f.getStateTime f.getStateTime) (y i)) ∧
      S = R.submatrix ρ ρ + (cross ns (al ^ 2 * (ns + ka) - ns) (be - al ^ 2) y y (mean ns (al ^ 2 * (ns + ka) - ns) y)
          (mean ns (al ^ 2 * (ns + ka) - ns) y)).submatrix ρ ρ ∧
      D = (cross ns (al ^ 2 * (ns + ka) - ns) (be - al ^ 2) q y x (mean ns (al ^ 2 * (ns + ka) - ns) y)).submatrix σ ρ ∧
      G = D * S⁻¹ ∧
      g.getState = .of x' ∧ (∀ i, x' (σ i) = x (σ i) + (G *ᵥ ((z - mean ns (al ^ 2 * (ns + ka) - ns) y) ∘ ρ)) i) ∧
      (∀ a, (∀ i, σ i ≠ a) → x' a = x a) ∧
      g.getCovariance = .of P' ∧ OverwritesMat σ σ (P.submatrix σ σ - G * S * Gᵀ) P P' ∧
      (P'.submatrix σ σ).PosDef ∧ (P.submatrix σ σ - P'.submatrix σ σ).PosSemidef := by
  have hms : ((f.env.1.meas j).withCov (.of R)).Sized NonlinMeasData.Sized n k := ⟨hm.states, hm.meas, hm.der, rfl, rfl⟩
  have hR' := hR.submatrix hρ.inj
  have hadm : SigmaAdmissible ns f.env.2 := ⟨al, ka, be, hsp, hal, hbe⟩
  obtain ⟨lam, e1, e2, e3⟩ := setSigma_eq hsp
  have hlam : lam = al ^ 2 * (ns + ka) - ns := by linarith
  subst hlam
  have hpos : 0 < (ns : ℝ) + (al ^ 2 * (ns + ka) - ns) := by rw [e1]; exact hal
  obtain ⟨L, hL, hLL⟩ := hllt.scaled hpos hPd
  obtain ⟨m', q, y, R2, S, D, G, hm', hc, hR2, hq0, hq, hy0, hy, hS, hD, hG, e⟩ :=
    ukfvsCorrect_of (d := be - al ^ 2) hso (hmc j) (hmo j) junk hs hms hσ (ρ := ρ) hρ hL x z
      (TimeOps.sub f.getStateTime f.getStateTime) ((f.env.1.setMeas j ((f.env.1.meas j).withCov (.of R))).setMeas j)
  have : R = R2 := DMat.of_inj.mp hR2
  subst this
  rw [cross_comp] at hS hD
  have hSpd : S.PosDef := by
    rw [hS]; exact hR'.add_posSemidef ((unscented_psd hpos (by linarith) y).submatrix ρ)
  obtain ⟨P', h1, hov⟩ := e (pd_isUnit_det hSpd)
  obtain ⟨m2, v, P2, S2, k1, k2, k3, k4, _⟩ := ukfvsCorrect_pd hso (hmc j) (hmo j) hllt junk hadm hs hms hσ hρ rfl hR' x z hPd
    (TimeOps.sub f.getStateTime f.getStateTime) ((f.env.1.setMeas j ((f.env.1.meas j).withCov (.of R))).setMeas j)
  rw [e3] at k1
  rw [h1] at k1
  simp only [Option.some.injEq, Prod.mk.injEq] at k1
  have hPP : P' = P2 := DMat.of_inj.mp k1.2.1
  subst hPP
  obtain ⟨g, g1, g2, g3, g4, g5, _⟩ := with_correct_now (sc := sc) (mc := mc)
    (predict := fun sp e x cov u dt => ukfvsPredict llt junk sc sp e.sys x cov u dt fun s => { e with sys := s })
    (correct := fun sp e x cov z k dt => ukfvsCorrect llt junk sc (mc k) sp e.sys (e.meas k) x cov z dt (e.setMeas k))
    f (.of z) (.of R) j (by rw [hm.meas]; exact ⟨rfl, rfl⟩) (by rw [hx]; exact hst)
    (by rw [hx, hP, Env.setMeas_meas, e3]; exact h1)
  refine ⟨g, L, q, y, S, D, G, _, P', g1, g4, by rw [g5], by rw [hLL, e1], hq0, hq, ?_, hS, hD, hG, g2, ?_, ?_, g3, hov, ?_, ?_⟩
  · intro i hi
    rcases Nat.eq_zero_or_pos i with rfl | h0
    · rw [hq0]; exact hy0
    · rcases Nat.lt_or_ge ns i with h2 | h2
      · obtain ⟨i', rfl⟩ : ∃ i', i = i' + 1 + ns := ⟨i - 1 - ns, by omega⟩
        rw [(hq i' (by omega)).2]; exact (hy i' (by omega)).2
      · obtain ⟨i', rfl⟩ : ∃ i', i = i' + 1 := ⟨i - 1, by omega⟩
        rw [(hq i' (by omega)).1]; exact (hy i' (by omega)).1
  · intro i
    show x (σ i) + spread σ _ (σ i) = _
    rw [(spread_overwrites hσ.inj _).selected]
  · intro a ha
    show x a + spread σ _ a = _
    rw [(spread_overwrites hσ.inj _).others a ha]; simp
  · rw [k4.block]; exact k2
  · rw [k4.block]; exact k3

/-! ### C40 -/

/-- **C40, the part that holds: `correct` leaves inactive states alone** (KalmanFilterVS, default vector operations). -/
theorem C40_kfvs_correct_partial {sc : SysClass T LinSysData X} {mc : K → MeasClass T LinMeasData Y}
    (hsc : SysContract LinSysData.Sized sc) (hso : sc.PlainOps) (hmc : ∀ j, MeasContract LinMeasData.Sized (mc j))
    (f : Filter T DVec DMat K (Env K LinSysData X LinMeasData Y)) (j : K)
    (hs : f.env.sys.Sized LinSysData.Sized n m) (hm : (f.env.meas j).Sized LinMeasData.Sized n k)
    {σ : Fin ns → Fin n} (hσ : Selects f.env.sys.activeStates σ)
    {ρ : Fin ks → Fin k} (hρ : Selects (f.env.meas j).activeMeasurements ρ)
    {x : Fin n → ℝ} {P : Matrix (Fin n) (Fin n) ℝ} (hx : f.getState = .of x) (hP : f.getCovariance = .of P)
    (hPsd : (P.submatrix σ σ).PosSemidef) (z : Fin k → ℝ) (R : Matrix (Fin k) (Fin k) ℝ) (hR : R.PosDef)
    (hst : ((f.env.meas j).fm.checkStationary && (f.env.meas j).fm.isStationary (.of x) (.of z)) = false) :
    ∃ g x', f.correct (kfvsPlant sc mc) (.of z) (.of R) f.getStateTime (some j) = some g ∧ g.getState = .of x' ∧
      ∀ a, (∀ i, σ i ≠ a) → x' a = x a := by
  obtain ⟨g, C, L, zf, dz, dx, P', h1, _, _, _, _, _, _, h8, h9, _⟩ :=
    C41_kfvs_correct hsc hmc f j hs hm hσ hρ hx hP hPsd z R hR hst
  rw [hso.add, DVec.add_of] at h9
  refine ⟨g, x + dx, h1, (Option.some.inj h9).symm, fun a ha => ?_⟩
  show x a + dx a = x a
  rw [h8.others a ha]; simp

/-- **C40, the part that holds: `correct` leaves inactive states alone** (EKFVS, default vector operations). -/
theorem C40_ekfvs_correct_partial {sc : SysClass T NonlinSysData X} {mc : K → MeasClass T NonlinMeasData Y}
    (hsc : SysContract NonlinSysData.Sized sc) (hso : sc.PlainOps) (hmc : ∀ j, MeasContract NonlinMeasData.Sized (mc j))
    (f : Filter T DVec DMat K (Env K NonlinSysData X NonlinMeasData Y)) (j : K)
    (hs : f.env.sys.Sized NonlinSysData.Sized n m) (hm : (f.env.meas j).Sized NonlinMeasData.Sized n k)
    {σ : Fin ns → Fin n} (hσ : Selects f.env.sys.activeStates σ)
    {ρ : Fin ks → Fin k} (hρ : Selects (f.env.meas j).activeMeasurements ρ)
    {x : Fin n → ℝ} {P : Matrix (Fin n) (Fin n) ℝ} (hx : f.getState = .of x) (hP : f.getCovariance = .of P)
    (hPsd : (P.submatrix σ σ).PosSemidef) (z : Fin k → ℝ) (R : Matrix (Fin k) (Fin k) ℝ) (hR : R.PosDef)
    (hst : ((f.env.meas j).fm.checkStationary && (f.env.meas j).fm.isStationary (.of x) (.of z)) = false) :
    ∃ g x', f.correct (ekfvsPlant sc mc) (.of z) (.of R) f.getStateTime (some j) = some g ∧ g.getState = .of x' ∧
      ∀ a, (∀ i, σ i ≠ a) → x' a = x a := by
  obtain ⟨g, C, L, dz, dx, P', h1, _, _, _, _, _, h8, h9, _⟩ :=
    C41_ekfvs_correct hsc hmc f j hs hm hσ hρ hx hP hPsd z R hR hst
  rw [hso.add, DVec.add_of] at h9
  refine ⟨g, x + dx, h1, (Option.some.inj h9).symm, fun a ha => ?_⟩
  show x a + dx a = x a
  rw [h8.others a ha]; simp

/-- **C40 is false of KalmanFilterVS: `predict` sets every inactive state to zero**, for every model and every state. -/
theorem C40_refuted_kfvs {sc : SysClass T LinSysData X} {mc : K → MeasClass T LinMeasData Y}
    (hsc : SysContract LinSysData.Sized sc) (hso : sc.PlainOps)
    (f : Filter T DVec DMat K (Env K LinSysData X LinMeasData Y)) (hs : f.env.sys.Sized LinSysData.Sized n m)
    {σ : Fin ns → Fin n} (hσ : Selects f.env.sys.activeStates σ) {τ : Fin ms → Fin m} (hτ : Selects f.env.sys.activeControls τ)
    {x : Fin n → ℝ} {P : Matrix (Fin n) (Fin n) ℝ} (hx : f.getState = .of x) (hP : f.getCovariance = .of P)
    (u : Fin m → ℝ) (hm : 0 < m) (t : T) (ht : f.getStateTime ≤ t)
    (hst : (f.env.sys.fm.checkStationary && f.env.sys.fm.isStationary (.of x) (.of u)) = false) :
    ∃ g x', f.predictControl (kfvsPlant sc mc) (.of u) t = some g ∧ g.getState = .of x' ∧ ∀ a, (∀ i, σ i ≠ a) → x' a = 0 := by
  obtain ⟨g, p, A, B, W, V, Rp, Rc, a, b, P', h1, _, _, _, _, _, _, _, h9, h10, h11, _⟩ :=
    C41_kfvs_predict (mc := mc) hsc f hs hσ hτ hx hP u hm t ht hst
  rw [hso.add, DVec.add_of] at h11
  refine ⟨g, a + b, h1, (Option.some.inj h11).symm, fun i hi => ?_⟩
  show a i + b i = 0
  rw [h9.others i hi, h10.others i hi]; simp

end Step

end Props
end StateEstimation
