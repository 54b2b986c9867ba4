import Verif.Lemmas.UKFApi
import Verif.Lemmas.WithApi
import Verif.Examples.Quad
import Verif.Props.Kalman

/-!
# C34, C36–C38, C68: the unscented Kalman filter

`ukfPlant llt junk sc mc` is the UKF for models of classes `sc` and `mc`; `llt` is Eigen's Cholesky factorisation, of which
only `LltSpec` is assumed; `junk` is the content of uninitialised memory.  The filter's environment is a pair: the models
and the sigma point parameters.  The weights, the weighted mean and the weighted covariance are specified in
`Spec/Sigma.lean`.
-/

set_option linter.unusedSectionVars false

namespace StateEstimation
namespace Props

open Matrix Kalman Sigma Examples

variable {T K X Y : Type} [DecidableEq K] {n m k p : Nat}

/-! ### C34: the weights -/

/-- **C34.**  `setSigmaPointParameters(alpha, kappa, beta)` on a filter whose model has `n` states, with
`alpha² (n + kappa) ≠ 0`: there are `2n+1` mean weights that sum to one and `2n+1` covariance weights that sum to
`2 - alpha² + beta`; all but the first are `1 / (2 alpha² (n + kappa))`. -/
theorem C34_weights (al ka be : ℝ) {m : Nat} (e : Env K NonlinSysData X NonlinMeasData Y × SigmaParams)
    (hs : e.1.sys.Sized NonlinSysData.Sized n m) (h : al ^ 2 * (n + ka) ≠ 0) :
    ∃ sp : SigmaParams, ∃ (w c : Fin (2 * n + 1) → ℝ), ukfSetSigma al ka be e = some (e.1, sp) ∧ sp.num = 2 * n + 1 ∧
      sp.wMean = .of w ∧ sp.wCov = .of c ∧ ∑ i, w i = 1 ∧ ∑ i, c i = 2 - al ^ 2 + be ∧
      (∀ i, i ≠ 0 → w i = 1 / (2 * (al ^ 2 * (n + ka))) ∧ c i = w i) ∧
      w 0 = 1 - n / (al ^ 2 * (n + ka)) ∧ c 0 = w 0 + (1 - al ^ 2 + be) ∧ sp.lambda = al ^ 2 * (n + ka) - n := by
  have hn : (n : ℝ) + (al ^ 2 * (n + ka) - n) ≠ 0 := by rw [add_sub_cancel]; exact h
  have h0 : ∃ sp, setSigma n n al ka be = some sp := by
    unfold setSigma
    simp only [hn, if_false, Option.bind_eq_bind]
    simp [DVec.set?, DVec.get?, DVec.const]
  obtain ⟨sp, hsp⟩ := h0
  obtain ⟨lam, e1, e2, rfl⟩ := setSigma_eq hsp
  have hg : e.1.sys.der.g.size = n := hs.der.1
  have hws : ∀ (a b : ℝ), ∑ i : Fin (2 * n + 1), (if i.val = 0 then a else b) = a + (2 * n : ℕ) * b := by
    intro a b
    rw [Fin.sum_univ_succ]
    simp
  have hlam : lam = al ^ 2 * (n + ka) - n := by linarith
  refine ⟨⟨2 * n + 1, lam, .of (fun j : Fin (2 * n + 1) => wm n lam j), .of (fun j : Fin (2 * n + 1) => wc n lam (be - al ^ 2) j)⟩, fun j => wm n lam j, fun j => wc n lam (be - al ^ 2) j, ?_, rfl, rfl, rfl, ?_, ?_, ?_, ?_, ?_, hlam⟩
  · unfold ukfSetSigma
    rw [hg, hs.states, hsp]; rfl
  · unfold wm; rw [hws]; exact wm_sum e2
  · unfold wc; rw [hws]; have := wm_sum e2; linarith
  · intro i hi
    have hi' : i.val ≠ 0 := fun h => hi (Fin.ext h)
    show (if _ then _ else _) = _ ∧ (if _ then _ else _) = (if _ then _ else _)
    rw [if_neg hi', if_neg hi', e1]
    refine ⟨?_, rfl⟩
    field_simp; norm_num
  · show (if _ then _ else _) = _
    rw [if_pos (by simp), hlam, add_sub_cancel, sub_div, div_self h]
  · show (if _ then _ else _) = (if _ then _ else _) + _
    rw [if_pos (by simp), if_pos (by simp)]; ring

/-- **C34, defaults.**  The constructor's parameters (0.001, 0, 2) are admissible for every model with at least one
state. -/
theorem C34_defaults (hn : 0 < n) (e : Env K NonlinSysData X NonlinMeasData Y) (hs : e.sys.Sized NonlinSysData.Sized n m) :
    ∃ sp, ukfInitSigma e = some sp ∧ SigmaAdmissible n sp := by
  have hn' : (0 : ℝ) < n := by exact_mod_cast hn
  obtain ⟨sp, w, c, h1, _⟩ := C34_weights 0.001 0 2 (e, ⟨0, 0, .empty, .empty⟩) hs (by positivity)
  have hg : e.sys.der.g.size = n := hs.der.1
  unfold ukfSetSigma at h1
  dsimp only at h1
  rw [hg, hs.states] at h1
  cases h2 : setSigma n n 0.001 0 2 with
  | none => rw [h2] at h1; cases h1
  | some sp' =>
    refine ⟨sp', ?_, 0.001, 0, 2, h2, by positivity, by norm_num⟩
    unfold ukfInitSigma
    rw [hg, hs.states, h2]

/-- **C34, edge of the domain.**  With `alpha = 0` or `kappa = -n` the weights are undefined (a division by zero in the
program). -/
theorem C34_degenerate (al ka be : ℝ) (e : Env K NonlinSysData X NonlinMeasData Y × SigmaParams)
    (hs : e.1.sys.Sized NonlinSysData.Sized n m) (h : al ^ 2 * (n + ka) = 0) : ukfSetSigma al ka be e = none := by
  have hg : e.1.sys.der.g.size = n := hs.der.1
  unfold ukfSetSigma setSigma
  rw [hg, hs.states]
  simp [h]

/-! ### Every call sequence -/

section Trace

variable [TimeOps T] [SaneTime T]

/-- **C36/C37 over every history.**  With positive definite initial covariance, process noise that is positive definite and
reaches every state, positive definite measurement covariances and admissible sigma point parameters, no sequence of
well-sized API calls to the UKF (including `setSigmaPointParameters` and other changes to the models between calls, any
time stamps, rewinds and queues) ever fails, and the current and every remembered covariance is symmetric positive
definite. -/
theorem C36_C37_ukf_every_history {llt : DMat → Option DMat} (hllt : LltSpec llt) (junk : Nat → Nat → ℝ)
    {sc : SysClass T NonlinSysData X} {mc : K → MeasClass T NonlinMeasData Y}
    (hsc : SysContract NonlinSysData.Sized sc) (hso : sc.PlainOps)
    (hsp : sc.SpreadsNoise NonlinSysData.Sized n m p) (hmc : ∀ j, MeasContract NonlinMeasData.Sized (mc j))
    (hmo : ∀ j, (mc j).PlainOps) (kd : K → Nat)
    (sort : List (FilterInput T DVec DMat K) → List (FilterInput T DVec DMat K)) (hsort : ∀ l, (sort l).Perm l)
    (params : Params T) (e : Env K NonlinSysData X NonlinMeasData Y × SigmaParams)
    (he : Env.Ok NonlinSysData.Sized NonlinMeasData.Sized (NoisePD p) (EstimatePD n) n m kd e.1)
    (hsig : SigmaAdmissible n e.2)
    (x : DVec) (c : DMat) (t : T) (hx : EstimatePD n x c)
    (ops : List (Op T DVec DMat K (Env K NonlinSysData X NonlinMeasData Y × SigmaParams)))
    (hops : ∀ op ∈ ops, op.WellFormed (EstimatePD n)
      (fun e => Env.Ok NonlinSysData.Sized NonlinMeasData.Sized (NoisePD p) (EstimatePD n) n m kd e.1 ∧
        SigmaAdmissible n e.2) m kd DMat.PD) :
    ∃ g, (Filter.construct (ukfPlant llt junk sc mc) params e x c t).run (ukfPlant llt junk sc mc) sort ops = some g ∧
      ∀ s ∈ g.retained, s.x.size = n ∧ s.covariance.Is n n ∧ s.covariance.PD := by
  obtain ⟨g, h1, h2, _⟩ := OptP.exists_of_total
    (run_of_inv (ukf_inv_pd hllt junk hsc hso hsp hmc hmo kd) rfl sort hsort params e ⟨he, hsig⟩ x c t hx ops hops)
  exact ⟨g, h1, fun s hs => ⟨(h2 s hs).1.1, (h2 s hs).1.2, (h2 s hs).2⟩⟩

/-- `setSigmaPointParameters` with admissible parameters is a well-formed call at any time. -/
theorem setSigma_wellFormed {kd : K → Nat} {N : DMat → DMat → Prop} {Q : DVec → DMat → Prop} (al ka be : ℝ)
    (h1 : 0 < al ^ 2 * (n + ka)) (h2 : al ^ 2 ≤ be) :
    (Op.userModel (T := T) (V := DVec) (M := DMat) (K := K) (ukfSetSigma (K := K) (X := X) (DM := NonlinMeasData) (XM := Y) al ka be)).WellFormed Q
      (fun e => Env.Ok NonlinSysData.Sized NonlinMeasData.Sized N Q n m kd e.1 ∧ SigmaAdmissible n e.2) m kd DMat.PD := by
  intro e he
  obtain ⟨sp, w, c, h3, _⟩ := C34_weights al ka be e he.1.sys h1.ne'
  refine ⟨_, h3, he.1, al, ka, be, ?_, h1, h2⟩
  have hg : e.1.sys.der.g.size = n := he.1.sys.der.1
  unfold ukfSetSigma at h3
  rw [hg, he.1.sys.states] at h3
  cases h4 : setSigma n n al ka be with
  | none => rw [h4] at h3; cases h3
  | some sp' => rw [h4] at h3; injection h3 with h3; injection h3 with _ h3; rw [h3]

end Trace

/-! ### One step -/

section Step

variable [LinearOrder T] [ExactTime T]

/-- **C36 and C68 (predict).**  An in-order `predict(u, t)` (moving, default vector operations) with positive definite `P`
and admissible parameters succeeds.  It propagates `2n+1` points, `x` and `x ± Lᵢ` with `L Lᵀ = alpha² (n + kappa) P`,
through the model with the elapsed time; the new state is their weighted mean and the new covariance is their weighted
covariance plus `W Rp Wᵀ + V Rc Vᵀ`; it is positive semidefinite.  `W` and `V` are the noise Jacobians the model reports
*after its last update*, which was at `x - Lₙ` (see C38). -/
theorem C36_ukf_predict {llt : DMat → Option DMat} (hllt : LltSpec llt) (junk : Nat → Nat → ℝ)
    {sc : SysClass T NonlinSysData X} {mc : K → MeasClass T NonlinMeasData Y}
    (hsc : SysContract NonlinSysData.Sized sc) (hso : sc.PlainOps)
    (f : Filter T DVec DMat K (Env K NonlinSysData X NonlinMeasData Y × SigmaParams))
    (hs : f.env.1.sys.Sized NonlinSysData.Sized n m) {al ka be : ℝ} (hsp : setSigma n n al ka be = some f.env.2)
    (hal : 0 < al ^ 2 * (n + ka)) (hbe : al ^ 2 ≤ be)
    {x : Fin n → ℝ} {P : Matrix (Fin n) (Fin n) ℝ} (hx : f.getState = .of x) (hP : f.getCovariance = .of P)
    (hPd : P.PosDef) (u : Fin m → ℝ) (hm : 0 < m) (hn : 0 < n) (t : T) (ht : f.getStateTime ≤ t)
    (hst : (f.env.1.sys.fm.checkStationary && f.env.1.sys.fm.isStationary (.of x) (.of u)) = false) :
    ∃ g p, ∃ (L : Matrix (Fin n) (Fin n) ℝ) (y : Nat → Fin n → ℝ) (W : Matrix (Fin n) (Fin p) ℝ)
      (V : Matrix (Fin n) (Fin m) ℝ) (Rp : Matrix (Fin p) (Fin p) ℝ) (Rc : Matrix (Fin m) (Fin m) ℝ),
      f.predictControl (ukfPlant llt junk sc mc) (.of u) t = some g ∧ g.getStateTime = t ∧ g.env.2 = f.env.2 ∧
      L * Lᵀ = (al ^ 2 * (n + ka)) • P ∧
      SysImage sc n m f.env.1.sys (.of x) (.of u) (TimeOps.sub t f.getStateTime) (y 0) ∧
      (∀ i < n, SysImage sc n m f.env.1.sys (.of (x + colsOf L i)) (.of u) (TimeOps.sub t f.getStateTime) (y (i + 1)) ∧
        SysImage sc n m f.env.1.sys (.of (x - colsOf L i)) (.of u) (TimeOps.sub t f.getStateTime) (y (i + 1 + n))) ∧
      f.env.1.sys.UpdatedAt sc n m (.of (x - colsOf L (n - 1))) (.of u) (TimeOps.sub t f.getStateTime) g.env.1.sys ∧
      g.env.1.sys.P = .of W ∧ g.env.1.sys.V = .of V ∧ f.env.1.sys.Rp = .of Rp ∧ f.env.1.sys.Rc = .of Rc ∧
      g.getState = .of (mean n (al ^ 2 * (n + ka) - n) y) ∧
      g.getCovariance = .of (W * Rp * Wᵀ + V * Rc * Vᵀ +
        cross n (al ^ 2 * (n + ka) - n) (be - al ^ 2) y y (mean n (al ^ 2 * (n + ka) - n) y)
          (mean n (al ^ 2 * (n + ka) - n) y)) ∧
      (Rp.PosSemidef → Rc.PosSemidef → g.getCovariance.PSD) := by
  obtain ⟨lam, e1, e2, e3⟩ := setSigma_eq hsp
  have hlam : lam = al ^ 2 * (n + ka) - n := by linarith
  subst hlam
  have hpos : 0 < (n : ℝ) + (al ^ 2 * (n + ka) - n) := by rw [e1]; exact hal
  obtain ⟨L, hL, hLL⟩ := hllt.scaled hpos hPd
  obtain ⟨s', p, y, W, V, Rp, Rc, e, hs', hc, hy0, hy, hup, hW, hV, hRp, hRc⟩ :=
    ukfPredict_of (d := be - al ^ 2) hsc hso junk hs hL x (u := .of u) rfl (TimeOps.sub t f.getStateTime)
      (fun s => ({ f.env.1 with sys := s } : Env K NonlinSysData X NonlinMeasData Y))
  obtain ⟨g, h1, h2, h3, h4, h5, h6⟩ := with_predict_now (sc := sc) (mc := mc)
    (predict := fun sp e x cov u dt => ukfPredict llt junk sc sp e.sys x cov u dt fun s => { e with sys := s })
    (correct := fun sp e x cov z k dt => ukfCorrect llt junk sc (mc k) sp e.sys (e.meas k) x cov z dt (e.setMeas k))
    f (.of u) hm t ht (by rw [hs.controls]; exact hs.Rc) (by rw [hx]; exact hst) (by rw [hx, hP, e3]; exact e)
  refine ⟨g, p, L, y, W, V, Rp, Rc, h1, h4, by rw [h5], by rw [hLL, e1], hy0, hy, ?_, by rw [h5]; exact hW, by rw [h5]; exact hV,
    hRp, hRc, h2, h3, ?_⟩
  · rw [h5]
    rcases hup with ⟨h, _⟩ | ⟨_, h⟩
    · omega
    · exact h
  · intro q1 q2
    rw [h3, DMat.PSD_of]
    exact ((psd_conj q1 W).add (psd_conj q2 V)).add (unscented_psd hpos (by linarith) y)

/-- `C37_ukf_correct`, with the factor named -/
theorem ukf_correct_factor {llt : DMat → Option DMat} (hllt : LltSpec llt) (junk : Nat → Nat → ℝ)
    {sc : SysClass T NonlinSysData X} {mc : K → MeasClass T NonlinMeasData Y}
    (hso : sc.PlainOps) (hmc : ∀ j, MeasContract NonlinMeasData.Sized (mc j)) (hmo : ∀ j, (mc j).PlainOps)
    (f : Filter T DVec DMat K (Env K NonlinSysData X NonlinMeasData Y × SigmaParams)) (j : K)
    (hs : f.env.1.sys.Sized NonlinSysData.Sized n m) (hm : (f.env.1.meas j).Sized NonlinMeasData.Sized n k)
    {al ka be : ℝ} (hsp : setSigma n n al ka be = some f.env.2)
    (hal : 0 < al ^ 2 * (n + ka)) (hbe : al ^ 2 ≤ be)
    {x : Fin n → ℝ} {P : Matrix (Fin n) (Fin n) ℝ} (hx : f.getState = .of x) (hP : f.getCovariance = .of P)
    (hPd : P.PosDef) (z : Fin k → ℝ) (R : Matrix (Fin k) (Fin k) ℝ) (hR : R.PosDef)
    (hst : ((f.env.1.meas j).fm.checkStationary && (f.env.1.meas j).fm.isStationary (.of x) (.of z)) = false) :
    ∃ g, ∃ (L : Matrix (Fin n) (Fin n) ℝ) (q : Nat → Fin n → ℝ) (y : Nat → Fin k → ℝ) (zHat : Fin k → ℝ)
      (S : Matrix (Fin k) (Fin k) ℝ) (D G : Matrix (Fin n) (Fin k) ℝ) (P' : Matrix (Fin n) (Fin n) ℝ),
      f.correct (ukfPlant llt junk sc mc) (.of z) (.of R) f.getStateTime (some j) = some g ∧
      g.getStateTime = f.getStateTime ∧ g.env.2 = f.env.2 ∧
      llt (.of (((n : ℝ) + (al ^ 2 * (n + ka) - n)) • P)) = some (.of L) ∧ L * Lᵀ = (al ^ 2 * (n + ka)) • P ∧
      q 0 = x ∧ (∀ i < n, q (i + 1) = x + colsOf L i ∧ q (i + 1 + n) = x - colsOf L i) ∧
      (∀ i < 2 * n + 1, MeasImage (mc j) n k ((f.env.1.meas j).withCov (.of R)) (.of (q i))
        (TimeOps.sub f.getStateTime f.getStateTime) (y i)) ∧
      zHat = mean n (al ^ 2 * (n + ka) - n) y ∧
      S = R + cross n (al ^ 2 * (n + ka) - n) (be - al ^ 2) y y zHat zHat ∧
      D = cross n (al ^ 2 * (n + ka) - n) (be - al ^ 2) q y x zHat ∧
      G = D * S⁻¹ ∧ g.getState = .of (x + G *ᵥ (z - zHat)) ∧ g.getCovariance = .of P' ∧ P' = P - G * S * Gᵀ ∧
      P'.PosDef ∧ (P - P').PosSemidef := by
  obtain ⟨lam, e1, e2, e3⟩ := setSigma_eq hsp
  have hlam : lam = al ^ 2 * (n + ka) - n := by linarith
  subst hlam
  have hpos : 0 < (n : ℝ) + (al ^ 2 * (n + ka) - n) := by rw [e1]; exact hal
  obtain ⟨L, hL, hLL⟩ := hllt.scaled hpos hPd
  have hms : ((f.env.1.meas j).withCov (.of R)).Sized NonlinMeasData.Sized n k := ⟨hm.states, hm.meas, hm.der, rfl, rfl⟩
  obtain ⟨m', q, y, R2, hm', hc, hRe, hq0, hq, hy0, hy, e⟩ := ukfCorrect_of (d := be - al ^ 2) hso (hmc j) (hmo j) junk hs hms hL x z
    (TimeOps.sub f.getStateTime f.getStateTime) (f.env.1.setMeas j)
  have hRe' : R = R2 := DMat.of_inj.mp hRe
  subst hRe'
  have hd : 0 ≤ be - al ^ 2 := by linarith
  have hS : (R + cross n (al ^ 2 * (n + ka) - n) (be - al ^ 2) y y (mean n (al ^ 2 * (n + ka) - n) y)
      (mean n (al ^ 2 * (n + ka) - n) y)).PosDef := hR.add_posSemidef (unscented_psd hpos hd y)
  obtain ⟨R', hR', f1, f2, f3⟩ := ukf_post_eq hpos hd hLL hq y hR
  have e' := e (pd_isUnit_det hS)
  obtain ⟨g, h1, h2, h3, h4, h5, h6⟩ := with_correct_now (sc := sc) (mc := mc)
    (predict := fun sp e x cov u dt => ukfPredict llt junk sc sp e.sys x cov u dt fun s => { e with sys := s })
    (correct := fun sp e x cov z k dt => ukfCorrect llt junk sc (mc k) sp e.sys (e.meas k) x cov z dt (e.setMeas k))
    (e := f.env.1.setMeas j m')
    f (.of z) (.of R) j (by rw [hm.meas]; exact ⟨rfl, rfl⟩) (by rw [hx]; exact hst) (by
      rw [hx, hP, e3, Env.setMeas_meas]
      have hback : (f.env.1.setMeas j ((f.env.1.meas j).withCov (.of R))).setMeas j = f.env.1.setMeas j := by
        funext a; exact Env.setMeas_setMeas _ _ _ _
      rw [hback]
      exact e')
  refine ⟨g, L, q, y, _, _, _, _, _, h1, h4, by rw [h5], hL, by rw [hLL, e1], hq0, ?_, ?_, rfl, rfl, by rw [← hq0], rfl, h2, h3, rfl, ?_, ?_⟩
  · intro i hi; rw [← hq0]; exact hq i hi
  · intro i hi
    rcases Nat.eq_zero_or_pos i with rfl | h0
    · rw [hq0]; exact hy0
    · by_cases hin : i ≤ n
      · obtain ⟨i, rfl⟩ := Nat.exists_eq_add_of_le h0
        have := (hy i (by omega)).1
        rw [show Nat.succ 0 + i = i + 1 by omega, (hq i (by omega)).1, hq0]
        exact this
      · obtain ⟨i, rfl⟩ := Nat.exists_eq_add_of_le (show n + 1 ≤ i by omega)
        have := (hy i (by omega)).2
        rw [show n + 1 + i = i + 1 + n by omega, (hq i (by omega)).2, hq0]
        exact this
  · rw [f1, f2]
    conv => arg 1; arg 1; rw [f3]
    rw [post_white _ _ hR']
    exact pd_conj_white (by rw [← f3]; exact hPd) (post_white_pd _ hR')
  · rw [sub_sub_cancel]
    exact psd_conj hS.posSemidef _

/-- **C37 and C68 (correct).**  `correct(z, R, t, j)` at the current time (moving, default vector operations) with positive
definite `P` and `R` and admissible parameters succeeds.  It maps `x` and `x ± Lᵢ` (`L Lᵀ = alpha² (n + kappa) P`) through
the measurement model; with `ẑ` their weighted mean, `S = R +` weighted covariance, `D` the weighted cross covariance of the
points about `x` and their images about `ẑ`: the state becomes `x + D S⁻¹ (z - ẑ)`, the covariance
`P - D S⁻¹ S (D S⁻¹)ᵀ`, which is positive definite and not larger than `P`. -/
theorem C37_ukf_correct {llt : DMat → Option DMat} (hllt : LltSpec llt) (junk : Nat → Nat → ℝ)
    {sc : SysClass T NonlinSysData X} {mc : K → MeasClass T NonlinMeasData Y}
    (hso : sc.PlainOps) (hmc : ∀ j, MeasContract NonlinMeasData.Sized (mc j)) (hmo : ∀ j, (mc j).PlainOps)
    (f : Filter T DVec DMat K (Env K NonlinSysData X NonlinMeasData Y × SigmaParams)) (j : K)
    (hs : f.env.1.sys.Sized NonlinSysData.Sized n m) (hm : (f.env.1.meas j).Sized NonlinMeasData.Sized n k)
    {al ka be : ℝ} (hsp : setSigma n n al ka be = some f.env.2)
    (hal : 0 < al ^ 2 * (n + ka)) (hbe : al ^ 2 ≤ be)
    {x : Fin n → ℝ} {P : Matrix (Fin n) (Fin n) ℝ} (hx : f.getState = .of x) (hP : f.getCovariance = .of P)
    (hPd : P.PosDef) (z : Fin k → ℝ) (R : Matrix (Fin k) (Fin k) ℝ) (hR : R.PosDef)
    (hst : ((f.env.1.meas j).fm.checkStationary && (f.env.1.meas j).fm.isStationary (.of x) (.of z)) = false) :
    ∃ g, ∃ (L : Matrix (Fin n) (Fin n) ℝ) (q : Nat → Fin n → ℝ) (y : Nat → Fin k → ℝ) (zHat : Fin k → ℝ)
      (S : Matrix (Fin k) (Fin k) ℝ) (D G : Matrix (Fin n) (Fin k) ℝ) (P' : Matrix (Fin n) (Fin n) ℝ),
      f.correct (ukfPlant llt junk sc mc) (.of z) (.of R) f.getStateTime (some j) = some g ∧
      g.getStateTime = f.getStateTime ∧ g.env.2 = f.env.2 ∧
      L * Lᵀ = (al ^ 2 * (n + ka)) • P ∧
      q 0 = x ∧ (∀ i < n, q (i + 1) = x + colsOf L i ∧ q (i + 1 + n) = x - colsOf L i) ∧
      (∀ i < 2 * n + 1, MeasImage (mc j) n k ((f.env.1.meas j).withCov (.of R)) (.of (q i))
        (TimeOps.sub f.getStateTime f.getStateTime) (y i)) ∧
      zHat = mean n (al ^ 2 * (n + ka) - n) y ∧
      S = R + cross n (al ^ 2 * (n + ka) - n) (be - al ^ 2) y y zHat zHat ∧
      D = cross n (al ^ 2 * (n + ka) - n) (be - al ^ 2) q y x zHat ∧
      G = D * S⁻¹ ∧ g.getState = .of (x + G *ᵥ (z - zHat)) ∧ g.getCovariance = .of P' ∧ P' = P - G * S * Gᵀ ∧
      P'.PosDef ∧ (P - P').PosSemidef := by
  obtain ⟨g, L, q, y, zHat, S, D, G, P', h1, h2, h3, -, h⟩ := ukf_correct_factor hllt junk hso hmc hmo f j hs hm hsp hal hbe hx hP hPd z R hR hst
  exact ⟨g, L, q, y, zHat, S, D, G, P', h1, h2, h3, h⟩

/-- **C38, the part that holds.**  If the noise Jacobians the model reports do not depend on the state it was updated with
(nor on its own past), the ones used in the prediction are those at the current estimate.  Missing from C38: everything
else, see `C38_refuted`. -/
theorem C38_state_independent_partial {llt : DMat → Option DMat} (hllt : LltSpec llt) (junk : Nat → Nat → ℝ)
    {sc : SysClass T NonlinSysData X} {mc : K → MeasClass T NonlinMeasData Y}
    (hsc : SysContract NonlinSysData.Sized sc) (hso : sc.PlainOps)
    (f : Filter T DVec DMat K (Env K NonlinSysData X NonlinMeasData Y × SigmaParams))
    (hs : f.env.1.sys.Sized NonlinSysData.Sized n m) {al ka be : ℝ} (hsp : setSigma n n al ka be = some f.env.2)
    (hal : 0 < al ^ 2 * (n + ka)) (hbe : al ^ 2 ≤ be)
    {x : Fin n → ℝ} {P : Matrix (Fin n) (Fin n) ℝ} (hx : f.getState = .of x) (hP : f.getCovariance = .of P)
    (hPd : P.PosDef) (u : Fin m → ℝ) (hm : 0 < m) (hn : 0 < n) (t : T) (ht : f.getStateTime ≤ t)
    (hst : (f.env.1.sys.fm.checkStationary && f.env.1.sys.fm.isStationary (.of x) (.of u)) = false)
    (hind : ∀ (a b : Fin n → ℝ) s s' dt, f.env.1.sys.UpdatedAt sc n m (.of a) (.of u) dt s →
      f.env.1.sys.UpdatedAt sc n m (.of b) (.of u) dt s' → s.P = s'.P ∧ s.V = s'.V) :
    ∃ g s p, ∃ (y : Nat → Fin n → ℝ) (W : Matrix (Fin n) (Fin p) ℝ)
      (V : Matrix (Fin n) (Fin m) ℝ) (Rp : Matrix (Fin p) (Fin p) ℝ) (Rc : Matrix (Fin m) (Fin m) ℝ),
      f.predictControl (ukfPlant llt junk sc mc) (.of u) t = some g ∧
      sc.myUpdate f.env.1.sys (.of x) (.of u) (TimeOps.sub t f.getStateTime) = some s ∧ s.P = .of W ∧ s.V = .of V ∧
      f.env.1.sys.Rp = .of Rp ∧ f.env.1.sys.Rc = .of Rc ∧
      g.getCovariance = .of (W * Rp * Wᵀ + V * Rc * Vᵀ +
        cross n (al ^ 2 * (n + ka) - n) (be - al ^ 2) y y (mean n (al ^ 2 * (n + ka) - n) y)
          (mean n (al ^ 2 * (n + ka) - n) y)) := by
  obtain ⟨g, p, L, y, W, V, Rp, Rc, h1, _, _, _, _, _, h7, h8, h9, h10, h11, _, h13, _⟩ :=
    C36_ukf_predict hllt junk (mc := mc) hsc hso f hs hsp hal hbe hx hP hPd u hm hn t ht hst
  obtain ⟨s, hs1, hs2, hs3⟩ := hsc.update f.env.1.sys (.of x) (.of u) (TimeOps.sub t f.getStateTime) hs rfl rfl
  have := hind x _ s _ _ ⟨f.env.1.sys, hs, Sys.SameConfig.refl _, hs1⟩ h7
  exact ⟨g, s, p, y, W, V, Rp, Rc, h1, hs1, by rw [this.1, h8], by rw [this.2, h9], h10, h11, h13⟩

end Step

/-! ### Witnesses -/

/-- The prediction theorem applies to the quadratic model with the constructor's parameters. -/
example (junk : Nat → Nat → ℝ) (f : Filter ℝ DVec DMat Unit (Env Unit NonlinSysData Unit NonlinMeasData Unit × SigmaParams))
    (sp : SigmaParams) (hsp : setSigma 1 1 0.001 0 2 = some sp) :
    ∃ g, (Filter.construct (ukfPlant someLlt junk quadClass fun _ => squareClass)
      { allowPast := true, rewindHistory := true, historyWindow := 5 } (quadEnv, sp) (.zero 1) (.identity 1) 0).run
      (ukfPlant someLlt junk quadClass fun _ => squareClass) (fun l => l)
      [.predictControl (.const 1 3) 2, .correct (.const 1 7) (.identity 1) 1 (some ()), .userModel (ukfSetSigma 1 2 3),
       .predictControl .empty 4, .enqueueMeasurement (.const 1 7) (.identity 1) 11 (some ()), .processQueues]
      = some g ∧ ∀ s ∈ g.retained, s.x.size = 1 ∧ s.covariance.Is 1 1 ∧ s.covariance.PD := by
  refine C36_C37_ukf_every_history (m := 1) (p := 1) (T := ℝ) someLlt_spec junk quad_contract (plain_ops _) quad_spreads
    (fun _ => square_contract) (fun _ => plain_mops _) (fun _ => 1) _ (fun _ => .refl _) _ _ quadEnv_ok
    ⟨_, _, _, hsp, by norm_num, by norm_num⟩ _ _ _ quad_estimate _ ?_
  intro op hop
  simp only [List.mem_cons, List.not_mem_nil, or_false] at hop
  rcases hop with rfl | rfl | rfl | rfl | rfl | rfl
  · exact Or.inl rfl
  · exact ⟨(), rfl, rfl, ⟨rfl, rfl⟩, identity_pd 1⟩
  · exact setSigma_wellFormed 1 2 3 (by norm_num) (by norm_num)
  · exact Or.inr rfl
  · exact ⟨(), rfl, rfl, ⟨rfl, rfl⟩, identity_pd 1⟩
  · trivial

/-- `g() = x` and a process noise Jacobian that depends on the state: `P = x`. -/
noncomputable def noiseClass : SysClass ℝ NonlinSysData Unit :=
  SysClass.plain fun s x _ _ =>
    if s.stateSize = 1 ∧ s.controlDims = 1 ∧ s.Rp.rows = 1 then
      some { s with der := ⟨vec1 (head x), mat1 1⟩
                    P := mat1 (head x)
                    V := mat1 0 }
    else some s

theorem noise_contract : SysContract NonlinSysData.Sized noiseClass := by
  apply plain_contract
  intro n m s x u dt hs hx hu
  split
  next h =>
    obtain ⟨h1, h2, h3⟩ := h
    have hn : n = 1 := by rw [← hs.states]; exact h1
    have hm : m = 1 := by rw [← hs.controls]; exact h2
    subst hn hm
    exact ⟨_, rfl, ⟨hs.states, hs.controls, ⟨rfl, rfl, rfl⟩, ⟨rfl, h3.symm⟩, hs.Rp, ⟨rfl, rfl⟩, hs.Rc⟩,
      ⟨rfl, rfl, rfl, rfl, rfl⟩⟩
  next => exact ⟨s, rfl, hs, Sys.SameConfig.refl s⟩

theorem noise_updated (q u : DVec) (dt : ℝ) (s' : Sys NonlinSysData Unit)
    (h : quadEnv.sys.UpdatedAt noiseClass 1 1 q u dt s') : s'.der.g = vec1 (head q) ∧ s'.P = mat1 (head q) ∧ s'.V = mat1 0 ∧ s'.der.G = mat1 1 := by
  obtain ⟨s, h1, h2, h3⟩ := h
  change (if _ then _ else _) = _ at h3
  rw [if_pos ⟨h1.states, h1.controls, by rw [h2.Rp]; rfl⟩] at h3
  injection h3 with h3
  subst h3
  exact ⟨rfl, rfl, rfl, rfl⟩

/-- **C38 is false.**  One state `x = 0` with covariance 1, `g() = x`, process noise Jacobian `P(x) = x`, unit process noise,
the constructor's sigma point parameters.  At the current estimate the process noise Jacobian is 0, so the noise term
should vanish (the EKF's covariance stays 1); the UKF's covariance becomes `1 + 0.001²`. -/
theorem C38_refuted {llt : DMat → Option DMat} (hllt : LltSpec llt) (junk : Nat → Nat → ℝ) (sp : SigmaParams)
    (hsp : ukfInitSigma quadEnv = some sp) (params : Params ℝ) :
    (∃ s, noiseClass.myUpdate quadEnv.sys (vec1 0) (vec1 5) 1 = some s ∧ s.P = mat1 0) ∧
    (∃ g, (Filter.construct (ekfPlant noiseClass fun _ : Unit => squareClass) params quadEnv (vec1 0) (mat1 1) 0).predictControl
        (ekfPlant noiseClass fun _ : Unit => squareClass) (vec1 5) 1 = some g ∧ g.getCovariance = mat1 1) ∧
    (∃ g, (Filter.construct (ukfPlant llt junk noiseClass fun _ : Unit => squareClass) params (quadEnv, sp) (vec1 0) (mat1 1)
        0).predictControl (ukfPlant llt junk noiseClass fun _ : Unit => squareClass) (vec1 5) 1 = some g ∧
      g.getCovariance = mat1 (1 + 0.001 ^ 2)) := by
  have hR : (1 : Matrix (Fin 1) (Fin 1) ℝ) = !![1] := by ext i j; fin_cases i; fin_cases j; rfl
  have hone : (!![(1 : ℝ)] : Matrix (Fin 1) (Fin 1) ℝ).PosDef := by rw [← hR]; exact PosDef.one
  have hok : quadEnv.sys.Sized NonlinSysData.Sized 1 1 := (quadEnv_ok (Q := fun _ _ => True)).sys
  refine ⟨?_, ?_, ?_⟩
  · obtain ⟨s, h1, h2, h3⟩ := noise_contract.update quadEnv.sys (vec1 0) (vec1 5) 1 hok rfl rfl
    refine ⟨s, h1, ?_⟩
    have := (noise_updated _ _ _ _ ⟨_, hok, Sys.SameConfig.refl _, h1⟩).2.1
    rw [this, head_vec1]
  · obtain ⟨g, p, G, W, V, Rp, Rc, h1, h2, h3, h4, h5, h6, h7, h8, h9, h10, h11⟩ := C27_ekf_predict (mc := fun _ : Unit => squareClass)
      noise_contract (Filter.construct (ekfPlant noiseClass fun _ : Unit => squareClass) params quadEnv (vec1 0) (mat1 1) 0)
      (n := 1) (m := 1) (x := ![0]) (P := !![1]) hok rfl rfl ![5] (by norm_num) 1
      (show (0 : ℝ) ≤ 1 by norm_num) rfl
    refine ⟨g, h1, ?_⟩
    have hU := noise_updated _ _ _ _ ⟨_, hok, Sys.SameConfig.refl _, h3⟩
    have hG := hU.2.2.2
    have hp : p = 1 := (congrArg DMat.rows h7).symm
    subst hp
    have e1 := DMat.of_inj.mp (hG.symm.trans h4)
    have e2 := DMat.of_inj.mp (hU.2.1.symm.trans h5)
    have e3 := DMat.of_inj.mp (hU.2.2.1.symm.trans h6)
    rw [h10, ← e1, ← e2, ← e3]
    show DMat.of _ = DMat.of _
    congr 1
    ext i j
    fin_cases i; fin_cases j
    simp [head, DVec.get?, Matrix.vecMul, dotProduct]
  · have hsp' : setSigma 1 1 0.001 0 2 = some sp := hsp
    obtain ⟨g, p, L, y, W, V, Rp, Rc, h1, h2, h3, h4, h5, h6, h7, h8, h9, h10, h11, h12, h13, h14⟩ :=
      C36_ukf_predict hllt junk (mc := fun _ : Unit => squareClass) noise_contract (plain_ops _)
      (Filter.construct (ukfPlant llt junk noiseClass fun _ : Unit => squareClass) params (quadEnv, sp) (vec1 0) (mat1 1) 0)
      (n := 1) (m := 1) (x := ![0]) (P := !![1]) hok hsp' (by norm_num) (by norm_num) rfl rfl hone ![5]
      (by norm_num) (by norm_num) 1 (show (0 : ℝ) ≤ 1 by norm_num) rfl
    refine ⟨g, h1, ?_⟩
    have img : ∀ (q v : Fin 1 → ℝ) (dt : ℝ), SysImage noiseClass 1 1 quadEnv.sys (.of q) (vec1 5) dt v → v 0 = q 0 := by
      rintro q v dt ⟨s', k1, k2⟩
      have k3 := (noise_updated _ _ _ _ k1).1
      rw [k3, head_of] at k2
      rw [← DVec.of_inj.mp k2]; rfl
    have hp : p = 1 := (congrArg DMat.rows h10).symm
    subst hp
    have hU := noise_updated _ _ _ _ h7
    have hL : L 0 0 * L 0 0 = 0.001 ^ 2 := by
      have := congrFun (congrFun h4 0) 0
      simp [Matrix.mul_apply] at this
      rw [this]
    have y0 : y 0 0 = 0 := by rw [img _ _ _ h5]; rfl
    have y1 : y 1 0 = L 0 0 := by
      rw [img _ _ _ (h6 0 (by norm_num)).1]; simp [colsOf]
    have y2 : y 2 0 = - L 0 0 := by
      rw [show (2 : Nat) = 0 + 1 + 1 from rfl, img _ _ _ (h6 0 (by norm_num)).2]; simp [colsOf]
    have e2 := DMat.of_inj.mp (hU.2.1.symm.trans h8)
    have e3 := DMat.of_inj.mp (hU.2.2.1.symm.trans h9)
    have e4 : (1 : Matrix (Fin 1) (Fin 1) ℝ) = Rp := DMat.of_inj.mp h10
    have hm0 : mean 1 (0.001 ^ 2 * ((1 : ℕ) + 0) - (1 : ℕ)) y 0 = 0 := by
      unfold mean
      rw [Finset.sum_apply, Finset.sum_range_succ, Finset.sum_range_succ, Finset.sum_range_succ, Finset.sum_range_zero]
      simp [wm, y0, y1, y2]
    rw [h13, ← e2, ← e3, ← e4]
    show DMat.of _ = DMat.of _
    congr 1
    ext i j
    fin_cases i; fin_cases j
    unfold cross
    simp only [Matrix.add_apply, Matrix.sum_apply, Finset.sum_range_succ, Finset.sum_range_zero]
    simp [head, DVec.get?, Matrix.mul_apply, vecMulVec_apply, wc, y0, y1, y2, hm0, colsOf]
    nlinarith [hL]

end Props
end StateEstimation
