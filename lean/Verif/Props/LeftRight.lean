import Verif.Props.Precision

/-!
# C155: left and right

A UKF on a problem that is the same on the left and on the right (`x ↦ -x`).
-/

set_option linter.unusedSectionVars false

namespace StateEstimation

open Matrix Kalman Sigma Examples Agree

variable {T K X Y : Type} {n m r k : Nat}

namespace LeftRight

/-- `y'` are the mirrored points: the two sides are exchanged. -/
def Flip (n : Nat) (y y' : Nat → Fin k → ℝ) : Prop :=
  y' 0 = -y 0 ∧ ∀ i < n, y' (i + 1) = -y (i + 1 + n) ∧ y' (i + 1 + n) = -y (i + 1)

theorem Flip.dev {y y' : Nat → Fin k → ℝ} (h : Flip n y y') (lam : ℝ) : dev n lam y' = -dev n lam y := by
  unfold Sigma.dev
  rw [sum_two, sum_two, ← Finset.sum_neg_distrib]
  refine Finset.sum_congr rfl fun i hi => ?_
  obtain ⟨a, b⟩ := h.2 i (Finset.mem_range.mp hi)
  rw [show i + n + 1 = i + 1 + n by omega, a, b, h.1, ← smul_add, ← smul_add, ← smul_neg]
  congr 1
  abel

theorem Flip.mean {y y' : Nat → Fin k → ℝ} (h : Flip n y y') {lam : ℝ} (hl : (n : ℝ) + lam ≠ 0) : mean n lam y' = -mean n lam y := by
  rw [mean_eq hl, mean_eq hl, h.dev, h.1, neg_add]

theorem Flip.moment {x x' : Nat → Fin r → ℝ} {y y' : Nat → Fin k → ℝ} (h : Flip n x x') (h' : Flip n y y') (lam : ℝ) :
    moment n lam x' y' = moment n lam x y := by
  unfold Sigma.moment
  rw [sum_two, sum_two]
  refine Finset.sum_congr rfl fun i hi => ?_
  obtain ⟨a, b⟩ := h.2 i (Finset.mem_range.mp hi)
  obtain ⟨a', b'⟩ := h'.2 i (Finset.mem_range.mp hi)
  have e : ∀ {q : Nat} (u v : Fin q → ℝ), -u - -v = -(u - v) := fun u v => by abel
  rw [show i + n + 1 = i + 1 + n by omega, a, b, h.1, a', b', h'.1]
  simp only [e, neg_vecMulVec, vecMulVec_neg, neg_neg]
  rw [add_comm]

theorem Flip.cross_self {y y' : Nat → Fin k → ℝ} (h : Flip n y y') {lam : ℝ} (hl : (n : ℝ) + lam ≠ 0) (d : ℝ) :
    cross n lam d y' y' (Sigma.mean n lam y') (Sigma.mean n lam y') = cross n lam d y y (Sigma.mean n lam y) (Sigma.mean n lam y) := by
  rw [cross_eq hl, cross_eq hl, h.moment h, h.dev, neg_vecMulVec, vecMulVec_neg, neg_neg]

theorem points {L : Matrix (Fin n) (Fin n) ℝ} {x : Fin n → ℝ} {q q' : Nat → Fin n → ℝ} (h0 : q 0 = x) (h0' : q' 0 = -x)
    (h : ∀ i < n, q (i + 1) = x + colsOf L i ∧ q (i + 1 + n) = x - colsOf L i)
    (h' : ∀ i < n, q' (i + 1) = -x + colsOf L i ∧ q' (i + 1 + n) = -x - colsOf L i) : Flip n q q' :=
  ⟨by rw [h0', h0], fun i hi => by
    obtain ⟨a, b⟩ := h i hi
    obtain ⟨a', b'⟩ := h' i hi
    rw [a', b', a, b]
    exact ⟨by abel, by abel⟩⟩

variable [DecidableEq K] [LinearOrder T] [ExactTime T]

/-- A prediction and the mirrored prediction. -/
theorem predict {llt : DMat → Option DMat} (hllt : LltSpec llt) (junk : Nat → Nat → ℝ)
    {sc : SysClass T NonlinSysData X} {mc : K → MeasClass T NonlinMeasData Y}
    (hsc : SysContract NonlinSysData.Sized sc) (hso : sc.PlainOps)
    (f f' : Filter T DVec DMat K (Env K NonlinSysData X NonlinMeasData Y × SigmaParams))
    (hsame : f'.env = f.env) (htime : f'.getStateTime = f.getStateTime)
    (hs : f.env.1.sys.Sized NonlinSysData.Sized n m) {al ka be : ℝ} (hsp : setSigma n n al ka be = some f.env.2)
    (hal : 0 < al ^ 2 * (n + ka)) (hbe : al ^ 2 ≤ be)
    {x : Fin n → ℝ} {P : Matrix (Fin n) (Fin n) ℝ} (hx : f.getState = .of x) (hP : f.getCovariance = .of P)
    (hx' : f'.getState = .of (-x)) (hP' : f'.getCovariance = .of P)
    (hPd : P.PosDef) (u : Fin m → ℝ) (hm : 0 < m) (hn : 0 < n) (t : T) (ht : f.getStateTime ≤ t)
    (hst : (f.env.1.sys.fm.checkStationary && f.env.1.sys.fm.isStationary (.of x) (.of u)) = false)
    (hst' : (f.env.1.sys.fm.checkStationary && f.env.1.sys.fm.isStationary (.of (-x)) (.of (-u))) = false)
    {γ γ' : (Fin n → ℝ) → (Fin n → ℝ)} (hq : SysIs sc n m f.env.1.sys (.of u) (TimeOps.sub t f.getStateTime) γ)
    (hq' : SysIs sc n m f.env.1.sys (.of (-u)) (TimeOps.sub t f.getStateTime) γ') (hodd : ∀ q, γ' (-q) = -γ q) :
    ∃ g g', ∃ (v : Fin n → ℝ) (L N N' C : Matrix (Fin n) (Fin n) ℝ),
      f.predictControl (ukfPlant llt junk sc mc) (.of u) t = some g ∧
      f'.predictControl (ukfPlant llt junk sc mc) (.of (-u)) t = some g' ∧
      g.getState = .of v ∧ g'.getState = .of (-v) ∧ g.getCovariance = .of (N + C) ∧ g'.getCovariance = .of (N' + C) ∧
      L * Lᵀ = (al ^ 2 * (n + ka)) • P ∧
      (∃ s p, ∃ (W : Matrix (Fin n) (Fin p) ℝ) (V : Matrix (Fin n) (Fin m) ℝ) (Rp : Matrix (Fin p) (Fin p) ℝ) (Rc : Matrix (Fin m) (Fin m) ℝ),
        f.env.1.sys.UpdatedAt sc n m (.of (x - colsOf L (n - 1))) (.of u) (TimeOps.sub t f.getStateTime) s ∧ s.P = .of W ∧ s.V = .of V ∧
        f.env.1.sys.Rp = .of Rp ∧ f.env.1.sys.Rc = .of Rc ∧ N = W * Rp * Wᵀ + V * Rc * Vᵀ) ∧
      (∃ s p, ∃ (W : Matrix (Fin n) (Fin p) ℝ) (V : Matrix (Fin n) (Fin m) ℝ) (Rp : Matrix (Fin p) (Fin p) ℝ) (Rc : Matrix (Fin m) (Fin m) ℝ),
        f.env.1.sys.UpdatedAt sc n m (.of (-x - colsOf L (n - 1))) (.of (-u)) (TimeOps.sub t f.getStateTime) s ∧ s.P = .of W ∧ s.V = .of V ∧
        f.env.1.sys.Rp = .of Rp ∧ f.env.1.sys.Rc = .of Rc ∧ N' = W * Rp * Wᵀ + V * Rc * Vᵀ) := by
  obtain ⟨lam, e1, e2, e3⟩ := setSigma_eq hsp
  have hpos : 0 < (n : ℝ) + lam := by rw [e1]; exact hal
  obtain ⟨L, hL, hLL⟩ := hllt.scaled hpos hPd
  obtain ⟨s1, p1, y1, W1, V1, Rp1, Rc1, a1, a2, a3, a4, a5, a6, a7, a8, a9, a10⟩ :=
    ukfPredict_of (d := be - al ^ 2) hsc hso junk hs hL x (u := .of u) rfl (TimeOps.sub t f.getStateTime)
      (fun s => ({ f.env.1 with sys := s } : Env K NonlinSysData X NonlinMeasData Y))
  obtain ⟨s2, p2, y2, W2, V2, Rp2, Rc2, b1, b2, b3, b4, b5, b6, b7, b8, b9, b10⟩ :=
    ukfPredict_of (d := be - al ^ 2) hsc hso junk hs hL (-x) (u := .of (-u)) rfl (TimeOps.sub t f.getStateTime)
      (fun s => ({ f.env.1 with sys := s } : Env K NonlinSysData X NonlinMeasData Y))
  obtain ⟨g, h1, h2, h3, -⟩ := with_predict_now (sc := sc) (mc := mc)
    (predict := fun sp e x cov u dt => ukfPredict llt junk sc sp e.sys x cov u dt fun s => { e with sys := s })
    (correct := fun sp e x cov z k dt => ukfCorrect llt junk sc (mc k) sp e.sys (e.meas k) x cov z dt (e.setMeas k))
    f (.of u) hm t ht (by rw [hs.controls]; exact hs.Rc) (by rw [hx]; exact hst) (by rw [hx, hP, e3]; exact a1)
  obtain ⟨g', k1, k2, k3, -⟩ := with_predict_now (sc := sc) (mc := mc)
    (predict := fun sp e x cov u dt => ukfPredict llt junk sc sp e.sys x cov u dt fun s => { e with sys := s })
    (correct := fun sp e x cov z k dt => ukfCorrect llt junk sc (mc k) sp e.sys (e.meas k) x cov z dt (e.setMeas k))
    f' (.of (-u)) hm t (by rw [htime]; exact ht) (by rw [hsame, hs.controls]; exact hs.Rc) (by rw [hx', hsame]; exact hst')
    (by rw [hx', hP', hsame, htime, e3]; exact b1)
  have img : ∀ (q v : Fin n → ℝ), SysImage sc n m f.env.1.sys (.of q) (.of u) (TimeOps.sub t f.getStateTime) v → v = γ q := by
    rintro q v ⟨s, k1, k2⟩
    exact DVec.of_inj.mp (k2.symm.trans (hq q s k1))
  have img' : ∀ (q v : Fin n → ℝ), SysImage sc n m f.env.1.sys (.of q) (.of (-u)) (TimeOps.sub t f.getStateTime) v → v = γ' q := by
    rintro q v ⟨s, k1, k2⟩
    exact DVec.of_inj.mp (k2.symm.trans (hq' q s k1))
  have hf : Flip n y1 y2 := by
    refine ⟨by rw [img _ _ a4, img' _ _ b4, hodd], fun i hi => ⟨?_, ?_⟩⟩
    · rw [img _ _ (a5 i hi).2, img' _ _ (b5 i hi).1, ← hodd]; congr 1; abel
    · rw [img _ _ (a5 i hi).1, img' _ _ (b5 i hi).2, ← hodd]; congr 1; abel
  rw [hf.mean hpos.ne'] at k2
  rw [hf.cross_self hpos.ne'] at k3
  refine ⟨g, g', _, L, _, _, _, h1, k1, h2, k2, h3, k3, by rw [hLL, e1],
    ⟨s1, p1, W1, V1, Rp1, Rc1, ?_, a7, a8, a9, a10, rfl⟩, ⟨s2, p2, W2, V2, Rp2, Rc2, ?_, b7, b8, b9, b10, rfl⟩⟩
  · rcases a6 with ⟨h, _⟩ | ⟨_, h⟩
    · omega
    · exact h
  · rcases b6 with ⟨h, _⟩ | ⟨_, h⟩
    · omega
    · exact h

end LeftRight

namespace Props

open LeftRight

variable [DecidableEq K] [LinearOrder T] [ExactTime T]

/-- **C155, prediction, the part that holds.**  The model's prediction of the mirrored state with the mirrored control is the mirrored
prediction, and its noise Jacobians are the same everywhere: then the UKF's prediction from the mirrored estimate with the mirrored
control is the mirrored one, with the same covariance.  Missing: noise Jacobians that depend on the state, for which the UKF uses those
of the last point on the negative side, see `C155_refuted`. -/
theorem C155_predict_partial {llt : DMat → Option DMat} (hllt : LltSpec llt) (junk : Nat → Nat → ℝ)
    {sc : SysClass T NonlinSysData X} {mc : K → MeasClass T NonlinMeasData Y}
    (hsc : SysContract NonlinSysData.Sized sc) (hso : sc.PlainOps)
    (f f' : Filter T DVec DMat K (Env K NonlinSysData X NonlinMeasData Y × SigmaParams))
    (hsame : f'.env = f.env) (htime : f'.getStateTime = f.getStateTime)
    (hs : f.env.1.sys.Sized NonlinSysData.Sized n m) {al ka be : ℝ} (hsp : setSigma n n al ka be = some f.env.2)
    (hal : 0 < al ^ 2 * (n + ka)) (hbe : al ^ 2 ≤ be)
    {x : Fin n → ℝ} {P : Matrix (Fin n) (Fin n) ℝ} (hx : f.getState = .of x) (hP : f.getCovariance = .of P)
    (hx' : f'.getState = .of (-x)) (hP' : f'.getCovariance = .of P)
    (hPd : P.PosDef) (u : Fin m → ℝ) (hm : 0 < m) (hn : 0 < n) (t : T) (ht : f.getStateTime ≤ t)
    (hst : (f.env.1.sys.fm.checkStationary && f.env.1.sys.fm.isStationary (.of x) (.of u)) = false)
    (hst' : (f.env.1.sys.fm.checkStationary && f.env.1.sys.fm.isStationary (.of (-x)) (.of (-u))) = false)
    {γ γ' : (Fin n → ℝ) → (Fin n → ℝ)} (hq : SysIs sc n m f.env.1.sys (.of u) (TimeOps.sub t f.getStateTime) γ)
    (hq' : SysIs sc n m f.env.1.sys (.of (-u)) (TimeOps.sub t f.getStateTime) γ') (hodd : ∀ q, γ' (-q) = -γ q)
    (hnoise : ∀ (a b : Fin n → ℝ) s s', f.env.1.sys.UpdatedAt sc n m (.of a) (.of u) (TimeOps.sub t f.getStateTime) s →
      f.env.1.sys.UpdatedAt sc n m (.of b) (.of (-u)) (TimeOps.sub t f.getStateTime) s' → s.P = s'.P ∧ s.V = s'.V) :
    ∃ g g', ∃ (v : Fin n → ℝ),
      f.predictControl (ukfPlant llt junk sc mc) (.of u) t = some g ∧
      f'.predictControl (ukfPlant llt junk sc mc) (.of (-u)) t = some g' ∧
      g.getState = .of v ∧ g'.getState = .of (-v) ∧ g.getCovariance = g'.getCovariance := by
  obtain ⟨g, g', v, L, N, N', C, h1, h2, h3, h4, h5, h6, -, ⟨s, p, W, V, Rp, Rc, a1, a2, a3, a4, a5, a6⟩,
    s', p', W', V', Rp', Rc', b1, b2, b3, b4, b5, b6⟩ :=
    predict hllt junk (mc := mc) hsc hso f f' hsame htime hs hsp hal hbe hx hP hx' hP' hPd u hm hn t ht hst hst' hq hq' hodd
  obtain ⟨c1, c2⟩ := hnoise _ _ _ _ a1 b1
  have ep : p = p' := congrArg DMat.rows (a4.symm.trans b4)
  subst ep
  have eW : W = W' := DMat.of_inj.mp (a2.symm.trans (c1.trans b2))
  have eV : V = V' := DMat.of_inj.mp (a3.symm.trans (c2.trans b3))
  have eRp : Rp = Rp' := DMat.of_inj.mp (a4.symm.trans b4)
  have eRc : Rc = Rc' := DMat.of_inj.mp (a5.symm.trans b5)
  refine ⟨g, g', v, h1, h2, h3, h4, ?_⟩
  rw [h5, h6, a6, b6, eW, eV, eRp, eRc]

/-- **C155, correction.**  With a sensor that reads the mirrored value of a mirrored state, a correction of the mirrored estimate with
the mirrored reading is the mirrored one, with the same covariance. -/
theorem C155_correct {llt : DMat → Option DMat} (hllt : LltSpec llt) (junk : Nat → Nat → ℝ)
    {sc : SysClass T NonlinSysData X} {mc : K → MeasClass T NonlinMeasData Y}
    (hso : sc.PlainOps) (hmc : ∀ j, MeasContract NonlinMeasData.Sized (mc j)) (hmo : ∀ j, (mc j).PlainOps)
    (f f' : Filter T DVec DMat K (Env K NonlinSysData X NonlinMeasData Y × SigmaParams)) (j : K)
    (hsame : f'.env = f.env) (htime : f'.getStateTime = f.getStateTime)
    (hs : f.env.1.sys.Sized NonlinSysData.Sized n m) (hm : (f.env.1.meas j).Sized NonlinMeasData.Sized n k)
    {al ka be : ℝ} (hsp : setSigma n n al ka be = some f.env.2)
    (hal : 0 < al ^ 2 * (n + ka)) (hbe : al ^ 2 ≤ be)
    {x : Fin n → ℝ} {P : Matrix (Fin n) (Fin n) ℝ} (hx : f.getState = .of x) (hP : f.getCovariance = .of P)
    (hx' : f'.getState = .of (-x)) (hP' : f'.getCovariance = .of P)
    (hPd : P.PosDef) (z : Fin k → ℝ) (R : Matrix (Fin k) (Fin k) ℝ) (hR : R.PosDef)
    (hst : ((f.env.1.meas j).fm.checkStationary && (f.env.1.meas j).fm.isStationary (.of x) (.of z)) = false)
    (hst' : ((f.env.1.meas j).fm.checkStationary && (f.env.1.meas j).fm.isStationary (.of (-x)) (.of (-z))) = false)
    {η : (Fin n → ℝ) → (Fin k → ℝ)}
    (hh : MeasIs (mc j) n k ((f.env.1.meas j).withCov (.of R)) (TimeOps.sub f.getStateTime f.getStateTime) η)
    (hodd : ∀ q, η (-q) = -η q) :
    ∃ g g', ∃ (v : Fin n → ℝ),
      f.correct (ukfPlant llt junk sc mc) (.of z) (.of R) f.getStateTime (some j) = some g ∧
      f'.correct (ukfPlant llt junk sc mc) (.of (-z)) (.of R) f.getStateTime (some j) = some g' ∧
      g.getState = .of v ∧ g'.getState = .of (-v) ∧ g.getCovariance = g'.getCovariance := by
  obtain ⟨g, L, q, y, zHat, S, D, G, C, h1, h2, h3, h4, h5, h6, h7, h8, h9, h10, h11, h12, h13, h14, h15, -⟩ :=
    ukf_correct_factor hllt junk hso hmc hmo f j hs hm hsp hal hbe hx hP hPd z R hR hst
  obtain ⟨g', L', q', y', zHat', S', D', G', C', k1, k2, k3, k4, k5, k6, k7, k8, k9, k10, k11, k12, k13, k14, k15, -⟩ :=
    ukf_correct_factor (x := -x) hllt junk hso hmc hmo f' j (by rw [hsame]; exact hs) (by rw [hsame]; exact hm) (by rw [hsame]; exact hsp) hal hbe
      hx' hP' hPd (-z) R hR (by rw [hsame]; exact hst')
  rw [hsame, htime] at k8
  rw [htime] at k1
  rw [h4] at k4
  have eL : L = L' := DMat.of_inj.mp (Option.some.inj k4)
  subst eL
  have e : (n : ℝ) + (al ^ 2 * (n + ka) - n) = al ^ 2 * (n + ka) := by ring
  have hne : (n : ℝ) + (al ^ 2 * (n + ka) - n) ≠ 0 := by rw [e]; exact hal.ne'
  have hfq := points h6 k6 h7 k7
  have hy : ∀ i < 2 * n + 1, y i = η (q i) := by
    intro i hi
    obtain ⟨s, a1, a2⟩ := h8 i hi
    exact DVec.of_inj.mp (a2.symm.trans (hh _ s a1))
  have hy' : ∀ i < 2 * n + 1, y' i = η (q' i) := by
    intro i hi
    obtain ⟨s, a1, a2⟩ := k8 i hi
    exact DVec.of_inj.mp (a2.symm.trans (hh _ s a1))
  have hfy : Flip n y y' :=
    ⟨by rw [hy 0 (by omega), hy' 0 (by omega), hfq.1, hodd], fun i hi =>
      ⟨by rw [hy (i + 1 + n) (by omega), hy' (i + 1) (by omega), (hfq.2 i hi).1, hodd],
       by rw [hy (i + 1) (by omega), hy' (i + 1 + n) (by omega), (hfq.2 i hi).2, hodd]⟩⟩
  have ez : zHat' = -zHat := by rw [k9, h9, hfy.mean hne]
  have hc : cross n (al ^ 2 * (n + ka) - n) (be - al ^ 2) y' y' zHat' zHat' =
      cross n (al ^ 2 * (n + ka) - n) (be - al ^ 2) y y zHat zHat := by rw [k9, h9, hfy.cross_self hne]
  have eS : S' = S := by rw [k10, h10, hc]
  have s1 : Symm n q (colsOf L) := fun i hi => by rw [h6]; exact h7 i hi
  have s2 : Symm n q' (colsOf L) := fun i hi => by rw [k6]; exact k7 i hi
  have eD : D' = D := by
    rw [k11, h11, k9, h9, ← k6, ← h6, cross_central _ q' y' hne (Symm.dev _ s2), cross_central _ q y hne (Symm.dev _ s1), hfq.moment hfy]
  have eG : G' = G := by rw [k12, h12, eD, eS]
  refine ⟨g, g', _, h1, k1, h13, ?_, by rw [h14, k14, h15, k15, eG, eS]⟩
  rw [k13, eG, ez, DVec.of_inj, show -z - -zHat = -(z - zHat) by abel, Matrix.mulVec_neg, neg_add]

/-! ## Witnesses -/

section
open Dice Quadratic Bias

private theorem noise_is (u : Fin 1 → ℝ) (dt : ℝ) : SysIs noiseClass 1 1 quadEnv.sys (.of u) dt fun q => q := by
  intro q s h
  rw [(noise_updated _ _ _ _ h).1, head_of]
  show DVec.of _ = _
  congr 1
  funext i
  fin_cases i
  rfl

/-- **C155, refuted for noise that depends on the state.**  `g(x) = x` with process noise Jacobian `x` is the same on both sides, as is
its noise `x²`; from 1 and from -1 a UKF with the parameters it is made with predicts different covariances. -/
theorem C155_refuted {llt : DMat → Option DMat} (hllt : LltSpec llt) (junk : Nat → Nat → ℝ) (sp : SigmaParams)
    (hsp : ukfInitSigma quadEnv = some sp) (params : Params ℝ) :
    ∃ g g',
      (Filter.construct (ukfPlant llt junk noiseClass fun _ : Unit => squareClass) params (quadEnv, sp) (vec1 1) (mat1 (4 / 3)) (0 : ℝ)).predictControl
        (ukfPlant llt junk noiseClass fun _ : Unit => squareClass) (vec1 0) 1 = some g ∧
      (Filter.construct (ukfPlant llt junk noiseClass fun _ : Unit => squareClass) params (quadEnv, sp) (vec1 (-1)) (mat1 (4 / 3)) (0 : ℝ)).predictControl
        (ukfPlant llt junk noiseClass fun _ : Unit => squareClass) (vec1 0) 1 = some g' ∧
      g.getCovariance ≠ g'.getCovariance := by
  have ok := quadEnv_ok (Q := fun _ _ => True)
  have ev : vec1 (-1) = .of (-![(1 : ℝ)]) := by
    show DVec.of _ = _; congr 1; funext i; fin_cases i; rfl
  have eu : vec1 0 = .of (-![(0 : ℝ)]) := by
    show DVec.of _ = _; congr 1; funext i; fin_cases i; simp
  obtain ⟨g, g', v, L, N, N', C, h1, h2, h3, h4, h5, h6, h7, ⟨s, p, W, V, Rp, Rc, a1, a2, a3, a4, a5, a6⟩,
    s', p', W', V', Rp', Rc', b1, b2, b3, b4, b5, b6⟩ :=
    predict hllt junk (mc := fun _ : Unit => squareClass) noise_contract (plain_ops _)
      (Filter.construct (ukfPlant llt junk noiseClass fun _ : Unit => squareClass) params (quadEnv, sp) (vec1 1) (mat1 (4 / 3)) 0)
      (Filter.construct (ukfPlant llt junk noiseClass fun _ : Unit => squareClass) params (quadEnv, sp) (vec1 (-1)) (mat1 (4 / 3)) 0)
      rfl rfl (n := 1) (m := 1) (x := ![1]) (P := !![4 / 3]) ok.sys (al := 0.001) (ka := 0) (be := 2) hsp
      (by norm_num) (by norm_num) rfl rfl ev rfl four_thirds_pd ![0] (by norm_num) (by norm_num) 1
      (show (0 : ℝ) ≤ 1 by norm_num) rfl rfl (noise_is _ _) (noise_is _ _) (fun q => rfl)
  rw [← eu] at h2
  refine ⟨g, g', h1, h2, fun hc => ?_⟩
  have hU := noise_updated _ _ _ _ a1
  have hU' := noise_updated _ _ _ _ b1
  have hp : p = 1 := (congrArg DMat.rows a4).symm
  have hp' : p' = 1 := (congrArg DMat.rows b4).symm
  subst hp
  subst hp'
  have e1 := DMat.of_inj.mp (hU.2.1.symm.trans a2)
  have e2 := DMat.of_inj.mp (hU.2.2.1.symm.trans a3)
  have e3 := DMat.of_inj.mp (hU'.2.1.symm.trans b2)
  have e4 := DMat.of_inj.mp (hU'.2.2.1.symm.trans b3)
  have e5 : (1 : Matrix (Fin 1) (Fin 1) ℝ) = Rp := DMat.of_inj.mp a4
  have e6 : (1 : Matrix (Fin 1) (Fin 1) ℝ) = Rp' := DMat.of_inj.mp b4
  rw [h5, h6] at hc
  have hN : N = N' := add_right_cancel (DMat.of_inj.mp hc)
  have hL : L 0 0 * L 0 0 = 4 / 3000000 := by
    have := congrFun (congrFun h7 0) 0
    simp [Matrix.mul_apply] at this
    rw [this]
    norm_num
  rw [a6, b6, ← e1, ← e2, ← e3, ← e4, ← e5, ← e6, head_of, head_of] at hN
  have := congrFun (congrFun hN 0) 0
  simp [colsOf, Matrix.vecMul, dotProduct] at this
  have h0 : L 0 0 = 0 := by nlinarith
  rw [h0] at hL
  norm_num at hL

/-- `g = x + dt (u - x³)`, `P = 1`, `V = dt`. -/
private noncomputable def springClass : SysClass ℝ NonlinSysData Unit :=
  SysClass.plain fun s x u dt =>
    if s.stateSize = 1 ∧ s.controlDims = 1 ∧ s.Rp.rows = 1 then
      some { s with der := ⟨vec1 (head x + dt * (head u - head x ^ 3)), mat1 (1 - 3 * dt * head x ^ 2)⟩
                    P := mat1 1
                    V := mat1 dt }
    else some s

private theorem spring_contract : SysContract NonlinSysData.Sized springClass := by
  apply plain_contract
  intro n m s x u dt hs hx hu
  split
  next h =>
    obtain ⟨h1, h2, h3⟩ := h
    have hn : n = 1 := by rw [← hs.states]; exact h1
    have hm : m = 1 := by rw [← hs.controls]; exact h2
    subst hn hm
    exact ⟨_, rfl, ⟨hs.states, hs.controls, ⟨rfl, rfl, rfl⟩, ⟨rfl, h3.symm⟩, hs.Rp, ⟨rfl, rfl⟩, hs.Rc⟩,
      ⟨rfl, rfl, rfl, rfl, rfl⟩⟩
  next => exact ⟨s, rfl, hs, Sys.SameConfig.refl s⟩

private theorem spring_updated (q u : DVec) (dt : ℝ) (s' : Sys NonlinSysData Unit) (h : quadEnv.sys.UpdatedAt springClass 1 1 q u dt s') :
    s'.der.g = vec1 (head q + dt * (head u - head q ^ 3)) ∧ s'.P = mat1 1 ∧ s'.V = mat1 dt := by
  obtain ⟨s, h1, h2, h3⟩ := h
  change (if _ then _ else _) = _ at h3
  rw [if_pos ⟨h1.states, h1.controls, by rw [h2.Rp]; rfl⟩] at h3
  injection h3 with h3
  subst h3
  exact ⟨rfl, rfl, rfl⟩

private theorem spring_is (u dt : ℝ) : SysIs springClass 1 1 quadEnv.sys (vec1 u) dt fun q => ![q 0 + dt * (u - q 0 ^ 3)] := by
  intro q s h
  rw [(spring_updated _ _ _ _ h).1, head_of, head_vec1]

private theorem mirror_vec (a : ℝ) : vec1 (-a) = .of (-![a]) := by
  show DVec.of _ = _
  congr 1
  funext i
  fin_cases i
  rfl

/-- A spring at 1, pushed by 3, and one at -1, pushed by -3. -/
example {llt : DMat → Option DMat} (hllt : LltSpec llt) (junk : Nat → Nat → ℝ) (sp : SigmaParams)
    (hsp : ukfInitSigma quadEnv = some sp) (params : Params ℝ) :=
  have ok := quadEnv_ok (Q := fun _ _ => True)
  C155_predict_partial hllt junk (mc := fun _ : Unit => squareClass) spring_contract (plain_ops springClass.myUpdate)
    (Filter.construct (ukfPlant llt junk springClass fun _ : Unit => squareClass) params (quadEnv, sp) (vec1 1) (mat1 (4 / 3)) 0)
    (Filter.construct (ukfPlant llt junk springClass fun _ : Unit => squareClass) params (quadEnv, sp) (vec1 (-1)) (mat1 (4 / 3)) 0)
    rfl rfl (n := 1) (m := 1) (x := ![1]) (P := !![4 / 3]) ok.sys (al := 0.001) (ka := 0) (be := 2) hsp
    (by norm_num) (by norm_num) rfl rfl (mirror_vec 1) rfl four_thirds_pd ![3] (by norm_num) (by norm_num) 1
    (show (0 : ℝ) ≤ 1 by norm_num) rfl rfl (spring_is 3 _) (by rw [← mirror_vec]; exact spring_is (-3) _)
    (fun q => by
      funext i
      fin_cases i
      simp
      ring)
    (fun a b s s' h h' => ⟨(spring_updated _ _ _ _ h).2.1.trans (spring_updated _ _ _ _ h').2.1.symm,
      (spring_updated _ _ _ _ h).2.2.trans (spring_updated _ _ _ _ h').2.2.symm⟩)

/-- `h = x³`, `H = 3 x²`. -/
private noncomputable def cubeSensor : MeasClass ℝ NonlinMeasData Unit :=
  MeasClass.plain fun s x _ =>
    if s.stateSize = 1 ∧ s.measDims = 1 then some { s with der := ⟨vec1 (head x ^ 3), mat1 (3 * head x ^ 2)⟩ } else some s

private theorem cube_sensor : MeasContract NonlinMeasData.Sized cubeSensor := by
  apply plain_mcontract
  intro n k s x dt hs hx
  split
  next h =>
    have hn : n = 1 := by rw [← hs.states]; exact h.1
    have hk : k = 1 := by rw [← hs.meas]; exact h.2
    subst hn hk
    exact ⟨_, rfl, ⟨hs.states, hs.meas, ⟨rfl, rfl, rfl⟩, hs.cov⟩, ⟨rfl, rfl, rfl, rfl⟩⟩
  next => exact ⟨s, rfl, hs, Meas.SameConfig.refl s⟩

private theorem cube_is (dt : ℝ) (R : DMat) : MeasIs cubeSensor 1 1 ((quadEnv.meas ()).withCov R) dt fun q => ![q 0 ^ 3] := by
  rintro q t ⟨s, h1, h2, h3⟩
  change (if _ then _ else _) = _ at h3
  rw [if_pos ⟨h1.states, h1.meas⟩] at h3
  injection h3 with h3
  subst h3
  show vec1 _ = _
  rw [head_of]

private theorem unit_pd : (!![(1 : ℝ)] : Matrix (Fin 1) (Fin 1) ℝ).PosDef := by
  have : (1 : Matrix (Fin 1) (Fin 1) ℝ) = !![1] := by ext i j; fin_cases i; fin_cases j; rfl
  rw [← this]; exact PosDef.one

/-- The spring at 1 reads 2, the one at -1 reads -2. -/
example {llt : DMat → Option DMat} (hllt : LltSpec llt) (junk : Nat → Nat → ℝ) (sp : SigmaParams)
    (hsp : ukfInitSigma quadEnv = some sp) (params : Params ℝ) :=
  have ok := quadEnv_ok (Q := fun _ _ => True)
  C155_correct hllt junk (mc := fun _ : Unit => cubeSensor) (plain_ops springClass.myUpdate) (fun _ => cube_sensor) (fun _ => plain_mops _)
    (Filter.construct (ukfPlant llt junk springClass fun _ : Unit => cubeSensor) params (quadEnv, sp) (vec1 1) (mat1 (4 / 3)) 0)
    (Filter.construct (ukfPlant llt junk springClass fun _ : Unit => cubeSensor) params (quadEnv, sp) (vec1 (-1)) (mat1 (4 / 3)) 0) ()
    rfl rfl (n := 1) (m := 1) (k := 1) (x := ![1]) (P := !![4 / 3]) ok.sys (ok.meas ()) (al := 0.001) (ka := 0) (be := 2) hsp
    (by norm_num) (by norm_num) rfl rfl (mirror_vec 1) rfl four_thirds_pd ![2] !![1] unit_pd rfl rfl (η := fun q => ![q 0 ^ 3])
    (cube_is _ _)
    (fun q => by
      funext i
      fin_cases i
      simp
      ring)

end

end Props
end StateEstimation
