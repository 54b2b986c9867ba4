import Verif.Lemmas.UKFSteps
import Verif.Lemmas.KFApi

/-! # UKF: positive (semi)definiteness, and the plant with sigma point parameters -/

set_option linter.unusedSectionVars false

namespace StateEstimation

open Matrix Kalman Sigma

variable {T K X Y DS XS DM XM O : Type} {n m k p : Nat}

theorem SigmaAdmissible.elim {sp : SigmaParams} (h : SigmaAdmissible n sp) : ∃ lam d : ℝ, 0 < (n : ℝ) + lam ∧ 0 ≤ d ∧
    sp = ⟨2 * n + 1, lam, .of (fun j : Fin (2 * n + 1) => wm n lam j), .of (fun j : Fin (2 * n + 1) => wc n lam d j)⟩ := by
  obtain ⟨al, ka, be, h1, h2, h3⟩ := h
  obtain ⟨lam, e1, e2, e3⟩ := setSigma_eq h1
  exact ⟨lam, be - al ^ 2, by rw [e1]; exact h2, by linarith, e3⟩

theorem LltSpec.scaled {llt : DMat → Option DMat} (hl : LltSpec llt) {lam : ℝ} (h : 0 < (n : ℝ) + lam)
    {cov : Matrix (Fin n) (Fin n) ℝ} (hc : cov.PosDef) :
    ∃ L : Matrix (Fin n) (Fin n) ℝ, llt (.of (((n : ℝ) + lam) • cov)) = some (.of L) ∧ L * Lᵀ = ((n : ℝ) + lam) • cov :=
  hl _ (hc.smul h)

theorem unscented_psd {ι : Type} [Fintype ι] [DecidableEq ι] {lam d : ℝ} (h : 0 < (n : ℝ) + lam) (hd : 0 ≤ d) (y : Nat → ι → ℝ) :
    (cross n lam d y y (mean n lam y) (mean n lam y)).PosSemidef := by
  rw [cross_eq h.ne']
  refine (moment_self_psd h y).add (PosSemidef.smul ?_ hd)
  have := posSemidef_vecMulVec_self_star (dev n lam y)
  simpa using this

theorem moment_of_chol {lam : ℝ} (h : 0 < (n : ℝ) + lam) {L cov : Matrix (Fin n) (Fin n) ℝ} (hL : L * Lᵀ = ((n : ℝ) + lam) • cov)
    {q : Nat → Fin n → ℝ} (hq : Symm n q (colsOf L)) : moment n lam q q = cov := by
  rw [Symm.moment lam hq hq, sum_cols, hL, smul_smul, one_div, inv_mul_cancel₀ h.ne', one_smul]

/-- The correction in terms of the deviation matrices. -/
theorem ukf_post_eq {lam d : ℝ} (h : 0 < (n : ℝ) + lam) (hd : 0 ≤ d) {L cov : Matrix (Fin n) (Fin n) ℝ}
    (hL : L * Lᵀ = ((n : ℝ) + lam) • cov) {q : Nat → Fin n → ℝ} (hq : Symm n q (colsOf L)) (y : Nat → Fin k → ℝ)
    {R : Matrix (Fin k) (Fin k) ℝ} (hR : R.PosDef) :
    ∃ (R' : Matrix (Fin k) (Fin k) ℝ), R'.PosDef ∧
      R + cross n lam d y y (mean n lam y) (mean n lam y) = devMat n lam y * (devMat n lam y)ᵀ + R' ∧
      cross n lam d q y (q 0) (mean n lam y) = devMat n lam q * (devMat n lam y)ᵀ ∧
      cov = devMat n lam q * (devMat n lam q)ᵀ := by
  refine ⟨R + d • vecMulVec (dev n lam y) (dev n lam y), ?_, ?_, ?_, ?_⟩
  · refine PosDef.add_posSemidef hR (PosSemidef.smul ?_ hd)
    have := posSemidef_vecMulVec_self_star (dev n lam y)
    simpa using this
  · rw [cross_eq h.ne', moment_eq h]; abel
  · rw [cross_central d q y h.ne' (Symm.dev lam hq), moment_eq h]
  · rw [← moment_eq h, moment_of_chol h hL hq]

section Predict
variable {sc : SysClass T NonlinSysData X}

/-- A UKF prediction succeeds and its covariance is positive semidefinite; definite if the process noise reaches every
state. -/
theorem ukfPredict_psd {Z : Type} (hsc : SysContract NonlinSysData.Sized sc) (hso : sc.PlainOps)
    {llt : DMat → Option DMat} (hllt : LltSpec llt) (junk : Nat → Nat → ℝ) {s : Sys NonlinSysData X} {sp : SigmaParams}
    (hsp : SigmaAdmissible n sp)
    (hs : s.Sized NonlinSysData.Sized n m) (h1 : s.Rp.PSD) (h2 : s.Rc.PSD) {x u : DVec} {cov : DMat}
    (hx : EstimatePD n x cov) (hu : u.size = m) (dt : T) (back : Sys NonlinSysData X → Z) :
    ∃ s' x' cov', ukfPredict llt junk sc sp s x cov u dt back = some (x', cov', back s') ∧ EstimatePSD n x' cov' ∧
      s'.Sized NonlinSysData.Sized n m ∧ s.SameConfig s' ∧
      (s.Rp.PD → sc.SpreadsNoise NonlinSysData.Sized n m s.Rp.rows → EstimatePD n x' cov') := by
  obtain ⟨lam, d, hlam, hd, rfl⟩ := hsp.elim
  obtain ⟨⟨hx1, hx2⟩, hx3⟩ := hx
  obtain ⟨x, rfl⟩ := x.exists_of hx1
  obtain ⟨cov, rfl⟩ := hx2.exists_of
  rw [DMat.PD_of] at hx3
  obtain ⟨L, hL, hLL⟩ := hllt.scaled hlam hx3
  obtain ⟨s', p, y, W, V, Rp, Rc, e, hs', hc, hy0, hy, hup, hW, hV, hRp, hRc⟩ :=
    ukfPredict_of (d := d) hsc hso junk hs hL x hu dt back
  have hU := unscented_psd hlam hd y
  rw [hRp, DMat.PSD_of] at h1
  rw [hRc, DMat.PSD_of] at h2
  refine ⟨s', _, _, e, ⟨⟨rfl, rfl, rfl⟩, ?_⟩, hs', hc, ?_⟩
  · rw [DMat.PSD_of]
    exact ((psd_conj h1 W).add (psd_conj h2 V)).add hU
  · intro hpd hspread
    refine ⟨⟨rfl, rfl, rfl⟩, ?_⟩
    rw [DMat.PD_of]
    rw [hRp, DMat.PD_of] at hpd
    rw [hRp] at hspread
    have hker : ∀ v : Fin n → ℝ, v ᵥ* W = 0 → v = 0 := by
      rcases hup with ⟨_, s1, g1, g2, g3⟩ | ⟨_, s1, g1, g2, g3⟩
      · exact hspread s1 _ u dt s' W g1 (by rw [g2.Rp, hRp]; exact ⟨rfl, rfl⟩) rfl hu g3 hW
      · exact hspread s1 _ u dt s' W g1 (by rw [g2.Rp, hRp]; exact ⟨rfl, rfl⟩) rfl hu g3 hW
    have hinj : Function.Injective W.vecMul := by
      intro v w hvw
      refine sub_eq_zero.mp (hker (v - w) ?_)
      rw [Matrix.sub_vecMul]; exact sub_eq_zero.mpr hvw
    have hW2 : (W * Rp * Wᵀ).PosDef := by
      have := hpd.mul_mul_conjTranspose_same (B := W) hinj
      rwa [conjTranspose_eq_transpose_of_trivial] at this
    exact (hW2.add_posSemidef (psd_conj h2 V)).add_posSemidef hU

end Predict

section Correct
variable {sc : SysClass T NonlinSysData X} {mc : MeasClass T NonlinMeasData Y}

/-- A UKF correction succeeds, its covariance is positive definite and not larger than the prior. -/
theorem ukfCorrect_pd {Z : Type} (hso : sc.PlainOps) (hmc : MeasContract NonlinMeasData.Sized mc) (hmo : mc.PlainOps)
    {llt : DMat → Option DMat} (hllt : LltSpec llt) (junk : Nat → Nat → ℝ) {s : Sys NonlinSysData X} {sp : SigmaParams}
    (hsp : SigmaAdmissible n sp)
    (hs : s.Sized NonlinSysData.Sized n m) {ms : Meas NonlinMeasData Y} (hms : ms.Sized NonlinMeasData.Sized n k)
    (hR : ms.cov.PD) {x z : DVec} {cov : DMat} (hx : EstimatePD n x cov) (hz : z.size = k) (dt : T)
    (back : Meas NonlinMeasData Y → Z) :
    ∃ m' x' cov', ukfCorrect llt junk sc mc sp s ms x cov z dt back = some (x', cov', back m') ∧ EstimatePD n x' cov' ∧
      m'.Sized NonlinMeasData.Sized n k ∧ ms.SameConfig m' ∧
      (∃ P P' : Matrix (Fin n) (Fin n) ℝ, cov = .of P ∧ cov' = .of P' ∧ (P - P').PosSemidef) := by
  obtain ⟨lam, d, hlam, hd, rfl⟩ := hsp.elim
  obtain ⟨⟨hx1, hx2⟩, hx3⟩ := hx
  obtain ⟨x, rfl⟩ := x.exists_of hx1
  obtain ⟨z, rfl⟩ := z.exists_of hz
  obtain ⟨cov, rfl⟩ := hx2.exists_of
  rw [DMat.PD_of] at hx3
  obtain ⟨L, hL, hLL⟩ := hllt.scaled hlam hx3
  obtain ⟨m', q, y, R, hm', hc, hRe, hq0, hq, hy0, hy, e⟩ := ukfCorrect_of (d := d) hso hmc hmo junk hs hms hL x z dt back
  rw [hRe, DMat.PD_of] at hR
  obtain ⟨R', hR', e1, e2, e3⟩ := ukf_post_eq hlam hd hLL hq y hR
  have hS : (R + cross n lam d y y (mean n lam y) (mean n lam y)).PosDef :=
    hR.add_posSemidef (unscented_psd hlam hd y)
  refine ⟨m', _, _, e (pd_isUnit_det hS), ⟨⟨rfl, rfl, rfl⟩, ?_⟩, hm', hc, cov, _, rfl, rfl, ?_⟩
  · rw [DMat.PD_of, e1, e2]
    conv => arg 1; arg 1; rw [e3]
    rw [post_white _ _ hR']
    exact pd_conj_white (by rw [← e3]; exact hx3) (post_white_pd _ hR')
  · rw [sub_sub_cancel]
    exact psd_conj hS.posSemidef _

end Correct

section Plant
variable [DecidableEq K] [TimeOps T]

theorem mkPlantWith_inv {tot : Prop} {S : DVec → DMat → Prop} {Ge : Env K DS XS DM XM → Prop} {U : DVec → Prop} {R : DMat → Prop}
    {Z : DVec → DMat → K → Prop} {sc : SysClass T DS XS} {mc : K → MeasClass T DM XM}
    {predict : O → Env K DS XS DM XM → DVec → DMat → DVec → T → Option (DVec × DMat × Env K DS XS DM XM)}
    {correct : O → Env K DS XS DM XM → DVec → DMat → DVec → K → T → Option (DVec × DMat × Env K DS XS DM XM)}
    (Good : O → Prop) (h : ∀ o, Good o → PlantInv (mkPlant sc mc (predict o) (correct o)) tot S Ge U R Z) :
    PlantInv (mkPlantWith sc mc predict correct) tot S (fun e => Ge e.1 ∧ Good e.2) U R Z where
  empty := rfl
  rc e he := (h e.2 he.2).rc e.1 he.1
  zero e he := (h e.2 he.2).zero e.1 he.1
  setRc e c he hc := OptP.map ((h e.2 he.2).setRc e.1 c he.1 hc) fun a ha => ⟨ha, he.2⟩
  predict e x c u dt he hx hu := OptP.map ((h e.2 he.2).predict e.1 x c u dt he.1 hx hu) fun a ha => ⟨ha.1, ha.2, he.2⟩
  sysStationary e x c d he hx hd :=
    OptP.map ((h e.2 he.2).sysStationary e.1 x c d he.1 hx hd) fun a ha => ⟨⟨ha.1, he.2⟩, ha.2⟩
  setMeasCov e k z c he hz := OptP.map ((h e.2 he.2).setMeasCov e.1 k z c he.1 hz) fun a ha =>
    ⟨⟨ha.1, he.2⟩, fun x p dt hx => OptP.map (ha.2.1 x p dt hx) fun b hb => ⟨hb.1, hb.2, he.2⟩,
      fun x p hx => OptP.map (ha.2.2 x p hx) fun b hb => ⟨⟨hb.1, he.2⟩, hb.2⟩⟩

theorem ukf_inv_pd {llt : DMat → Option DMat} (hllt : LltSpec llt) (junk : Nat → Nat → ℝ) {sc : SysClass T NonlinSysData X}
    {mc : K → MeasClass T NonlinMeasData Y} (hsc : SysContract NonlinSysData.Sized sc) (hso : sc.PlainOps)
    (hsp : sc.SpreadsNoise NonlinSysData.Sized n m p) (hmc : ∀ j, MeasContract NonlinMeasData.Sized (mc j))
    (hmo : ∀ j, (mc j).PlainOps) (kd : K → Nat) :
    PlantInv (ukfPlant llt junk sc mc) True (EstimatePD n)
      (fun e => Env.Ok NonlinSysData.Sized NonlinMeasData.Sized (NoisePD p) (EstimatePD n) n m kd e.1 ∧ SigmaAdmissible n e.2)
      (fun u => u.size = m) (fun R => R.Is m m ∧ R.PSD) (fun z c k => z.size = kd k ∧ c.Is (kd k) (kd k) ∧ c.PD) := by
  refine mkPlantWith_inv _ fun o ho => ?_
  refine mkPlant_inv hsc hmc (fun _ _ h => h.1.1) (fun _ _ _ h h' => ⟨h.1, h.2.1, h'⟩) (fun _ _ h => h.2.2) ?_ ?_
  · intro e x c u dt he hx hu
    obtain ⟨s', x', c', h1, h2, h3, h4, h5⟩ := ukfPredict_psd hsc hso hllt junk ho he.sys he.noise.2.1.psd he.noise.2.2 hx hu dt
      (fun s => ({ e with sys := s } : Env K NonlinSysData X NonlinMeasData Y))
    exact OptP.of_eq h1 ⟨h5 he.noise.2.1 (by rw [he.noise.1.1]; exact hsp), he.setSys h3 h4⟩
  · intro e x c z j dt he hx hz hR
    obtain ⟨m', x', c', h1, h2, h3, h4, _⟩ := ukfCorrect_pd hso (hmc j) (hmo j) hllt junk ho he.sys (he.meas j) hR hx hz dt
      (e.setMeas j)
    exact OptP.of_eq h1 ⟨h2, he.setMeas j h3 h4⟩

theorem run_of_inv {E : Type} [SaneTime T] {tot : Prop} {P : Plant T DVec DMat K E} {Q : DVec → DMat → Prop} {G : E → Prop}
    {m : Nat} {kd : K → Nat} {NC NM : DMat → Prop}
    (hinv : PlantInv P tot Q G (fun u => u.size = m) (fun R => R.Is m m ∧ NC R)
      (fun z c k => z.size = kd k ∧ c.Is (kd k) (kd k) ∧ NM c))
    (hv : P.vsize = DVec.size)
    (sort : List (FilterInput T DVec DMat K) → List (FilterInput T DVec DMat K)) (hsort : ∀ l, (sort l).Perm l)
    (params : Params T) (e : E) (he : G e) (x : DVec) (c : DMat) (t : T) (hx : Q x c)
    (ops : List (Op T DVec DMat K E)) (hops : ∀ op ∈ ops, op.WellFormed Q G m kd NM) :
    OptP tot (fun g => (∀ s ∈ g.retained, Q s.x s.covariance) ∧ G g.env)
      ((Filter.construct P params e x c t).run P sort ops) := by
  unfold Filter.construct
  refine hinv.run sort hsort _ he ?_ x c t hx ops (fun op hop => (hops op hop).opOk hv)
  intro h
  exact absurd h (by rw [hinv.empty]; exact Nat.lt_irrefl 0)

end Plant

end StateEstimation
