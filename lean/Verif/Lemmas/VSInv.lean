import Verif.Lemmas.UKFVSSteps

/-! # Invariants of the variable-state filters over arbitrary API traces -/

set_option linter.unusedSectionVars false

namespace StateEstimation

open Matrix Kalman Sigma

variable {T K X Y DS XS DM XM : Type} [DecidableEq K] {n m k ns ms ks : Nat}

/-! ### Overwriting the active block -/

theorem OverwritesMat.block {σ : Fin ns → Fin n} {S : Matrix (Fin ns) (Fin ns) ℝ} {P P' : Matrix (Fin n) (Fin n) ℝ}
    (h : OverwritesMat σ σ S P P') : P'.submatrix σ σ = S := by
  ext i j; exact h.selected i j

theorem OverwritesMat.symm {σ : Fin ns → Fin n} {S : Matrix (Fin ns) (Fin ns) ℝ} {P P' : Matrix (Fin n) (Fin n) ℝ}
    (h : OverwritesMat σ σ S P P') (hS : Sᵀ = S) (hP : Pᵀ = P) : P'ᵀ = P' := by
  ext a b
  show P' b a = P' a b
  by_cases hab : ∃ i j, σ i = a ∧ σ j = b
  · obtain ⟨i, j, rfl, rfl⟩ := hab
    rw [h.selected, h.selected]
    exact congrFun (congrFun hS i) j
  · rw [h.others a b (fun i j q => hab ⟨i, j, q⟩), h.others b a (fun i j q => hab ⟨j, i, q.2, q.1⟩)]
    exact congrFun (congrFun hP a) b

theorem OverwritesMat.separated_psd {σ : Fin ns → Fin n} (hσ : Function.Injective σ) {S : Matrix (Fin ns) (Fin ns) ℝ}
    {P P' : Matrix (Fin n) (Fin n) ℝ}
    (h : OverwritesMat σ σ S P P') (hS : S.PosSemidef) (hP : P.PosSemidef) (hsep : ∀ i b, (∀ j, σ j ≠ b) → P (σ i) b = 0) :
    P'.PosSemidef ∧ ∀ i b, (∀ j, σ j ≠ b) → P' (σ i) b = 0 := by
  classical
  have hsep2 : ∀ i b, (∀ j, σ j ≠ b) → P' (σ i) b = 0 := by
    intro i b hb
    rw [h.others _ _ (fun i' j q => hb j q.2)]; exact hsep i b hb
  refine ⟨?_, hsep2⟩
  have hP'sym := h.symm (psd_symm hS) (psd_symm hP)
  let F : Matrix (Fin n) (Fin ns) ℝ := fun a i => if σ i = a then 1 else 0
  let J : Matrix (Fin n) (Fin n) ℝ := Matrix.diagonal fun a => if ∃ i, σ i = a then 0 else 1
  have hEq : P' = F * S * Fᵀ + J * P * Jᵀ := by
    ext a b
    have h1 : (F * S * Fᵀ) a b = ∑ i, ∑ j, (if σ i = a then 1 else 0) * S i j * (if σ j = b then 1 else 0) := by
      rw [Matrix.mul_apply, Finset.sum_comm]
      refine Finset.sum_congr rfl fun j _ => ?_
      rw [Matrix.mul_apply, Finset.sum_mul]
      rfl
    have h2 : (J * P * Jᵀ) a b = (if ∃ i, σ i = a then 0 else 1) * P a b * (if ∃ i, σ i = b then 0 else 1) := by
      simp only [J, Matrix.diagonal_transpose, Matrix.mul_diagonal, Matrix.diagonal_mul]
    rw [Matrix.add_apply, h1, h2]
    by_cases ha : ∃ i, σ i = a
    · obtain ⟨i, rfl⟩ := ha
      have hx : (∑ i', ∑ j, (if σ i' = σ i then (1:ℝ) else 0) * S i' j * (if σ j = b then 1 else 0))
          = ∑ j, S i j * (if σ j = b then 1 else 0) := by
        rw [Finset.sum_eq_single i]
        · simp
        · intro i' _ hi'
          rw [if_neg (fun q => hi' (hσ q))]; simp
        · intro q; exact absurd (Finset.mem_univ i) q
      rw [hx, if_pos ⟨i, rfl⟩, zero_mul, zero_mul, add_zero]
      by_cases hb : ∃ j, σ j = b
      · obtain ⟨j, rfl⟩ := hb
        rw [h.selected, Finset.sum_eq_single j]
        · simp
        · intro j' _ hj'
          rw [if_neg (fun q => hj' (hσ q)), mul_zero]
        · intro q; exact absurd (Finset.mem_univ j) q
      · rw [hsep2 i b (fun j q => hb ⟨j, q⟩)]
        symm
        exact Finset.sum_eq_zero fun j _ => by rw [if_neg (fun q => hb ⟨j, q⟩), mul_zero]
    · have hx : (∑ i', ∑ j, (if σ i' = a then (1:ℝ) else 0) * S i' j * (if σ j = b then 1 else 0)) = 0 := by
        refine Finset.sum_eq_zero fun i _ => Finset.sum_eq_zero fun j _ => ?_
        rw [if_neg (fun q => ha ⟨i, q⟩)]; ring
      rw [hx, zero_add, if_neg ha, one_mul]
      by_cases hb : ∃ j, σ j = b
      · obtain ⟨j, rfl⟩ := hb
        rw [if_pos ⟨j, rfl⟩, mul_zero]
        have : P' a (σ j) = P' (σ j) a := congrFun (congrFun hP'sym.symm a) (σ j)
        rw [this]
        exact hsep2 j a (fun i q => ha ⟨i, q⟩)
      · rw [if_neg hb, mul_one, h.others a b (fun i j q => ha ⟨i, q.1⟩)]
  rw [hEq]
  exact (psd_conj hS F).add (psd_conj hP J)

/-- What an invariant `Q` of the estimate must satisfy: it gives `D` for the active block and survives overwriting the
active block by a matrix with `D`. -/
structure BlockInv (D : Matrix (Fin ns) (Fin ns) ℝ → Prop) (σ : Fin ns → Fin n) (Q : DVec → DMat → Prop) : Prop where
  elim : ∀ x c, Q x c → x.size = n ∧ ∃ P : Matrix (Fin n) (Fin n) ℝ, c = .of P ∧ D (P.submatrix σ σ)
  step : ∀ x x' (P P' : Matrix (Fin n) (Fin n) ℝ) S, Q x (.of P) → x'.size = n → OverwritesMat σ σ S P P' → D S → Q x' (.of P')

theorem activePSD_inv {σ : Fin ns → Fin n} : BlockInv (·.PosSemidef) σ (ActivePSD σ) where
  elim := fun x c ⟨h1, P, h2, h3, h4⟩ => ⟨h1, P, h2, h4⟩
  step := fun x x' P P' S ⟨h1, P0, h2, h3, h4⟩ hx hov hS => by
    have := DMat.of_inj.mp h2; subst this
    exact ⟨hx, P', rfl, hov.symm (psd_symm hS) h3, by rw [hov.block]; exact hS⟩

theorem activePD_inv {σ : Fin ns → Fin n} : BlockInv (·.PosDef) σ (ActivePD σ) where
  elim := fun x c ⟨h1, P, h2, h3, h4⟩ => ⟨h1, P, h2, h4⟩
  step := fun x x' P P' S ⟨h1, P0, h2, h3, h4⟩ hx hov hS => by
    have := DMat.of_inj.mp h2; subst this
    exact ⟨hx, P', rfl, hov.symm (psd_symm hS.posSemidef) h3, by rw [hov.block]; exact hS⟩

theorem separatedPSD_inv {σ : Fin ns → Fin n} (hσ : Function.Injective σ) : BlockInv (·.PosSemidef) σ (SeparatedPSD σ) where
  elim := fun x c ⟨h1, P, h2, h3, h4⟩ => ⟨h1, P, h2, h3.submatrix σ⟩
  step := fun x x' P P' S ⟨h1, P0, h2, h3, h4⟩ hx hov hS => by
    have := DMat.of_inj.mp h2; subst this
    have := hov.separated_psd hσ hS h3 h4
    exact ⟨hx, P', rfl, this.1, this.2⟩

theorem separatedPD_inv {σ : Fin ns → Fin n} (hσ : Function.Injective σ) : BlockInv (·.PosDef) σ (SeparatedPD σ) where
  elim := fun x c h => activePD_inv.elim x c h.2
  step := fun x x' P P' S h hx hov hS =>
    ⟨(separatedPSD_inv hσ).step x x' P P' S h.1 hx hov hS.posSemidef, activePD_inv.step x x' P P' S h.2 hx hov hS⟩

/-! ### Plants whose invariant also fixes the active lists -/

theorem Env.Selecting.of_same {σ : Fin ns → Fin n} {kd : K → Nat} {e : Env K DS XS DM XM} (h : e.Selecting σ m kd)
    {s : Sys DS XS} (h1 : s.fm = e.sys.fm) (h2 : s.activeControls = e.sys.activeControls) :
    ({ e with sys := s } : Env K DS XS DM XM).Selecting σ m kd where
  states := by
    show Selects s.fm.activeStates σ
    rw [h1]; exact h.states
  controls := by
    show ∃ ms, ∃ τ : Fin ms → Fin m, Selects s.activeControls τ
    rw [h2]; exact h.controls
  meas := h.meas

theorem Env.Selecting.setMeas {σ : Fin ns → Fin n} {kd : K → Nat} {e : Env K DS XS DM XM} (h : e.Selecting σ m kd) (j : K)
    {s : Meas DM XM} (h1 : s.activeMeasurements = (e.meas j).activeMeasurements) : (e.setMeas j s).Selecting σ m kd where
  states := h.states
  controls := h.controls
  meas := fun i => by
    unfold Env.setMeas
    dsimp only
    by_cases hi : i = j
    · subst hi; rw [if_pos rfl, h1]; exact h.meas i
    · rw [if_neg hi]; exact h.meas i

variable {ds : Nat → Nat → DS → Prop} {dm : Nat → Nat → DM → Prop} {N : DMat → DMat → Prop} {Q : DVec → DMat → Prop}
  {kd : K → Nat} [TimeOps T]

/-- A property of the active lists: it survives replacing a model by one with the same configuration. -/
structure Env.Closed (A : Env K DS XS DM XM → Prop) : Prop where
  of_same : ∀ {e : Env K DS XS DM XM}, A e → ∀ {s : Sys DS XS}, s.fm = e.sys.fm → s.activeControls = e.sys.activeControls →
    A { e with sys := s }
  setMeas : ∀ {e : Env K DS XS DM XM}, A e → ∀ (j : K) {s : Meas DM XM},
    s.activeMeasurements = (e.meas j).activeMeasurements → A (e.setMeas j s)

/-- `mkPlant_inv` with an invariant of the active lists. -/
theorem mkPlant_inv_closed {tot : Prop} {sc : SysClass T DS XS} {mc : K → MeasClass T DM XM} {A : Env K DS XS DM XM → Prop} (hA : Env.Closed A)
    {predict correct} {NC NM : DMat → Prop}
    (hsc : SysContract ds sc) (hmc : ∀ k, MeasContract dm (mc k))
    (hQ : ∀ x c, Q x c → x.size = n)
    (hN1 : ∀ Rp Rc Rc', N Rp Rc → NC Rc' → N Rp Rc') (hN2 : ∀ Rp Rc, N Rp Rc → NC Rc)
    (hpred : ∀ (e : Env K DS XS DM XM) x c u (dt : T), e.Ok ds dm N Q n m kd → A e → Q x c → u.size = m →
      OptP tot (fun r => Q r.1 r.2.1 ∧ r.2.2.Ok ds dm N Q n m kd ∧ A r.2.2) (predict e x c u dt))
    (hcorr : ∀ (e : Env K DS XS DM XM) x c z k (dt : T), e.Ok ds dm N Q n m kd → A e → Q x c → z.size = kd k →
      NM (e.meas k).cov → OptP tot (fun r => Q r.1 r.2.1 ∧ r.2.2.Ok ds dm N Q n m kd ∧ A r.2.2)
        (correct e x c z k dt)) :
    PlantInv (mkPlant sc mc predict correct) tot Q (fun e => Env.Ok ds dm N Q n m kd e ∧ A e) (fun u => u.size = m)
      (fun R => R.Is m m ∧ NC R) (fun z c k => z.size = kd k ∧ c.Is (kd k) (kd k) ∧ NM c) where
  empty := rfl
  rc e he := ⟨he.1.sys.Rc, hN2 _ _ he.1.noise⟩
  zero e he := he.1.sys.controls
  setRc e c he hc := by
    obtain ⟨he, hsel⟩ := he
    refine OptP.of_eq (a := { e with sys := { e.sys with Rc := c } }) ?_ ?_
    · show ((e.sys.setControlCovariance c).map _) = _
      unfold Sys.setControlCovariance
      rw [if_pos (by rw [he.sys.controls]; exact hc.1)]; rfl
    · exact ⟨⟨⟨he.sys.states, he.sys.controls, he.sys.der, he.sys.P, he.sys.Rp, he.sys.V, hc.1⟩,
        hN1 _ _ _ he.noise hc.2, he.sysMake, he.meas, he.measMake⟩, hA.of_same hsel rfl rfl⟩
  predict e x c u dt he hx hu := hpred e x c u dt he.1 he.2 hx hu
  sysStationary e x c d he hx hd := by
    obtain ⟨he, hsel⟩ := he
    have hd' : d.size = m ∨ d.size = 0 := by
      rcases Nat.eq_zero_or_pos d.size with h | h
      · exact Or.inr h
      · exact Or.inl (hd h)
    obtain ⟨s', h1, h2, h3⟩ := hsc.stationary e.sys x d he.sys (hQ _ _ hx) hd'
    refine OptP.of_eq (a := { e with sys := s' }) ?_ ?_
    · show ((sc.processStationary e.sys x d).map _) = _
      rw [h1]; rfl
    · have ho := he.setSys h2 h3
      refine ⟨⟨ho, hA.of_same hsel h3.fm h3.activeControls⟩, ?_⟩
      obtain ⟨x', c', k1, k2⟩ := ho.sysMake x c hx
      exact OptP.of_eq k1 k2
  setMeasCov e k z c he hz := by
    obtain ⟨he, hsel⟩ := he
    refine OptP.of_eq (a := e.setMeas k { e.meas k with cov := c }) ?_ ?_
    · show (((e.meas k).setCovariance c).map _) = _
      unfold Meas.setCovariance
      rw [if_pos (by rw [(he.meas k).meas]; exact hz.2.1)]; rfl
    · have hsel2 : A (e.setMeas k { e.meas k with cov := c }) := hA.setMeas hsel k rfl
      have ho : (e.setMeas k { e.meas k with cov := c }).Ok ds dm N Q n m kd := by
        refine ⟨he.sys, he.noise, he.sysMake, ?_, ?_⟩
        · intro j
          unfold Env.setMeas
          dsimp only
          by_cases hj : j = k
          · subst hj; rw [if_pos rfl]
            exact ⟨(he.meas j).states, (he.meas j).meas, (he.meas j).der, hz.2.1⟩
          · rw [if_neg hj]; exact he.meas j
        · intro j
          unfold Env.setMeas
          dsimp only
          by_cases hj : j = k
          · subst hj; rw [if_pos rfl]; exact he.measMake j
          · rw [if_neg hj]; exact he.measMake j
      refine ⟨⟨ho, hsel2⟩, ?_, ?_⟩
      · intro x p dt hx
        refine hcorr _ x p z k dt ho hsel2 hx hz.1 ?_
        unfold Env.setMeas
        simp only [if_true]
        exact hz.2.2
      · intro x p hx
        obtain ⟨s', h1, h2, h3⟩ := (hmc k).stationary _ x z (ho.meas k) (hQ _ _ hx) hz.1
        refine OptP.of_eq (a := (e.setMeas k { e.meas k with cov := c }).setMeas k s') ?_ ?_
        · show (((mc k).processStationary _ x z).map _) = _
          rw [h1]; rfl
        · have ho2 := ho.setMeas k h2 h3
          refine ⟨⟨ho2, hA.setMeas hsel2 k h3.activeMeasurements⟩, ?_⟩
          obtain ⟨x', c', k1, k2⟩ := ho2.measMake k x p hx
          exact OptP.of_eq k1 k2

theorem Env.closed_selecting (σ : Fin ns → Fin n) (kd : K → Nat) :
    Env.Closed (fun e : Env K DS XS DM XM => e.Selecting σ m kd) :=
  ⟨fun h _ h1 h2 => h.of_same h1 h2, fun h j _ h1 => h.setMeas j h1⟩

/-- `mkPlant_inv` with an invariant of the active lists. -/
theorem mkPlant_inv_sel {tot : Prop} {sc : SysClass T DS XS} {mc : K → MeasClass T DM XM} {σ : Fin ns → Fin n}
    {predict correct} {NC NM : DMat → Prop}
    (hsc : SysContract ds sc) (hmc : ∀ k, MeasContract dm (mc k))
    (hQ : ∀ x c, Q x c → x.size = n)
    (hN1 : ∀ Rp Rc Rc', N Rp Rc → NC Rc' → N Rp Rc') (hN2 : ∀ Rp Rc, N Rp Rc → NC Rc)
    (hpred : ∀ (e : Env K DS XS DM XM) x c u (dt : T), e.Ok ds dm N Q n m kd → e.Selecting σ m kd → Q x c → u.size = m →
      OptP tot (fun r => Q r.1 r.2.1 ∧ r.2.2.Ok ds dm N Q n m kd ∧ r.2.2.Selecting σ m kd) (predict e x c u dt))
    (hcorr : ∀ (e : Env K DS XS DM XM) x c z k (dt : T), e.Ok ds dm N Q n m kd → e.Selecting σ m kd → Q x c → z.size = kd k →
      NM (e.meas k).cov → OptP tot (fun r => Q r.1 r.2.1 ∧ r.2.2.Ok ds dm N Q n m kd ∧ r.2.2.Selecting σ m kd)
        (correct e x c z k dt)) :
    PlantInv (mkPlant sc mc predict correct) tot Q (fun e => Env.Ok ds dm N Q n m kd e ∧ e.Selecting σ m kd) (fun u => u.size = m)
      (fun R => R.Is m m ∧ NC R) (fun z c k => z.size = kd k ∧ c.Is (kd k) (kd k) ∧ NM c) :=
  mkPlant_inv_closed (Env.closed_selecting σ kd) hsc hmc hQ hN1 hN2 hpred hcorr

theorem subPropagate_psd {p : Nat} {σ : Fin ns → Fin n} {τ : Fin ms → Fin m} {A cov : Matrix (Fin n) (Fin n) ℝ}
    {W : Matrix (Fin n) (Fin p) ℝ} {Rp : Matrix (Fin p) (Fin p) ℝ} {V : Matrix (Fin n) (Fin m) ℝ}
    {Rc : Matrix (Fin m) (Fin m) ℝ} (h : (cov.submatrix σ σ).PosSemidef) (h1 : Rp.PosSemidef) (h2 : Rc.PosSemidef) :
    (subPropagate σ τ A cov W Rp V Rc).PosSemidef :=
  ((psd_conj h _).add (psd_conj h1 _)).add (psd_conj (h2.submatrix τ) _)

section KF
variable {sc : SysClass T LinSysData X} {mc : K → MeasClass T LinMeasData Y}

theorem kfvs_inv (hsc : SysContract LinSysData.Sized sc) (hmc : ∀ j, MeasContract LinMeasData.Sized (mc j))
    {σ : Fin ns → Fin n} (hQ : BlockInv (·.PosSemidef) σ Q) (kd : K → Nat) :
    PlantInv (kfvsPlant sc mc) True Q
      (fun e => Env.Ok LinSysData.Sized LinMeasData.Sized NoisePSD Q n m kd e ∧ e.Selecting σ m kd) (fun u => u.size = m)
      (fun R => R.Is m m ∧ R.PSD) (fun z c k => z.size = kd k ∧ c.Is (kd k) (kd k) ∧ c.PD) := by
  refine mkPlant_inv_sel hsc hmc (fun _ _ h => (hQ.elim _ _ h).1) (fun _ _ _ h h' => ⟨h.1, h'⟩) (fun _ _ h => h.2) ?_ ?_
  · intro e x c u dt he hsel hx hu
    obtain ⟨hx1, P, rfl, hP⟩ := hQ.elim _ _ hx
    obtain ⟨x, rfl⟩ := x.exists_of hx1
    obtain ⟨u, rfl⟩ := u.exists_of hu
    obtain ⟨ms, τ, hτ⟩ := hsel.controls
    obtain ⟨s', p, A, B, W, V, Rp, Rc, a, b, x', P', h1, h2, h3, h4, h5, h6, h7, h8, h9, h10, h11, h12, h13⟩ :=
      kfvsPredict_of hsc he.sys hsel.states hτ x P u dt (fun s => ({ e with sys := s } : Env K LinSysData X LinMeasData Y))
    refine OptP.of_eq h1 ⟨hQ.step _ _ _ _ _ hx rfl h13 ?_, he.setSys h3 h4, hsel.of_same h4.fm h4.activeControls⟩
    have hn := he.noise
    rw [h8, h9] at hn
    exact subPropagate_psd hP (DMat.PSD_of.mp hn.1) (DMat.PSD_of.mp hn.2)
  · intro e x c z j dt he hsel hx hz hR
    obtain ⟨hx1, P, rfl, hP⟩ := hQ.elim _ _ hx
    obtain ⟨x, rfl⟩ := x.exists_of hx1
    obtain ⟨z, rfl⟩ := z.exists_of hz
    obtain ⟨ks, ρ, hρ⟩ := hsel.meas j
    obtain ⟨R, hRe⟩ := (he.meas j).cov.exists_of
    rw [hRe, DMat.PD_of] at hR
    have hR' := hR.submatrix hρ.inj
    obtain ⟨m', C, zf, dz, dx, x', P', h1, h2, h3, h4, h5, h6, h7, h8, h9, h10⟩ :=
      kfvsCorrect_of hsc (hmc j) he.sys (he.meas j) hsel.states hρ x P hP hRe hR' z dt (e.setMeas j)
    exact OptP.of_eq h1 ⟨hQ.step _ _ _ _ _ hx rfl h10 (post_psd hP _ hR'), he.setMeas j h3 h4,
      hsel.setMeas j h4.activeMeasurements⟩

end KF

section EKF
variable {sc : SysClass T NonlinSysData X} {mc : K → MeasClass T NonlinMeasData Y}

theorem ekfvs_inv (hsc : SysContract NonlinSysData.Sized sc) (hmc : ∀ j, MeasContract NonlinMeasData.Sized (mc j))
    {σ : Fin ns → Fin n} (hQ : BlockInv (·.PosSemidef) σ Q) (kd : K → Nat) :
    PlantInv (ekfvsPlant sc mc) True Q
      (fun e => Env.Ok NonlinSysData.Sized NonlinMeasData.Sized NoisePSD Q n m kd e ∧ e.Selecting σ m kd) (fun u => u.size = m)
      (fun R => R.Is m m ∧ R.PSD) (fun z c k => z.size = kd k ∧ c.Is (kd k) (kd k) ∧ c.PD) := by
  refine mkPlant_inv_sel hsc hmc (fun _ _ h => (hQ.elim _ _ h).1) (fun _ _ _ h h' => ⟨h.1, h'⟩) (fun _ _ h => h.2) ?_ ?_
  · intro e x c u dt he hsel hx hu
    obtain ⟨hx1, P, rfl, hP⟩ := hQ.elim _ _ hx
    obtain ⟨x, rfl⟩ := x.exists_of hx1
    obtain ⟨ms, τ, hτ⟩ := hsel.controls
    obtain ⟨s', p, x', G, W, V, Rp, Rc, P', h1, h2, h3, h4, h5, h6, h7, h8, h9, h13⟩ :=
      ekfvsPredict_of hsc he.sys hsel.states hτ x P hu dt (fun s => ({ e with sys := s } : Env K NonlinSysData X NonlinMeasData Y))
    refine OptP.of_eq h1 ⟨hQ.step _ _ _ _ _ hx rfl h13 ?_, he.setSys h3 h4, hsel.of_same h4.fm h4.activeControls⟩
    have hn := he.noise
    rw [h8, h9] at hn
    exact subPropagate_psd hP (DMat.PSD_of.mp hn.1) (DMat.PSD_of.mp hn.2)
  · intro e x c z j dt he hsel hx hz hR
    obtain ⟨hx1, P, rfl, hP⟩ := hQ.elim _ _ hx
    obtain ⟨x, rfl⟩ := x.exists_of hx1
    obtain ⟨z, rfl⟩ := z.exists_of hz
    obtain ⟨ks, ρ, hρ⟩ := hsel.meas j
    obtain ⟨R, hRe⟩ := (he.meas j).cov.exists_of
    rw [hRe, DMat.PD_of] at hR
    have hR' := hR.submatrix hρ.inj
    obtain ⟨m', zh, C, dz, dx, x', P', h1, h2, h3, h4, h5, h6, h7, h8, h10⟩ :=
      ekfvsCorrect_of hsc (hmc j) he.sys (he.meas j) hsel.states hρ x P hP hRe hR' z dt (e.setMeas j)
    exact OptP.of_eq h1 ⟨hQ.step _ _ _ _ _ hx rfl h10 (post_psd hP _ hR'), he.setMeas j h3 h4,
      hsel.setMeas j h4.activeMeasurements⟩

end EKF

section UKF
variable {sc : SysClass T NonlinSysData X} {mc : K → MeasClass T NonlinMeasData Y} {p : Nat}

theorem cross_comp {ι κ ι' κ' : Type} (N : Nat) (lam d : ℝ) (x : Nat → ι → ℝ) (y : Nat → κ → ℝ) (a : ι → ℝ) (b : κ → ℝ)
    (f : ι' → ι) (g : κ' → κ) :
    cross N lam d (fun j => x j ∘ f) (fun j => y j ∘ g) (a ∘ f) (b ∘ g) = (cross N lam d x y a b).submatrix f g := by
  unfold cross
  ext i j
  simp only [Matrix.sum_apply, Matrix.submatrix_apply, Matrix.smul_apply, vecMulVec_apply]
  rfl

theorem mean_comp {ι ι' : Type} (N : Nat) (lam : ℝ) (y : Nat → ι → ℝ) (f : ι' → ι) :
    mean N lam y ∘ f = mean N lam (fun j => y j ∘ f) := by
  unfold mean
  funext i
  simp only [Function.comp, Finset.sum_apply, Pi.smul_apply]

/-- A UKFVS prediction succeeds; the active block is positive definite. -/
theorem ukfvsPredict_pd {Z : Type} (hsc : SysContract NonlinSysData.Sized sc) (hso : sc.PlainOps)
    (hspread : sc.SpreadsNoise NonlinSysData.Sized n m p)
    {llt : DMat → Option DMat} (hllt : LltSpec llt) (junk : Nat → Nat → ℝ) {s : Sys NonlinSysData X} {sp : SigmaParams}
    (hsp : SigmaAdmissible ns sp)
    (hs : s.Sized NonlinSysData.Sized n m) {σ : Fin ns → Fin n} (hσ : Selects s.activeStates σ)
    {τ : Fin ms → Fin m} (hτ : Selects s.activeControls τ) (hN : NoisePD p s.Rp s.Rc) (x : Fin n → ℝ)
    {P : Matrix (Fin n) (Fin n) ℝ} (hP : (P.submatrix σ σ).PosDef) {u : DVec} (hu : u.size = m) (dt : T)
    (back : Sys NonlinSysData X → Z) :
    ∃ (s' : Sys NonlinSysData X) (x' : Fin n → ℝ) (P' : Matrix (Fin n) (Fin n) ℝ) (S : Matrix (Fin ns) (Fin ns) ℝ),
      ukfvsPredict llt junk sc sp s (.of x) (.of P) u dt back = some (.of x', .of P', back s') ∧ S.PosDef ∧
      OverwritesMat σ σ S P P' ∧ s'.Sized NonlinSysData.Sized n m ∧ s.SameConfig s' := by
  obtain ⟨lam, d, hlam, hd, rfl⟩ := hsp.elim
  obtain ⟨L, hL, hLL⟩ := hllt.scaled hlam hP
  obtain ⟨s', q, y, W, V, Rp, Rc, P', e, hov, hs', hc, hy0, hy, hup, hW, hV, hRp, hRc⟩ :=
    ukfvsPredict_of (d := d) hsc hso junk hs hσ hτ hL x hu dt back
  obtain ⟨hNp, hN1, hN2⟩ := hN
  rw [hRp] at hN1 hNp
  rw [hRc] at hN2
  have hq : q = p := hNp.1
  subst hq
  refine ⟨s', _, P', _, e, ?_, hov, hs', hc⟩
  have hker : ∀ v : Fin n → ℝ, v ᵥ* W = 0 → v = 0 := by
    rcases hup with ⟨_, s1, g1, g2, g3⟩ | ⟨_, s1, g1, g2, g3⟩
    · exact hspread s1 _ u dt s' W g1 (by rw [g2.Rp, hRp]; exact ⟨rfl, rfl⟩) rfl hu g3 hW
    · exact hspread s1 _ u dt s' W g1 (by rw [g2.Rp, hRp]; exact ⟨rfl, rfl⟩) rfl hu g3 hW
  have hinj : Function.Injective (W.submatrix σ id).vecMul := by
    intro v w hvw
    have h0 : spread σ (v - w) ᵥ* W = 0 := by
      funext a
      have : (spread σ (v - w) ᵥ* W) a = ((v - w) ᵥ* W.submatrix σ id) a := by
        simp only [Matrix.vecMul, dotProduct, spread, Finset.sum_mul, Matrix.submatrix_apply, id]
        rw [Finset.sum_comm]
        refine Finset.sum_congr rfl fun i _ => ?_
        rw [Finset.sum_eq_single (σ i)]
        · rw [if_pos rfl]
        · intro b _ hb; rw [if_neg (Ne.symm hb), zero_mul]
        · intro h; exact absurd (Finset.mem_univ _) h
      rw [this, Matrix.sub_vecMul]
      exact sub_eq_zero.mpr (congrFun hvw a)
    have h1 := hker _ h0
    have h2 := spread_comp hσ.inj (v - w)
    rw [h1] at h2
    exact (sub_eq_zero.mp h2.symm)
  have hW2 : (W.submatrix σ id * Rp * (W.submatrix σ id)ᵀ).PosDef := by
    have := (DMat.PD_of.mp hN1).mul_mul_conjTranspose_same (B := W.submatrix σ id) hinj
    rwa [conjTranspose_eq_transpose_of_trivial] at this
  refine (hW2.add_posSemidef (psd_conj ((DMat.PSD_of.mp hN2).submatrix τ) _)).add_posSemidef ?_
  rw [mean_comp]
  exact unscented_psd hlam hd _

/-- A UKFVS correction succeeds; the active block is positive definite and not larger than before. -/
theorem ukfvsCorrect_pd {Z : Type} (hso : sc.PlainOps) {mc : MeasClass T NonlinMeasData Y}
    (hmc : MeasContract NonlinMeasData.Sized mc) (hmo : mc.PlainOps)
    {llt : DMat → Option DMat} (hllt : LltSpec llt) (junk : Nat → Nat → ℝ) {s : Sys NonlinSysData X} {sp : SigmaParams}
    (hsp : SigmaAdmissible ns sp)
    (hs : s.Sized NonlinSysData.Sized n m) {me : Meas NonlinMeasData Y} (hms : me.Sized NonlinMeasData.Sized n k)
    {σ : Fin ns → Fin n} (hσ : Selects s.activeStates σ) {ρ : Fin ks → Fin k} (hρ : Selects me.activeMeasurements ρ)
    {R : Matrix (Fin k) (Fin k) ℝ} (hRe : me.cov = .of R) (hR : (R.submatrix ρ ρ).PosDef) (x : Fin n → ℝ) (z : Fin k → ℝ)
    {P : Matrix (Fin n) (Fin n) ℝ} (hP : (P.submatrix σ σ).PosDef) (dt : T)
    (back : Meas NonlinMeasData Y → Z) :
    ∃ (m' : Meas NonlinMeasData Y) (v : Fin ns → ℝ) (P' : Matrix (Fin n) (Fin n) ℝ) (S : Matrix (Fin ns) (Fin ns) ℝ),
      ukfvsCorrect llt junk sc mc sp s me (.of x) (.of P) (.of z) dt back = some (.of (x + spread σ v), .of P', back m') ∧
      S.PosDef ∧ (P.submatrix σ σ - S).PosSemidef ∧
      OverwritesMat σ σ S P P' ∧ m'.Sized NonlinMeasData.Sized n k ∧ me.SameConfig m' := by
  obtain ⟨lam, d, hlam, hd, rfl⟩ := hsp.elim
  obtain ⟨L, hL, hLL⟩ := hllt.scaled hlam hP
  obtain ⟨m', q, y, R2, S, D, G, hm', hc, hR2, hq0, hq, hy0, hy, hS, hD, hG, e⟩ :=
    ukfvsCorrect_of (d := d) hso hmc hmo junk hs hms hσ hρ hL x z dt back
  have : R = R2 := DMat.of_inj.mp (hRe.symm.trans hR2)
  subst this
  have hqs : Symm ns (fun j => q j ∘ σ) (colsOf L) := by
    intro i hi
    obtain ⟨h1, h2⟩ := hq i hi
    dsimp only
    rw [h1, h2, hq0]
    constructor
    · funext a; show x (σ a) + spread σ (colsOf L i) (σ a) = _; rw [(spread_overwrites hσ.inj _).selected]; rfl
    · funext a; show x (σ a) - spread σ (colsOf L i) (σ a) = _; rw [(spread_overwrites hσ.inj _).selected]; rfl
  have hq0' : (fun j => q j ∘ σ) 0 = x ∘ σ := by show q 0 ∘ σ = _; rw [hq0]
  obtain ⟨R', hR', f1, f2, f3⟩ := ukf_post_eq hlam hd hLL hqs (fun j => y j ∘ ρ) hR
  rw [mean_comp] at hS hD
  rw [← hq0'] at hD
  have hSpd : S.PosDef := by rw [hS]; exact hR.add_posSemidef (unscented_psd hlam hd _)
  obtain ⟨P', e1, hov⟩ := e (pd_isUnit_det hSpd)
  refine ⟨m', _, P', _, e1, ?_, ?_, hov, hm', hc⟩
  · rw [hG, hD, hS, f1, f2]
    conv => arg 1; arg 1; rw [f3]
    rw [post_white _ _ hR']
    exact pd_conj_white (by rw [← f3]; exact hP) (post_white_pd _ hR')
  · rw [sub_sub_cancel]
    exact psd_conj hSpd.posSemidef _

theorem ukfvs_inv {llt : DMat → Option DMat} (hllt : LltSpec llt) (junk : Nat → Nat → ℝ)
    (hsc : SysContract NonlinSysData.Sized sc) (hso : sc.PlainOps) (hspread : sc.SpreadsNoise NonlinSysData.Sized n m p)
    (hmc : ∀ j, MeasContract NonlinMeasData.Sized (mc j)) (hmo : ∀ j, (mc j).PlainOps)
    {σ : Fin ns → Fin n} (hQ : BlockInv (·.PosDef) σ Q) (kd : K → Nat) :
    PlantInv (ukfvsPlant llt junk sc mc) True Q
      (fun e => (Env.Ok NonlinSysData.Sized NonlinMeasData.Sized (NoisePD p) Q n m kd e.1 ∧ e.1.Selecting σ m kd) ∧
        SigmaAdmissible ns e.2) (fun u => u.size = m)
      (fun R => R.Is m m ∧ R.PSD) (fun z c k => z.size = kd k ∧ c.Is (kd k) (kd k) ∧ c.PD) := by
  unfold ukfvsPlant
  refine mkPlantWith_inv (T := T)
    (Ge := fun e => Env.Ok NonlinSysData.Sized NonlinMeasData.Sized (NoisePD p) Q n m kd e ∧ e.Selecting σ m kd)
    (SigmaAdmissible ns) fun o ho => ?_
  refine mkPlant_inv_sel hsc hmc (fun _ _ h => (hQ.elim _ _ h).1) (fun _ _ _ h h' => ⟨h.1, h.2.1, h'⟩) (fun _ _ h => h.2.2) ?_ ?_
  · intro e x c u dt he hsel hx hu
    obtain ⟨hx1, P, rfl, hP⟩ := hQ.elim _ _ hx
    obtain ⟨x, rfl⟩ := x.exists_of hx1
    obtain ⟨ms, τ, hτ⟩ := hsel.controls
    obtain ⟨s', x', P', S, h1, h2, h3, h4, h5⟩ := ukfvsPredict_pd hsc hso hspread hllt junk ho he.sys hsel.states hτ he.noise x hP hu dt
      (fun s => ({ e with sys := s } : Env K NonlinSysData X NonlinMeasData Y))
    exact OptP.of_eq h1 ⟨hQ.step _ _ _ _ _ hx rfl h3 h2, he.setSys h4 h5, hsel.of_same h5.fm h5.activeControls⟩
  · intro e x c z j dt he hsel hx hz hR
    obtain ⟨hx1, P, rfl, hP⟩ := hQ.elim _ _ hx
    obtain ⟨x, rfl⟩ := x.exists_of hx1
    obtain ⟨z, rfl⟩ := z.exists_of hz
    obtain ⟨ks, ρ, hρ⟩ := hsel.meas j
    obtain ⟨R, hRe⟩ := (he.meas j).cov.exists_of
    rw [hRe, DMat.PD_of] at hR
    obtain ⟨m', v, P', S, h1, h2, h3, h4, h5, h6⟩ := ukfvsCorrect_pd hso (hmc j) (hmo j) hllt junk ho he.sys (he.meas j) hsel.states hρ hRe
      (hR.submatrix hρ.inj) x z hP dt (e.setMeas j)
    exact OptP.of_eq h1 ⟨hQ.step _ _ _ _ _ hx rfl h4 h2, he.setMeas j h5 h6, hsel.setMeas j h6.activeMeasurements⟩

end UKF

end StateEstimation
