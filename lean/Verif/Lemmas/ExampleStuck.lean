import Verif.Lemmas.Example

/-! # The example program on slow odometry -/

set_option linter.unusedSectionVars false

namespace StateEstimation.Example

open Matrix Kalman Props

section scalar
variable {ι κ : Type} [Fintype ι] [DecidableEq ι] [Fintype κ] [DecidableEq κ]

/-- A state that is uncorrelated with the others and measured directly, by a measurement that has nothing else in it, is
corrected on its own. -/
theorem alone {P : Matrix ι ι ℝ} {H : Matrix κ ι ℝ} {R : Matrix κ κ ℝ} {a : ι} {b : κ} {p r : ℝ}
    (hP : P *ᵥ Pi.single a 1 = p • Pi.single a 1) (hH : H *ᵥ Pi.single a 1 = Pi.single b 1)
    (hHt : Hᵀ *ᵥ Pi.single b 1 = Pi.single a 1) (hR : R *ᵥ Pi.single b 1 = r • Pi.single b 1) (hpr : p + r ≠ 0)
    (hS : IsUnit (innov P H R).det) :
    gain P H R *ᵥ Pi.single b 1 = (p / (p + r)) • Pi.single a 1 ∧
      post P H R *ᵥ Pi.single a 1 = (p * r / (p + r)) • Pi.single a 1 := by
  have hs : innov P H R *ᵥ Pi.single b 1 = (p + r) • Pi.single b 1 := by
    unfold innov
    rw [Matrix.add_mulVec, ← Matrix.mulVec_mulVec, ← Matrix.mulVec_mulVec, hHt, hP, Matrix.mulVec_smul, hH, hR, add_smul]
  have hi : (innov P H R)⁻¹ *ᵥ Pi.single b 1 = (1 / (p + r)) • Pi.single b 1 := by
    have h1 : (innov P H R)⁻¹ *ᵥ (innov P H R *ᵥ Pi.single b 1) = Pi.single b 1 := by
      rw [Matrix.mulVec_mulVec, Matrix.nonsing_inv_mul _ hS, Matrix.one_mulVec]
    rw [hs, Matrix.mulVec_smul] at h1
    rw [← h1, smul_smul, one_div, inv_mul_cancel₀ hpr, one_smul, h1]
  have hg : gain P H R *ᵥ Pi.single b 1 = (p / (p + r)) • Pi.single a 1 := by
    unfold gain
    rw [← Matrix.mulVec_mulVec, ← Matrix.mulVec_mulVec, hi, Matrix.mulVec_smul, hHt, Matrix.mulVec_smul, hP, smul_smul]
    congr 1; ring
  refine ⟨hg, ?_⟩
  unfold post
  rw [← Matrix.mulVec_mulVec, hP, Matrix.mulVec_smul, Matrix.sub_mulVec, Matrix.one_mulVec, ← Matrix.mulVec_mulVec, hH, hg]
  funext i
  simp only [Pi.smul_apply, Pi.sub_apply, smul_eq_mul]
  field_simp
  ring

end scalar

theorem act_zero {i : Fin 9} : act i = 0 ↔ i = 0 := by
  rw [Fin.ext_iff, Fin.ext_iff, act_val]; rfl

/-- The initial state with another speed along x. -/
noncomputable def speed (a : ℝ) : Fin 18 → ℝ := fun i => if i = 0 then a else initialState i

/-- The models: system as set up, odometry as set up up to the last prediction and covariance. -/
structure Driving (e : Models) : Prop where
  sys : e.sys = (activate exEnv).sys
  fm : (e.meas .odom).fm = exOdom.fm
  measDims : (e.meas .odom).measDims = 4
  active : (e.meas .odom).activeMeasurements = [0, 1, 2, 3]
  ext : (e.meas .odom).ext = exOdom.ext
  H : (e.meas .odom).der.H = .of (odomH 0 odomTf)
  h : (e.meas .odom).der.h.size = 4
  cov : (e.meas .odom).cov.Is 4 4

theorem Driving.sized {e : Models} (h : Driving e) : (e.meas .odom).Sized NonlinMeasData.Sized 18 4 :=
  ⟨by show (e.meas .odom).fm.stateDims = 18; rw [h.fm]; rfl, h.measDims, ⟨h.h, by rw [h.H]; exact ⟨rfl, rfl⟩⟩, h.cov⟩

theorem driving_start : Driving (activate exEnv) :=
  ⟨rfl, rfl, rfl, by decide, rfl, rfl, rfl, rfl, rfl⟩

/-- The speed along x is uncorrelated with the rest and has variance `p`. -/
def Alone (P : Matrix (Fin 18) (Fin 18) ℝ) (p : ℝ) : Prop := ∀ i, P i 0 = if i = 0 then p else 0

/-- The odometry reading of straight driving. -/
noncomputable def straight (v : ℝ) : Fin 4 → ℝ := ![v, 0, 0, 0]

theorem odomH_col : (odomH 0 odomTf).submatrix id act *ᵥ Pi.single 0 1 = Pi.single 0 1 := by
  funext i
  rw [Matrix.mulVec_single_one]
  fin_cases i
  · show (1 : M3) 0 0 = _; simp
  · show (1 : M3) 1 0 = _; simp
  · show (1 : M3) 2 0 = _; simp
  · rfl

theorem odomH_row : ((odomH 0 odomTf).submatrix id act)ᵀ *ᵥ Pi.single 0 1 = Pi.single 0 1 := by
  funext i
  rw [Matrix.mulVec_single_one]
  have hsk : ∀ j : Fin 3, (-skew odomTf.t * odomTf.R) 0 j = 0 := by
    intro j
    show (-skew odomTf.t * 1) 0 j = 0
    rw [Matrix.mul_one]
    fin_cases j <;> simp [skew, odomTf]
  fin_cases i
  · show (1 : M3) 0 0 = _; simp
  · show (1 : M3) 0 1 = _; simp
  · show (1 : M3) 0 2 = _; simp
  · rfl
  · rfl
  · rfl
  · exact hsk 0
  · exact hsk 1
  · exact hsk 2

theorem odom_still : odomOf odomTf (speed 0) = 0 := by
  have e1 : velocityOf (speed 0) = 0 := by
    funext i; fin_cases i <;> rfl
  have e2 : rateOf (speed 0) = 0 := by
    funext i; fin_cases i <;> rfl
  unfold odomOf
  rw [e1, e2]
  funext i
  fin_cases i <;> simp [transformLinearVelocity]

theorem speed_grav (a : ℝ) : SixDRates.part (speed a) 9 = ![0, 0, 9.8062] := by
  funext i; fin_cases i <;> rfl

theorem speed_add {b : ℝ} {dx : Fin 18 → ℝ} (h : ∀ i, dx i = if i = 0 then b else 0) :
    SixDRates.addState (.of (speed 0)) (.of dx) = some (.of (speed b)) := by
  have hs : speed 0 + dx = speed b := by
    funext i
    show speed 0 i + dx i = speed b i
    unfold speed
    rw [h]
    by_cases hi : i = 0
    · rw [if_pos hi, if_pos hi, if_pos hi, zero_add]
    · rw [if_neg hi, if_neg hi, if_neg hi, add_zero]
  rw [SixDRates.addState_of, hs, speed_grav, rescaled_up]
  congr 2
  funext i
  unfold SixDRates.withGravity
  split
  next hc =>
    obtain ⟨i, hi18⟩ := i
    dsimp only at hc ⊢
    obtain rfl | rfl | rfl : i = 9 ∨ i = 10 ∨ i = 11 := by omega
    all_goals rfl
  next => rfl

/-- One odometry correction from standstill. -/
theorem odom_meas (c : Core ℝ DVec DMat Models) (hx : c.x = .of (speed 0)) {P : Matrix (Fin 18) (Fin 18) ℝ} (hP : c.cov = .of P)
    (hk : Kept c.x c.cov) {p : ℝ} (hp0 : 0 < p) (hp : Alone P p) (he : Driving c.env) {v t dt : ℝ} (hv : 0.05 ≤ |v|) :
    ∃ c' P', c.meas plant (measurementInput (.of (straight v)) covOdom t (some .odom)) dt = some c' ∧
      c'.x = .of (speed (p / (p + 1e-5) * v)) ∧ c'.cov = .of P' ∧ Kept c'.x c'.cov ∧ Alone P' (p * 1e-5 / (p + 1e-5)) ∧
      Driving c'.env ∧ c'.ts = c.ts ∧ c'.pc = c.pc := by
  obtain ⟨x, cov, ts, pc, pcc, e⟩ := c
  dsimp only at hx hP hk he
  subst hx hP
  have hsys : e.sys.Sized NonlinSysData.Sized 18 0 := by rw [he.sys]; exact exEnv_ok.1.sys
  have hσ : Selects e.sys.activeStates act := by rw [he.sys]; exact exEnv_ok.2.sel.states
  have hsh : SixDRates.Shape e.sys := ⟨hsys.states, hsys.controls, by rw [he.sys]; exact exEnv_ok.1.noise.2⟩
  set me := (e.meas .odom).withCov covOdom with hme
  have hset : plant.setMeasCov e .odom covOdom = some (e.setMeas .odom me) :=
    mkPlant_setMeasCov e .odom covOdom (by rw [he.measDims]; exact ⟨rfl, rfl⟩)
  have hmm : (e.setMeas .odom me).meas .odom = me := Env.setMeas_meas _ _ _
  have hst : (plant.measCheck (e.setMeas .odom me) .odom && plant.measIsStationary (e.setMeas .odom me) .odom (.of (speed 0)) (.of (straight v)))
      = false := by
    show (((e.setMeas .odom me).meas .odom).fm.checkStationary && ((e.setMeas .odom me).meas .odom).fm.isStationary (.of (speed 0))
      (.of (straight v))) = false
    rw [hmm]
    show ((e.meas .odom).fm.checkStationary && (e.meas .odom).fm.isStationary (.of (speed 0)) (.of (straight v))) = false
    rw [he.fm]
    show isStationaryOdom (.of (speed 0)) (.of (straight v)) = false
    unfold isStationaryOdom
    have : at' (.of (straight v)) 0 = v := rfl
    rw [this, decide_eq_false (not_lt.mpr hv)]
    simp
  have hms : me.Sized NonlinMeasData.Sized 18 4 := ⟨he.sized.states, he.sized.meas, he.sized.der, rfl, rfl⟩
  have hρ : Selects me.activeMeasurements (id : Fin 4 → Fin 4) := by
    show Selects (e.meas .odom).activeMeasurements _
    rw [he.active]; exact odom_selects
  have hPs : (P.submatrix act act).PosSemidef := by
    obtain ⟨_, _, _, e2, h1, _⟩ := hk
    cases Props.of_inj e2
    exact h1.submatrix act
  have hR : me.cov = .of (Matrix.diagonal ![1e-5, 1e-4, 1e-6, 5e-1]) := rfl
  have hRp : (Matrix.diagonal ![(1e-5 : ℝ), 1e-4, 1e-6, 5e-1]).PosDef := DMat.PD_of.mp (covOf_pd .odom).2
  obtain ⟨m', zh, H, dz, dx, x', P', h1, h2, h3, h4, h5, h6, h7, h8, h9⟩ :=
    ekfvsCorrect_of SixDRates.contract SixDRatesOdom.contract hsys hms hσ hρ (speed 0) P hPs hR hRp (straight v) dt
      ((e.setMeas .odom me).setMeas .odom)
  have hm' : m' = { me with der := { me.der with h := .of (0 : Fin 4 → ℝ) } } := by
    have := odom_update (m := me) (tf := odomTf) (eff := odomTf)
      ⟨by show (e.meas .odom).fm.stateDims = 18; rw [he.fm]; rfl, he.measDims, he.h, by show (e.meas .odom).ext.tf = _; rw [he.ext]; rfl,
        by
          show (e.meas .odom).ext.tfSet = true ↔ _
          rw [he.ext]; exact iff_of_true rfl odomTf_ne,
        by show (e.meas .odom).ext.computeJacobian = _; rw [he.ext]; rfl, he.H⟩ (speed 0) dt
    unfold Meas.update at this
    rw [if_pos (show (DVec.of (speed 0)).size = me.stateSize from hms.states.symm)] at this
    rw [h2] at this
    rw [Option.some.inj this, odom_still]
  have hH : H = odomH 0 odomTf := by
    have h := congrArg NonlinMeasData.H h5
    rw [hm'] at h
    exact Props.of_inj (h.symm.trans he.H)
  have hzh : zh = 0 := by
    have h := congrArg NonlinMeasData.h h5
    rw [hm'] at h
    exact (vof_inj h).symm
  subst hH hzh
  have hdz : dz = straight v := by
    have : SixDRatesOdom.cls.sub m' (.of (straight v)) (.of 0) = some (.of (straight v - 0)) := DVec.sub_of _ _
    rw [this, sub_zero] at h6
    exact (vof_inj (Option.some.inj h6)).symm
  subst hdz
  have hPe : P.submatrix act act *ᵥ Pi.single 0 1 = p • Pi.single 0 1 := by
    rw [Matrix.mulVec_single_one]
    funext i
    show P (act i) 0 = p * (Pi.single 0 1 : Fin 9 → ℝ) i
    rw [hp]
    by_cases hi : i = 0
    · subst hi; simp [act]
    · rw [if_neg (fun q => hi (act_zero.mp q)), Pi.single_eq_of_ne hi, mul_zero]
  have hRe : (Matrix.diagonal ![(1e-5 : ℝ), 1e-4, 1e-6, 5e-1]).submatrix id id *ᵥ Pi.single 0 1 = (1e-5 : ℝ) • Pi.single 0 1 := by
    rw [Matrix.submatrix_id_id, Matrix.mulVec_single_one]
    funext i
    fin_cases i <;> simp [Matrix.col]
  obtain ⟨k1, k2⟩ := alone hPe odomH_col odomH_row hRe (by positivity) (pd_isUnit_det (innov_pd hPs _ hRp))
  have hdx : ∀ i, dx i = if i = 0 then p / (p + 1e-5) * v else 0 := by
    intro i
    have hz : straight v ∘ id = v • Pi.single (0 : Fin 4) 1 := by
      funext i; fin_cases i <;> simp [straight]
    rw [hz, Matrix.mulVec_smul, k1] at h7
    by_cases hi : i.val < 9
    · have : i = act ⟨i.val, hi⟩ := rfl
      rw [this, h7.selected]
      by_cases h0 : (⟨i.val, hi⟩ : Fin 9) = 0
      · rw [h0]; simp [act]; ring
      · rw [if_neg (fun q => h0 (act_zero.mp q))]; simp [Pi.single_eq_of_ne h0]
    · rw [h7.others i (act_ne (by omega)), if_neg (by intro q; rw [q] at hi; exact hi (by decide))]
      rfl
  have hx' : x' = speed (p / (p + 1e-5) * v) := by
    have e1 : SixDRates.cls.add e.sys (.of (speed 0)) (.of dx) = SixDRates.addState (.of (speed 0)) (.of dx) := by
      show (open Classical in if SixDRates.Shape e.sys then SixDRates.addState (.of (speed 0)) (.of dx) else _) = _
      rw [if_pos hsh]
    rw [e1, speed_add hdx] at h8
    exact (vof_inj (Option.some.inj h8)).symm
  subst hx'
  refine ⟨⟨.of (speed (p / (p + 1e-5) * v)), .of P', ts, pc, pcc, (e.setMeas .odom me).setMeas .odom m'⟩, P', ?_, rfl, rfl, ?_, ?_, ?_, rfl, rfl⟩
  · unfold Core.meas measurementInput
    dsimp only
    rw [hset]
    dsimp only
    rw [hst]
    have : plant.myCorrect (e.setMeas .odom me) (.of (speed 0)) (.of P) (.of (straight v)) .odom dt
        = some (.of (speed (p / (p + 1e-5) * v)), .of P', (e.setMeas .odom me).setMeas .odom m') := by
      show ekfvsCorrect SixDRates.cls (sensors .odom) e.sys ((e.setMeas .odom me).meas .odom) _ _ _ _ _ = _
      rw [hmm]; exact h1
    rw [this]
    rfl
  · refine hk.step ?_ h9 (post_psd hPs _ hRp)
    intro i hi
    unfold speed
    have : i ≠ 0 := by intro q; rw [q] at hi; exact absurd hi (by decide)
    rw [if_neg this, if_neg this]
  · intro i
    by_cases hi : i.val < 9
    · have hi' : i = act ⟨i.val, hi⟩ := rfl
      have hc := congrFun k2 ⟨i.val, hi⟩
      rw [Matrix.mulVec_single_one] at hc
      have h10 : P' i 0 = post (P.submatrix act act) ((odomH 0 odomTf).submatrix id act) ((Matrix.diagonal ![(1e-5 : ℝ), 1e-4, 1e-6, 5e-1]).submatrix id id)
          ⟨i.val, hi⟩ 0 := h9.selected ⟨i.val, hi⟩ 0
      rw [h10]
      refine hc.trans ?_
      by_cases h0 : (⟨i.val, hi⟩ : Fin 9) = 0
      · rw [h0, if_pos (by rw [hi', h0]; rfl)]; simp
      · rw [if_neg (by intro q; exact h0 (act_zero.mp (by rw [← hi', q])))]
        simp [Pi.single_eq_of_ne h0]
    · have hne : i ≠ 0 := by intro q; rw [q] at hi; exact hi (by decide)
      rw [if_neg hne, h9.others i 0 (by rintro a b ⟨q, _⟩; exact act_ne (by omega) a q), hp, if_neg hne]
  · have hmm2 : ((e.setMeas .odom me).setMeas .odom m').meas .odom = m' := Env.setMeas_meas _ _ _
    refine ⟨he.sys, ?_, ?_, ?_, ?_, ?_, ?_, ?_⟩
    all_goals rw [hmm2, hm']
    · exact he.fm
    · exact he.measDims
    · exact he.active
    · exact he.ext
    · exact he.H
    · exact ⟨rfl, rfl⟩

theorem still_speed (a : ℝ) : still (speed a) = speed 0 := by
  funext i
  fin_cases i <;> rfl

/-- A prediction at a speed below the threshold stops the vehicle. -/
theorem stop_step (c : Core ℝ DVec DMat Models) {a : ℝ} (hx : c.x = .of (speed a)) (ha : |a| < 0.05) (he : c.env.sys = (activate exEnv).sys)
    (hpc : c.pc.size = 0) (t : ℝ) :
    ∃ pcc, Core.control plant c (c.advInput t) = some { c with x := .of (speed 0), pcc := pcc } := by
  obtain ⟨x, cov, ts, pc, pcc, e⟩ := c
  dsimp only at hx he hpc
  subst hx
  have hst : (plant.sysCheck e && plant.sysIsStationary e (.of (speed a)) pc) = true := by
    show (e.sys.fm.checkStationary && e.sys.fm.isStationary (.of (speed a)) pc) = true
    rw [he]
    show isStationarySystem (.of (speed a)) pc = true
    unfold isStationarySystem
    have h0 : at' (.of (speed a)) 0 = a := rfl
    have h8 : at' (.of (speed a)) 8 = 0 := rfl
    rw [h0, h8, decide_eq_true ha, abs_zero, decide_eq_true (by norm_num)]
    rfl
  have hproc : plant.sysProcess e (.of (speed a)) pc = some e := rfl
  have hmake : plant.sysMake e (.of (speed a)) cov = some (.of (speed 0), cov) := by
    show e.sys.fm.makeStationary _ _ = _
    rw [he]
    show makeStationary (.of (speed a)) cov = _
    rw [makeStationary_of, still_speed]
  refine ⟨pcc, ?_⟩
  unfold Core.control Core.advInput
  dsimp only
  have hv : ¬ plant.vsize pc > 0 := by
    show ¬ pc.size > 0
    omega
  rw [hst, hproc]
  simp only [hv, if_false, Bool.not_true, Bool.false_eq_true]
  rw [hmake]

/-- The filter after `n` readings. -/
structure Stuck (n : Nat) (c : Core ℝ DVec DMat Models) : Prop where
  x : ∃ a, |a| < 0.05 ∧ c.x = .of (speed a)
  cov : ∃ P, c.cov = .of P ∧ Alone P (1e-5 / (n + 1))
  kept : Kept c.x c.cov
  driving : Driving c.env
  pc : c.pc.size = 0

theorem kept_still {a b : ℝ} {c : DMat} (h : Kept (.of (speed a)) c) : Kept (.of (speed b)) c := by
  obtain ⟨v, P, e1, e2, h1, h2, h3⟩ := h
  cases vof_inj e1
  refine ⟨_, P, rfl, e2, h1, ?_, h3⟩
  intro i hi
  have h0 : i ≠ 0 := by intro q; rw [q] at hi; exact absurd hi (by decide)
  have := h2 i hi
  unfold speed at this ⊢
  rw [if_neg h0] at this ⊢
  exact this

/-- One reading. -/
theorem stuck_apply {n : Nat} {c : Core ℝ DVec DMat Models} (h : Stuck n c) {v t : ℝ} (hv : 0.05 ≤ |v|) (hv2 : |v| < 0.05 * (n + 2))
    (ht : c.ts < t ∨ c.x = .of (speed 0)) :
    ∃ c' P', Core.apply plant c (measurementInput (.of (straight v)) covOdom t (some .odom)) = some c' ∧
      c'.x = .of (speed (v / (n + 2))) ∧ c'.cov = .of P' ∧ Alone P' (1e-5 / (n + 2)) ∧ Stuck (n + 1) c' := by
  obtain ⟨a, ha, hx⟩ := h.x
  obtain ⟨P, hP, hPa⟩ := h.cov
  have hn1 : (0 : ℝ) < n + 1 := by positivity
  have hn2 : (0 : ℝ) < n + 2 := by positivity
  have e1 : (1e-5 / (n + 1) / (1e-5 / (n + 1) + 1e-5) * v : ℝ) = v / (n + 2) := by
    have : (1e-5 / (n + 1) + 1e-5 : ℝ) = 1e-5 * (n + 2) / (n + 1) := by field_simp; ring
    rw [this]; field_simp
  have e2 : (1e-5 / (n + 1) * 1e-5 / (1e-5 / (n + 1) + 1e-5) : ℝ) = 1e-5 / (n + 2) := by
    have : (1e-5 / (n + 1) + 1e-5 : ℝ) = 1e-5 * (n + 2) / (n + 1) := by field_simp; ring
    rw [this]; field_simp
  have hlt : |v / ((n : ℝ) + 2)| < 0.05 := by
    rw [abs_div, abs_of_pos hn2, div_lt_iff₀ hn2]; exact hv2
  have key : ∀ (c1 : Core ℝ DVec DMat Models) (dt : ℝ), c1.x = .of (speed 0) → c1.cov = .of P → c1.env = c.env → c1.pc = c.pc →
      ∃ c' P', c1.meas plant (measurementInput (.of (straight v)) covOdom t (some .odom)) dt = some c' ∧
      c'.x = .of (speed (v / (n + 2))) ∧ c'.cov = .of P' ∧ Alone P' (1e-5 / (n + 2)) ∧ Stuck (n + 1) c' := by
    intro c1 dt q1 q2 q3 q4
    have hk : Kept c1.x c1.cov := by
      have := h.kept
      rw [hx, hP] at this
      rw [q1, q2]; exact kept_still this
    obtain ⟨c', P', r1, r2, r3, r4, r5, r6, r7, r8⟩ := odom_meas c1 q1 q2 hk (p := 1e-5 / (n + 1)) (by positivity) hPa (by rw [q3]; exact h.driving)
      (t := t) (dt := dt) hv
    rw [e1] at r2
    rw [e2] at r5
    refine ⟨c', P', r1, r2, r3, r5, ⟨_, hlt, r2⟩, ⟨P', r3, ?_⟩, r4, r6, ?_⟩
    · have : (((n + 1 : Nat) : ℝ) + 1) = n + 2 := by push_cast; ring
      rw [this]; exact r5
    · rw [r8, q4]; exact h.pc
  set inp := measurementInput (DVec.of (straight v)) covOdom t (some Kind.odom) with hinp
  have e0 : Core.apply plant c inp = if decide (0 < t - c.ts) then
      ((Core.control plant c (c.advInput t)).map (·.tick (t - c.ts))).bind (fun c1 => c1.meas plant inp (t - c.ts))
      else c.meas plant inp (t - c.ts) := rfl
  rw [e0]
  by_cases hlt' : c.ts < t
  · rw [if_pos (by simpa using hlt')]
    obtain ⟨pcc, hs⟩ := stop_step c hx ha h.driving.sys h.pc t
    rw [hs, Option.map_some, Option.bind_some]
    exact key _ _ rfl hP rfl rfl
  · rw [if_neg (by simpa using not_lt.mp hlt')]
    exact key c _ (ht.resolve_left hlt') hP rfl rfl

/-- The loop over odometry readings of straight driving. -/
theorem stuck_loop : ∀ (ms : List (ℝ × ℝ)) (n : Nat) (f : Filter ℝ DVec DMat Kind Models), Stuck n f.core →
    (∀ p ∈ ms.head?, f.getStateTime < p.1 ∨ f.getStateTime = p.1 ∧ f.getState = .of (speed 0)) → ms.Pairwise (fun a b => a.1 < b.1) →
    (∀ i p, ms[i]? = some p → 0.05 ≤ |p.2| ∧ |p.2| < 0.05 * (((n + i : Nat) : ℝ) + 2)) →
    ∃ os, loop (ms.map fun p => ⟨p.1, .of (straight p.2), .odom⟩) f = some os ∧ os.length = ms.length ∧
      ∀ i p o, ms[i]? = some p → os[i]? = some o → o.t = p.1 ∧ o.x = .of (speed (p.2 / (((n + i : Nat) : ℝ) + 2))) ∧
        ∃ P, o.cov = .of P ∧ Alone P (1e-5 / (((n + i : Nat) : ℝ) + 2))
  | [], _, _, _, _, _, _ => ⟨[], rfl, rfl, by simp⟩
  | (t, v) :: ms, n, f, hf, ht, hp, hv => by
    have ht := ht (t, v) (by simp)
    obtain ⟨hv1, hv2⟩ := hv 0 (t, v) rfl
    obtain ⟨c, P, h1, h2, h3, h4, h5⟩ := stuck_apply hf (v := v) (t := t) hv1 (by simpa using hv2) (ht.imp id And.right)
    have hle : f.getStateTime ≤ t := ht.elim le_of_lt fun h => h.1.le
    obtain ⟨g, g1, g2⟩ := correct_core f ⟨t, .of (straight v), .odom⟩ hle h1
    have g3 : g.getStateTime = t := by
      show g.core.ts = t
      rw [g2, Core.apply_ts plant f.core c _ h1]
      exact max_eq_right hle
    rw [List.pairwise_cons] at hp
    obtain ⟨os, k1, k2, k3⟩ := stuck_loop ms (n + 1) g (by rw [g2]; exact h5)
      (by
        intro p hp'
        left
        rw [g3]
        exact hp.1 p (List.mem_of_mem_head? hp')) hp.2
      (by
        intro i p hi
        have := hv (i + 1) p hi
        have e : n + (i + 1) = n + 1 + i := by omega
        rw [e] at this
        exact this)
    refine ⟨⟨g.getStateTime, g.getState, g.getCovariance⟩ :: os, ?_, by simp [k2], ?_⟩
    · rw [List.map_cons]
      unfold loop
      dsimp only at g1 ⊢
      simp only [Option.bind_eq_bind, g1, Option.bind_some, k1]
    · intro i p o hi ho
      cases i with
      | zero =>
        obtain rfl := Option.some.inj hi
        obtain rfl := Option.some.inj ho
        refine ⟨g3, ?_, P, ?_, h4⟩
        · show g.core.x = _
          rw [g2]; exact h2
        · show g.core.cov = _
          rw [g2]; exact h3
      | succ i =>
        have := k3 i p o hi ho
        have e : n + (i + 1) = n + 1 + i := by omega
        rw [e]
        exact this

theorem stuck_start (t : ℝ) : Stuck 0 (filterAt exEnv t).core := by
  refine ⟨⟨0, by norm_num, ?_⟩, ⟨_, rfl, ?_⟩, kept_initial, driving_start, rfl⟩
  · show DVec.of initialState = _
    congr 1
    funext i
    unfold speed
    split
    next h => rw [h]; rfl
    next => rfl
  · intro i
    by_cases h : i = 0
    · subst h
      show Matrix.diagonal initialVar 0 0 = _
      rw [Matrix.diagonal_apply_eq, if_pos rfl]
      show (1e-5 : ℝ) = _
      simp
    · rw [if_neg h]; exact Matrix.diagonal_apply_ne _ h

theorem speed_zero : speed 0 = initialState := by
  funext i
  unfold speed
  split
  next h => rw [h]; rfl
  next => rfl

/-- The models have the stationary functions of the program. -/
structure Watching (e : Models) : Prop where
  sys : e.sys = (activate exEnv).sys
  fm : ∀ k, (e.meas k).fm = ((activate exEnv).meas k).fm
  dims : ∀ k, (e.meas k).measDims = dims k

theorem still_initial (c : DMat) : makeStationary (.of initialState) c = some (.of initialState, c) := by
  rw [makeStationary_of, ← speed_zero, still_speed]

/-- One small reading at standstill. -/
theorem idle_meas (c : Core ℝ DVec DMat Models) (hx : c.x = .of initialState) (he : Watching c.env) (m : Reading) (hm : Idle m) (dt : ℝ) :
    ∃ e, c.meas plant (measurementInput m.z (covOf m.kind) m.t (some m.kind)) dt = some { c with env := e } ∧ Watching e := by
  obtain ⟨x, cov, ts, pc, pcc, e⟩ := c
  dsimp only at hx he
  subst hx
  obtain ⟨t, z, k⟩ := m
  dsimp only
  set me := (e.meas k).withCov (covOf k) with hme
  have hset : plant.setMeasCov e k (covOf k) = some (e.setMeas k me) := by
    refine mkPlant_setMeasCov e k (covOf k) ?_
    rw [he.dims]; exact (covOf_pd k).1
  have hmm : (e.setMeas k me).meas k = me := Env.setMeas_meas _ _ _
  have hfm : me.fm = ((activate exEnv).meas k).fm := he.fm k
  have hst : (plant.measCheck (e.setMeas k me) k && plant.measIsStationary (e.setMeas k me) k (.of initialState) z) = true := by
    show (((e.setMeas k me).meas k).fm.checkStationary && ((e.setMeas k me).meas k).fm.isStationary (.of initialState) z) = true
    rw [hmm, hfm]
    have h0 : at' (.of initialState) 0 = 0 := rfl
    have h8 : at' (.of initialState) 8 = 0 := rfl
    cases k
    · obtain ⟨hm1, hm2⟩ : _ ∧ _ := hm
      show isStationaryOdom (.of initialState) z = true
      unfold isStationaryOdom
      have h1 : |at' z 0| < 0.05 := hm1
      have h2 : |at' z 3| < 0.05 := hm2
      rw [h0, h8, decide_eq_true h1, decide_eq_true h2, abs_zero, decide_eq_true (by norm_num)]
      rfl
    · obtain ⟨hm1, hm2⟩ : _ ∧ _ := hm
      show isStationaryImu (.of initialState) z = true
      unfold isStationaryImu
      have h1 : |at' z 0| < 0.30 := hm1
      have h2 : |at' z 5| < 0.30 := hm2
      rw [h0, h8, decide_eq_true h1, decide_eq_true h2, abs_zero, decide_eq_true (by norm_num)]
      rfl
  have hmake : plant.measMake (e.setMeas k me) k (.of initialState) cov = some (.of initialState, cov) := by
    show ((e.setMeas k me).meas k).fm.makeStationary _ _ = _
    rw [hmm, hfm]
    cases k <;> exact still_initial cov
  refine ⟨e.setMeas k me, ?_, ?_⟩
  · unfold Core.meas measurementInput
    dsimp only
    rw [hset]
    dsimp only
    rw [hst]
    have : plant.measProcess (e.setMeas k me) k (.of initialState) z = some (e.setMeas k me) := by
      show (((sensors k).processStationary ((e.setMeas k me).meas k) (.of initialState) z).map ((e.setMeas k me).setMeas k)) = _
      rw [hmm]
      have h1 : (sensors k).processStationary me (.of initialState) z = some me := by cases k <;> rfl
      rw [h1, Option.map_some, Env.setMeas_setMeas]
    rw [this]
    dsimp only
    rw [hmake]
    rfl
  · refine ⟨he.sys, ?_, ?_⟩
    · intro j
      by_cases hj : j = k
      · subst hj; rw [hmm]; exact hfm
      · rw [show (e.setMeas k me).meas j = e.meas j from if_neg hj]; exact he.fm j
    · intro j
      by_cases hj : j = k
      · subst hj; rw [hmm]; exact he.dims j
      · rw [show (e.setMeas k me).meas j = e.meas j from if_neg hj]; exact he.dims j

theorem idle_apply (c : Core ℝ DVec DMat Models) (hx : c.x = .of initialState) (hpc : c.pc.size = 0) (he : Watching c.env) (m : Reading)
    (hm : Idle m) :
    ∃ c', Core.apply plant c (measurementInput m.z (covOf m.kind) m.t (some m.kind)) = some c' ∧ c'.x = .of initialState ∧ c'.cov = c.cov ∧
      c'.pc.size = 0 ∧ Watching c'.env := by
  set inp := measurementInput m.z (covOf m.kind) m.t (some m.kind) with hinp
  have e0 : Core.apply plant c inp = if decide (0 < m.t - c.ts) then
      ((Core.control plant c (c.advInput m.t)).map (·.tick (m.t - c.ts))).bind (fun c1 => c1.meas plant inp (m.t - c.ts))
      else c.meas plant inp (m.t - c.ts) := rfl
  rw [e0]
  by_cases hlt' : c.ts < m.t
  · rw [if_pos (by simpa using hlt')]
    obtain ⟨pcc, hs⟩ := stop_step c (a := 0) (by rw [speed_zero]; exact hx) (by norm_num) he.sys hpc m.t
    rw [hs, Option.map_some, Option.bind_some]
    obtain ⟨e, h1, h2⟩ := idle_meas (({ c with x := DVec.of (speed 0), pcc := pcc } : Core ℝ DVec DMat Models).tick (m.t - c.ts))
      (by show DVec.of (speed 0) = _; rw [speed_zero]) he m hm (m.t - c.ts)
    exact ⟨_, h1, by show DVec.of (speed 0) = _; rw [speed_zero], rfl, hpc, h2⟩
  · rw [if_neg (by simpa using not_lt.mp hlt')]
    obtain ⟨e, h1, h2⟩ := idle_meas c hx he m hm (m.t - c.ts)
    exact ⟨_, h1, hx, rfl, hpc, h2⟩

/-- The loop at standstill. -/
theorem idle_loop : ∀ (ms : List Reading) (f : Filter ℝ DVec DMat Kind Models), f.core.x = .of initialState → f.core.pc.size = 0 →
    Watching f.core.env → (∀ m ∈ ms, Idle m) → (∀ m ∈ ms, f.getStateTime ≤ m.t) → ms.Pairwise (fun a b => a.t ≤ b.t) →
    ∃ os, loop ms f = some os ∧ os.map Output.t = ms.map Reading.t ∧ ∀ o ∈ os, o.x = .of initialState ∧ o.cov = f.getCovariance
  | [], _, _, _, _, _, _, _ => ⟨[], rfl, rfl, by simp⟩
  | m :: ms, f, hx, hpc, he, hm, ht, hp => by
    obtain ⟨c, h1, h2, h3, h4, h5⟩ := idle_apply f.core hx hpc he m (hm m (by simp))
    have hle := ht m (by simp)
    obtain ⟨g, g1, g2⟩ := correct_core f m hle h1
    have g3 : g.getStateTime = m.t := by
      show g.core.ts = m.t
      rw [g2, Core.apply_ts plant f.core c _ h1]
      exact max_eq_right hle
    have gc : g.getCovariance = f.getCovariance := by
      show g.core.cov = _
      rw [g2]; exact h3
    have gx : g.core.x = .of initialState := by rw [g2]; exact h2
    rw [List.pairwise_cons] at hp
    obtain ⟨os, k1, k2, k3⟩ := idle_loop ms g gx (by rw [g2]; exact h4) (by rw [g2]; exact h5)
      (fun k hk => hm k (by simp [hk])) (fun k hk => by rw [g3]; exact hp.1 k hk) hp.2
    refine ⟨⟨g.getStateTime, g.getState, g.getCovariance⟩ :: os, ?_, ?_, ?_⟩
    · unfold loop
      simp only [Option.bind_eq_bind, g1, Option.bind_some, k1]
    · rw [List.map_cons, List.map_cons, k2]
      exact congrArg (· :: _) g3
    · intro o ho
      rcases List.mem_cons.mp ho with rfl | h
      · exact ⟨gx, gc⟩
      · rw [← gc]; exact k3 o h

theorem watching_start : Watching (activate exEnv) := ⟨rfl, fun _ => rfl, fun k => by cases k <;> rfl⟩

end StateEstimation.Example
