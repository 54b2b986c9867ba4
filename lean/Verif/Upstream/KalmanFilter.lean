import Verif.Lemmas.KFApi
import Verif.Props.VariableState
import Verif.Examples.Linear

/-!
# The project's own tests of the Kalman filter, run on the model

test/utilities/filter_test_utilities.h with test_kalman_filter.cpp and test_kalman_filter_vs.cpp: the same sample models, the
same calls, the same numbers, the same expectations, over the reals (`isApprox` becomes equality).  Tests, not proofs of
claims: they tie the model to what the authors expect of the code.
-/

namespace StateEstimation.Upstream.KF

open Matrix StateEstimation.Examples StateEstimation.Kalman StateEstimation.Props

/-- `KFSampleSystemModel::myUpdate`, filter_test_utilities.h:314-316: `setB(dt * I)`.  Continued by doing nothing on objects
of another shape (there are none). -/
noncomputable def sys : SysClass ℝ LinSysData Unit :=
  SysClass.plain fun s _ _ dt => if s.stateSize = 2 ∧ s.controlDims = 2 then s.setB (.of (dt • 1 : Matrix (Fin 2) (Fin 2) ℝ)) else some s

/-- `KFSampleMeasurementModel::myUpdate`, filter_test_utilities.h:327. -/
noncomputable def meas : Unit → MeasClass ℝ LinMeasData Unit := fun _ => MeasClass.plain fun s _ _ => some s

/-- The fixture's objects, `SysT(2, 2, 2)` and `MeasT(2, 2)`, with `setA(A)` and `setProcessCovariance(Rp)`. -/
noncomputable def env (A Rp : Matrix (Fin 2) (Fin 2) ℝ) : Env Unit LinSysData Unit LinMeasData Unit where
  sys := { Sys.constructLinear 2 2 2 () with der := ⟨.of A, .zero 2 2⟩, Rp := .of Rp, P := .identity 2 }
  meas _ := { Meas.constructLinear 2 2 () with der := ⟨.identity 2⟩ }

/-- `FilterT(&system_model, x, cov, t)`. -/
noncomputable def filter (P : Plant ℝ DVec DMat Unit (Env Unit LinSysData Unit LinMeasData Unit))
    (e : Env Unit LinSysData Unit LinMeasData Unit) (x : Fin 2 → ℝ) (c : Matrix (Fin 2) (Fin 2) ℝ) (t : ℝ) :
    Filter ℝ DVec DMat Unit (Env Unit LinSysData Unit LinMeasData Unit) :=
  Filter.construct P { rewindHistory := false, historyWindow := 1, allowPast := false } e (.of x) (.of c) t

theorem sys_contract : SysContract LinSysData.Sized sys := by
  refine plain_contract _ (fun {n m} s x u dt hs hx hu => ?_)
  by_cases h : s.stateSize = 2 ∧ s.controlDims = 2
  · have hn : n = 2 := by rw [← hs.states]; exact h.1
    have hm : m = 2 := by rw [← hs.controls]; exact h.2
    subst hn hm
    refine ⟨{ s with der := { s.der with B := .of (dt • 1 : Matrix (Fin 2) (Fin 2) ℝ) } }, ?_, ?_, ⟨rfl, rfl, rfl, rfl, rfl⟩⟩
    · rw [if_pos h]
      unfold Sys.setB
      rw [if_pos ⟨h.1.symm, h.2.symm⟩]
    · exact ⟨hs.states, hs.controls, ⟨hs.der.1, rfl, rfl⟩, hs.P, hs.Rp, hs.V, hs.Rc⟩
  · exact ⟨s, if_neg h, hs, Sys.SameConfig.refl s⟩

theorem meas_contract : ∀ j, MeasContract LinMeasData.Sized (meas j) := fun _ =>
  plain_mcontract _ (fun s _ _ hs _ => ⟨s, rfl, hs, Meas.SameConfig.refl s⟩)

theorem env_sys (A Rp : Matrix (Fin 2) (Fin 2) ℝ) : (env A Rp).sys.Sized LinSysData.Sized 2 2 :=
  ⟨rfl, rfl, ⟨⟨rfl, rfl⟩, rfl, rfl⟩, ⟨rfl, rfl⟩, ⟨rfl, rfl⟩, ⟨rfl, rfl⟩, rfl, rfl⟩

theorem env_meas (A Rp : Matrix (Fin 2) (Fin 2) ℝ) : ((env A Rp).meas ()).Sized LinMeasData.Sized 2 2 :=
  ⟨rfl, rfl, ⟨rfl, rfl⟩, rfl, rfl⟩

/-- `t_i` -/
noncomputable def t0 : ℝ := 3.14159

/-- What a prediction of the fixture gives. -/
theorem predicts (A Rp c : Matrix (Fin 2) (Fin 2) ℝ) (x u : Fin 2 → ℝ) (t dt : ℝ) (hdt : 0 ≤ dt) :
    ∃ g, (filter (kfPlant sys meas) (env A Rp) x c t).predictControl (kfPlant sys meas) (.of u) (t + dt) = some g ∧
      g.getState = .of (A *ᵥ x + dt • u) ∧ g.getCovariance = .of (A * c * Aᵀ + Rp) ∧ g.getStateTime = t + dt := by
  obtain ⟨g, p, A', B, W, V, Rp', Rc, x', h1, h2, h3, h4, h5, h6, h7, h8, h9, h10, h11, -⟩ := kf_predict_now (mc := meas) sys_contract
    (filter (kfPlant sys meas) (env A Rp) x c t) (env_sys A Rp) (x := x) (P := c) rfl rfl u (by norm_num) (t + dt)
    (by show t ≤ t + dt; linarith) rfl
  have hup : g.env.sys = { (env A Rp).sys with der := ⟨.of A, .of (dt • 1 : Matrix (Fin 2) (Fin 2) ℝ)⟩ } := by
    have h2' : (if (env A Rp).sys.stateSize = 2 ∧ (env A Rp).sys.controlDims = 2 then
      (env A Rp).sys.setB (.of ((t + dt - t) • 1 : Matrix (Fin 2) (Fin 2) ℝ)) else some (env A Rp).sys) = some g.env.sys := h2
    rw [if_pos ⟨rfl, rfl⟩] at h2'
    unfold Sys.setB at h2'
    rw [if_pos ⟨rfl, rfl⟩, add_sub_cancel_left] at h2'
    exact (Option.some.inj h2').symm
  rw [hup] at h3 h4 h5
  have hp : p = 2 := (congrArg DMat.rows h6).symm
  subst hp
  have eA : A = A' := DMat.of_inj.mp (congrArg LinSysData.A h3)
  have eB : (dt • 1 : Matrix (Fin 2) (Fin 2) ℝ) = B := DMat.of_inj.mp (congrArg LinSysData.B h3)
  have eW : (1 : Matrix (Fin 2) (Fin 2) ℝ) = W := DMat.of_inj.mp h4
  have eV : (0 : Matrix (Fin 2) (Fin 2) ℝ) = V := DMat.of_inj.mp h5
  have eR : Rp = Rp' := DMat.of_inj.mp h6
  subst eA eB eW eV eR
  have hadd : DVec.add (.of (A *ᵥ x)) (.of ((dt • 1 : Matrix (Fin 2) (Fin 2) ℝ) *ᵥ u)) = some (.of x') := h8
  rw [DVec.add_of] at hadd
  have ex := DVec.of_inj.mp (Option.some.inj hadd)
  refine ⟨g, h1, ?_, ?_, h11⟩
  · rw [h9, ← ex, Matrix.smul_mulVec, Matrix.one_mulVec]
  · rw [h10]
    simp

/-- What a correction of the fixture at the current time gives. -/
theorem corrects (A Rp : Matrix (Fin 2) (Fin 2) ℝ) (x z : Fin 2 → ℝ) (a r t : ℝ) (h : a + r ≠ 0) :
    ∃ g, (filter (kfPlant sys meas) (env A Rp) x (a • 1) t).correct (kfPlant sys meas) (.of z) (.of (r • 1 : Matrix (Fin 2) (Fin 2) ℝ)) t
        (some ()) = some g ∧ g.getState = .of (x + (a / (a + r)) • (z - x)) ∧
      g.getCovariance = .of ((a * r / (a + r)) • (1 : Matrix (Fin 2) (Fin 2) ℝ)) ∧ g.getStateTime = t := by
  have hin : innov (a • (1 : Matrix (Fin 2) (Fin 2) ℝ)) 1 (r • (1 : Matrix (Fin 2) (Fin 2) ℝ)) = (a + r) • 1 := by
    unfold innov; simp [add_smul]
  have hinv : ((a + r) • (1 : Matrix (Fin 2) (Fin 2) ℝ))⁻¹ = (a + r)⁻¹ • 1 := by
    refine Matrix.inv_eq_right_inv ?_
    rw [Matrix.smul_mul, Matrix.one_mul, smul_smul, mul_inv_cancel₀ h, one_smul]
  have hdet : IsUnit (innov (a • (1 : Matrix (Fin 2) (Fin 2) ℝ)) 1 (r • (1 : Matrix (Fin 2) (Fin 2) ℝ))).det := by
    rw [hin, Matrix.det_smul, Matrix.det_one, mul_one]
    exact (isUnit_iff_ne_zero.mpr h).pow _
  have hg : gain (a • (1 : Matrix (Fin 2) (Fin 2) ℝ)) 1 (r • (1 : Matrix (Fin 2) (Fin 2) ℝ)) = (a / (a + r)) • 1 := by
    unfold gain
    rw [hin, hinv, Matrix.transpose_one, Matrix.mul_one, Matrix.smul_mul, Matrix.one_mul, smul_smul, div_eq_mul_inv]
  obtain ⟨g, dz, x', h1, h2, h3, h4, h5, h6, -⟩ := kf_correct_now sys_contract meas_contract
    (filter (kfPlant sys meas) (env A Rp) x (a • 1) t) () (env_sys A Rp) (env_meas A Rp) (x := x)
    (P := (a • 1 : Matrix (Fin 2) (Fin 2) ℝ)) rfl rfl z (r • 1 : Matrix (Fin 2) (Fin 2) ℝ)
    (C := 1) (ms := ((env A Rp).meas ()).withCov (.of (r • 1 : Matrix (Fin 2) (Fin 2) ℝ))) rfl rfl hdet rfl
  have hsub : DVec.sub (.of z) (.of ((1 : Matrix (Fin 2) (Fin 2) ℝ) *ᵥ x)) = some (.of dz) := h2
  rw [DVec.sub_of, Matrix.one_mulVec] at hsub
  have ez := DVec.of_inj.mp (Option.some.inj hsub)
  rw [hg] at h3
  have hadd : DVec.add (.of x) (.of (((a / (a + r)) • (1 : Matrix (Fin 2) (Fin 2) ℝ)) *ᵥ dz)) = some (.of x') := h3
  rw [DVec.add_of, Matrix.smul_mulVec, Matrix.one_mulVec] at hadd
  have ex := DVec.of_inj.mp (Option.some.inj hadd)
  refine ⟨g, h1, ?_, ?_, h6⟩
  · rw [h4, ← ex, ← ez]
  · rw [h5]
    unfold Kalman.post
    rw [hg, Matrix.mul_one, Matrix.mul_smul, Matrix.mul_one, smul_sub, smul_smul, ← sub_smul]
    congr 2
    field_simp
    ring

/-! ## test_kalman_filter.cpp -/

/-- PredictUsesAxPlusBuForStateUpdate, PredictUsesAMatrixForCovarianceUpdate (`x_i = 0`, `cov_i = I`, `u = (2, 2)`,
`dt = 0.4`, `A = [1 2; 3 4]`, no process noise). -/
example : ∃ g, (filter (kfPlant sys meas) (env !![1, 2; 3, 4] 0) ![0, 0] 1 t0).predictControl (kfPlant sys meas)
      (.of ![2, 2]) (t0 + 0.4) = some g ∧ g.getState = .of ![0.8, 0.8] ∧ g.getCovariance = .of !![5, 11; 11, 25] := by
  obtain ⟨g, h1, h2, h3, -⟩ := predicts !![1, 2; 3, 4] 0 1 ![0, 0] ![2, 2] t0 0.4 (by norm_num)
  refine ⟨g, h1, ?_, ?_⟩
  · rw [h2]
    congr 1
    ext i
    fin_cases i <;> norm_num [Matrix.mulVec, dotProduct, Fin.sum_univ_two]
  · rw [h3, Matrix.mul_one, add_zero]
    congr 1
    ext i j
    fin_cases i <;> fin_cases j <;> norm_num [Matrix.mul_apply, Matrix.transpose_apply, Fin.sum_univ_two]

/-- PredictUsesSystemModelProcessNoise: two filters with process noise `1e-2 I` and `1e-4 I`, the covariances differ by the
difference. -/
example : ∃ g1 g2, (filter (kfPlant sys meas) (env 1 ((1e-2 : ℝ) • 1)) ![0, 0] 1 t0).predictControl (kfPlant sys meas) (.of ![2, 2])
      (t0 + 0.4) = some g1 ∧
    (filter (kfPlant sys meas) (env 1 ((1e-4 : ℝ) • 1)) ![0, 0] 1 t0).predictControl (kfPlant sys meas) (.of ![2, 2])
      (t0 + 0.4) = some g2 ∧
    g2.getCovariance.sub g1.getCovariance = some (.of ((1e-4 : ℝ) • 1 - (1e-2 : ℝ) • 1 : Matrix (Fin 2) (Fin 2) ℝ)) := by
  obtain ⟨g1, h1, -, h2, -⟩ := predicts 1 ((1e-2 : ℝ) • 1) 1 ![0, 0] ![2, 2] t0 0.4 (by norm_num)
  obtain ⟨g2, k1, -, k2, -⟩ := predicts 1 ((1e-4 : ℝ) • 1) 1 ![0, 0] ![2, 2] t0 0.4 (by norm_num)
  refine ⟨g1, g2, h1, k1, ?_⟩
  rw [h2, k2, DMat.sub_of, add_sub_add_left_eq_sub]

/-- ZeroMeasurementCovarianceProducesZeroEstimateCovariance, ZeroMeasurementCovarianceSetsStateToPredictedMeasurement, without
their initial prediction: covariance `10 I`, a measurement `(2, 2)` with covariance zero. -/
example : ∃ g, (filter (kfPlant sys meas) (env 1 ((1e-3 : ℝ) • 1)) ![0, 0] ((10 : ℝ) • 1) t0).correct (kfPlant sys meas) (.of ![2, 2])
      (.of ((0 : ℝ) • 1 : Matrix (Fin 2) (Fin 2) ℝ)) t0 (some ()) = some g ∧
    g.getState = .of ![2, 2] ∧ g.getCovariance = .of (0 : Matrix (Fin 2) (Fin 2) ℝ) := by
  obtain ⟨g, h1, h2, h3, -⟩ := corrects 1 ((1e-3 : ℝ) • 1) ![0, 0] ![2, 2] 10 0 t0 (by norm_num)
  refine ⟨g, h1, ?_, ?_⟩
  · rw [h2]; congr 1; ext i; fin_cases i <;> norm_num
  · rw [h3]; norm_num

/-- VeryLargeMeasurementCovarianceMakesMeasurementIgnored: a measurement `(100, 100)` with covariance `1e12 I` moves each
component of the state by less than `1e-4`, so the state by less than the test's `1e-3`. -/
example : ∃ g, ∃ v : Fin 2 → ℝ, (filter (kfPlant sys meas) (env 1 ((1e-3 : ℝ) • 1)) ![0, 0] ((1 : ℝ) • 1) t0).correct (kfPlant sys meas) (.of ![100, 100])
      (.of ((1e12 : ℝ) • 1 : Matrix (Fin 2) (Fin 2) ℝ)) t0 (some ()) = some g ∧
    g.getState = .of v ∧ ∀ i, |v i| < 1e-4 := by
  obtain ⟨g, h1, h2, h3, -⟩ := corrects 1 ((1e-3 : ℝ) • 1) ![0, 0] ![100, 100] 1 1e12 t0 (by norm_num)
  refine ⟨g, _, h1, h2, fun i => ?_⟩
  fin_cases i <;> norm_num [abs_lt]

/-- CorrectWithEqualCovarianceUpdatesToMeanOfStateAndMeasurement, CorrectWithEqualCovarianceHalvesTheCovarience. -/
example : ∃ g, (filter (kfPlant sys meas) (env 1 0) ![0, 0] ((1 : ℝ) • 1) t0).correct (kfPlant sys meas) (.of ![2, 2])
      (.of ((1 : ℝ) • 1 : Matrix (Fin 2) (Fin 2) ℝ)) t0 (some ()) = some g ∧
    g.getState = .of ![1, 1] ∧ g.getCovariance = .of ((0.5 : ℝ) • 1 : Matrix (Fin 2) (Fin 2) ℝ) := by
  obtain ⟨g, h1, h2, h3, -⟩ := corrects 1 0 ![0, 0] ![2, 2] 1 1 t0 (by norm_num)
  refine ⟨g, h1, ?_, ?_⟩
  · rw [h2]; congr 1; ext i; fin_cases i <;> norm_num
  · rw [h3]; norm_num

/-! ## test_kalman_filter_vs.cpp -/

/-- The fixture with `setActiveStates({1})`. -/
noncomputable def envOne (Rp : Matrix (Fin 2) (Fin 2) ℝ) : Env Unit LinSysData Unit LinMeasData Unit :=
  { env 1 Rp with sys := (env 1 Rp).sys.setActiveStates [1] }

/-- What a KFVS prediction gives with only the second state active, starting from `x` and `I`. -/
theorem vs_predicts (r : ℝ) (x u : Fin 2 → ℝ) (t dt : ℝ) (hdt : 0 ≤ dt) :
    ∃ g, (filter (kfvsPlant sys meas) (envOne (r • 1)) x 1 t).predictControl (kfvsPlant sys meas) (.of u) (t + dt) = some g ∧
      g.getState = .of ![0, x 1 + dt * u 1] ∧ g.getCovariance = .of !![1, 0; 0, 1 + r] := by
  have hsz : (envOne (r • 1)).sys.Sized LinSysData.Sized 2 2 :=
    ⟨rfl, rfl, ⟨⟨rfl, rfl⟩, rfl, rfl⟩, ⟨rfl, rfl⟩, ⟨rfl, rfl⟩, ⟨rfl, rfl⟩, rfl, rfl⟩
  have hsel : Selects (envOne (r • 1)).sys.activeStates (fun _ => 1 : Fin 1 → Fin 2) := by
    refine ⟨?_, fun i j _ => Subsingleton.elim i j⟩
    have : (envOne (r • 1)).sys.activeStates = [1] := by
      show ((FilterModel.construct 2).setActiveStates [1]).activeStates = [1]
      decide
    rw [this]
    decide
  obtain ⟨g, p, A', B, W, V, Rp', Rc, a, b, P', h1, h2, h3, h4, h5, h6, h7, h8, h9, h10, h11, h12, h13⟩ :=
    C41_kfvs_predict (mc := meas) sys_contract
    (filter (kfvsPlant sys meas) (envOne (r • 1)) x 1 t) hsz hsel (τ := (id : Fin 2 → Fin 2)) selects_nil (x := x) (P := 1) rfl rfl u
    (by norm_num) (t + dt) (by show t ≤ t + dt; linarith) rfl
  have hup : g.env.sys = { (envOne (r • 1)).sys with der := ⟨.of (1 : Matrix (Fin 2) (Fin 2) ℝ), .of (dt • 1 : Matrix (Fin 2) (Fin 2) ℝ)⟩ } := by
    have h3' : (if (envOne (r • 1)).sys.stateSize = 2 ∧ (envOne (r • 1)).sys.controlDims = 2 then
      (envOne (r • 1)).sys.setB (.of ((t + dt - t) • 1 : Matrix (Fin 2) (Fin 2) ℝ)) else some (envOne (r • 1)).sys) = some g.env.sys := h3
    rw [if_pos ⟨rfl, rfl⟩] at h3'
    unfold Sys.setB at h3'
    rw [if_pos ⟨rfl, rfl⟩, add_sub_cancel_left] at h3'
    exact (Option.some.inj h3').symm
  rw [hup] at h4 h5 h6
  have hp : p = 2 := (congrArg DMat.rows h7).symm
  subst hp
  have eA : (1 : Matrix (Fin 2) (Fin 2) ℝ) = A' := DMat.of_inj.mp (congrArg LinSysData.A h4)
  have eB : (dt • 1 : Matrix (Fin 2) (Fin 2) ℝ) = B := DMat.of_inj.mp (congrArg LinSysData.B h4)
  have eW : (1 : Matrix (Fin 2) (Fin 2) ℝ) = W := DMat.of_inj.mp h5
  have eV : (0 : Matrix (Fin 2) (Fin 2) ℝ) = V := DMat.of_inj.mp h6
  have eR : (r • 1 : Matrix (Fin 2) (Fin 2) ℝ) = Rp' := DMat.of_inj.mp h7
  subst eA eB eW eV eR
  have hadd : DVec.add (.of a) (.of b) = some g.getState := h11
  rw [DVec.add_of] at hadd
  refine ⟨g, h1, ?_, ?_⟩
  · rw [← Option.some.inj hadd]
    congr 1
    have a0 := h9.others 0 (by decide)
    have a1 := h9.selected 0
    have b0 := h10.others 0 (by decide)
    have b1 := h10.selected 0
    ext i
    fin_cases i
    · show a 0 + b 0 = 0
      rw [a0, b0]; simp
    · show a 1 + b 1 = x 1 + dt * u 1
      have a1' : a 1 = _ := a1
      have b1' : b 1 = _ := b1
      rw [a1', b1']
      simp [Matrix.mulVec, dotProduct, Matrix.one_apply]
  · rw [h12]
    congr 1
    ext i j
    fin_cases i <;> fin_cases j
    · exact h13.others 0 0 (by decide)
    · exact h13.others 0 1 (by decide)
    · exact h13.others 1 0 (by decide)
    · refine (h13.selected 0 0).trans ?_
      norm_num [Matrix.mul_apply, Matrix.one_apply, Fin.sum_univ_two, Matrix.submatrix_apply]

/-- PredictOnlyUpdatesActiveStates: with the second state active, the first state and its variance are the initial ones, the
second state and its variance are those of the full prediction. -/
example : ∃ g g' : Filter ℝ DVec DMat Unit (Env Unit LinSysData Unit LinMeasData Unit), ∃ v v' : Fin 2 → ℝ,
    ∃ C C' : Matrix (Fin 2) (Fin 2) ℝ,
    (filter (kfPlant sys meas) (env 1 ((1e-3 : ℝ) • 1)) ![0, 0] 1 t0).predictControl (kfPlant sys meas) (.of ![2, 2])
      (t0 + 0.4) = some g ∧ g.getState = .of v ∧ g.getCovariance = .of C ∧
    (filter (kfvsPlant sys meas) (envOne ((1e-3 : ℝ) • 1)) ![0, 0] 1 t0).predictControl (kfvsPlant sys meas) (.of ![2, 2])
      (t0 + 0.4) = some g' ∧ g'.getState = .of v' ∧ g'.getCovariance = .of C' ∧
    v' 0 = 0 ∧ v' 1 = v 1 ∧ C' 0 0 = 1 ∧ C' 1 1 = C 1 1 := by
  obtain ⟨g, h1, h2, h3, -⟩ := predicts 1 ((1e-3 : ℝ) • 1) 1 ![0, 0] ![2, 2] t0 0.4 (by norm_num)
  obtain ⟨g', k1, k2, k3⟩ := vs_predicts 1e-3 ![0, 0] ![2, 2] t0 0.4 (by norm_num)
  refine ⟨g, g', _, _, _, _, h1, h2, h3, k1, k2, k3, rfl, ?_, rfl, ?_⟩
  · norm_num [Matrix.mulVec, dotProduct, Fin.sum_univ_two]
  · norm_num

/-- The test starts from the zero state.  From `x_i = (1, 1)` its first expectation would fail: the inactive first state
becomes 0 (C40). -/
example : ∃ g, (filter (kfvsPlant sys meas) (envOne ((1e-3 : ℝ) • 1)) ![1, 1] 1 t0).predictControl (kfvsPlant sys meas) (.of ![2, 2])
      (t0 + 0.4) = some g ∧ ∃ v : Fin 2 → ℝ, g.getState = .of v ∧ v 0 = 0 := by
  obtain ⟨g', k1, k2, k3⟩ := vs_predicts 1e-3 ![1, 1] ![2, 2] t0 0.4 (by norm_num)
  exact ⟨g', k1, _, k2, rfl⟩

end StateEstimation.Upstream.KF
