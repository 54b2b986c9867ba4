import Verif.Props.SixDSystem
import Verif.Props.Kalman

/-!
# C69: an EKF on the 6-D rates model keeps gravity at its physical magnitude
-/

namespace StateEstimation.Props

open Matrix Real Examples

variable {K : Type} [DecidableEq K]

/-- Specification: an estimate of 18 states with a positive semidefinite covariance and gravity of norm 9.8062 (or
zero). -/
def SixDEstimate (x : DVec) (c : DMat) : Prop := EstimatePSD 18 x c ∧ ∃ v : Fin 18 → ℝ, x = .of v ∧ PhysicalGravity v

/-- Specification: positive semidefinite noise, 15 process noises. -/
def SixDNoise (Rp Rc : DMat) : Prop := NoisePSD Rp Rc ∧ Rp.rows = 15

theorem physical_of_norm {v w : Fin 18 → ℝ} (h : norm3 (gravityOf w) = norm3 (gravityOf v)) (hv : PhysicalGravity v) :
    PhysicalGravity w := by
  rcases hv with hv | hv
  · exact Or.inl (by rw [h, hv])
  · right
    rw [hv, norm3_zero] at h
    by_contra hc
    exact (norm3_pos hc).ne' h

theorem physical_add {a b r : Fin 18 → ℝ} (h : SixDRates.addState (.of a) (.of b) = some (.of r)) : PhysicalGravity r := by
  obtain ⟨r', h1, _, h2, h3⟩ := C50_add a b
  rw [h1] at h
  have : r' = r := vof_inj (Option.some.inj h)
  subst this
  by_cases h0 : gravityOf a + gravityOf b = 0
  · exact Or.inr (h3 h0)
  · exact Or.inl (h2 h0).1

theorem ekf_sixd_inv {Y : Type} {mc : K → MeasClass ℝ NonlinMeasData Y} (hmc : ∀ j, MeasContract NonlinMeasData.Sized (mc j))
    (kd : K → Nat) :
    PlantInv (ekfPlant SixDRates.cls mc) True SixDEstimate
      (Env.Ok NonlinSysData.Sized NonlinMeasData.Sized SixDNoise SixDEstimate 18 0 kd) (fun u => u.size = 0)
      (fun R => R.Is 0 0 ∧ R.PSD) (fun z c k => z.size = kd k ∧ c.Is (kd k) (kd k) ∧ c.PD) := by
  refine mkPlant_inv SixDRates.contract hmc (fun _ _ h => h.1.1.1) (fun _ _ _ h h' => ⟨⟨h.1.1, h'⟩, h.2⟩)
    (fun _ _ h => h.1.2) ?_ ?_
  · intro e x c u dt he hx hu
    obtain ⟨s', x', c', h1, h2, h3, h4⟩ := ekfPredict_psd SixDRates.contract he.sys he.noise.1.1 he.noise.1.2 hx.1 hu dt
      (fun s => ({ e with sys := s } : Env K NonlinSysData SixDRates.Flags NonlinMeasData Y))
    refine OptP.of_eq h1 ⟨⟨h2, ?_⟩, he.setSys h3 h4⟩
    obtain ⟨v, rfl, hv⟩ := hx.2
    have hsh : SixDRates.Shape e.sys := ⟨he.sys.states, he.sys.controls, he.noise.2⟩
    obtain ⟨s'', w, g1, g2, _, _, g5, _⟩ := C54_predict e.sys he.sys hsh v u dt
    have hup : e.sys.update SixDRates.cls (.of v) u dt = some s'' := by
      unfold Sys.update
      rw [if_pos ⟨he.sys.states.symm, by rw [hu]; exact he.sys.controls.symm⟩, g1]
    unfold ekfPredict at h1
    simp only [Option.bind_eq_bind, hup, Option.bind_some] at h1
    cases hc : propagateCov s''.der.G c s''.P s''.Rp s''.V s''.Rc with
    | none => rw [hc] at h1; cases h1
    | some c2 =>
      rw [hc, Option.bind_some] at h1
      have := congrArg Prod.fst (Option.some.inj h1)
      simp only at this
      exact ⟨w, by rw [← this, g2], physical_of_norm g5 hv⟩
  · intro e x c z j dt he hx hz hR
    obtain ⟨m', x', c', h1, h2, h3, h4, _⟩ := ekfCorrect_psd SixDRates.contract (hmc j) he.sys (he.meas j) hR hx.1 hz dt
      (e.setMeas j)
    refine OptP.of_eq h1 ⟨⟨h2, ?_⟩, he.setMeas j h3 h4⟩
    obtain ⟨v, rfl, hv⟩ := hx.2
    have hsh : SixDRates.Shape e.sys := ⟨he.sys.states, he.sys.controls, he.noise.2⟩
    unfold ekfCorrect at h1
    simp only [Option.bind_eq_bind, Option.bind_eq_some_iff] at h1
    obtain ⟨m1, _, G, _, dz, _, dx, _, y, h5, cov, _, h6⟩ := h1
    have hy : y = x' := by
      have := congrArg Prod.fst (Option.some.inj h6)
      exact this
    subst hy
    have hadd : SixDRates.addState (.of v) dx = some y := by
      have h7 : SixDRates.cls.add e.sys (.of v) dx = SixDRates.addState (.of v) dx := by
        show (open Classical in if SixDRates.Shape e.sys then SixDRates.addState (.of v) dx else _) = _
        rw [if_pos hsh]
      rw [← h7]; exact h5
    have hdx : dx.size = 18 := by
      by_contra hne
      have : DVec.add (.of v) dx = none := by
        unfold DVec.add
        rw [dif_neg]
        intro h
        exact hne h.symm
      unfold SixDRates.addState at hadd
      simp only [Option.bind_eq_bind, this, Option.bind_none] at hadd
      cases hadd
    obtain ⟨d, rfl⟩ := dx.exists_of hdx
    obtain ⟨r, hr⟩ := y.exists_of h2.1.1
    rw [hr] at hadd
    exact ⟨r, hr, physical_add hadd⟩

/-- **C69.** An EKF on the 6-D rates model with any sensors: for every sequence of calls (predictions, corrections, queues,
out-of-order data, reverts, parameter and model changes) with well-formed arguments, no assertion trips and every estimate
the filter holds has 18 states, a positive semidefinite covariance, and gravity of norm 9.8062 or zero. -/
theorem C69_gravity {Y : Type} {mc : K → MeasClass ℝ NonlinMeasData Y} (hmc : ∀ j, MeasContract NonlinMeasData.Sized (mc j))
    (kd : K → Nat)
    (sort : List (FilterInput ℝ DVec DMat K) → List (FilterInput ℝ DVec DMat K)) (hsort : ∀ l, (sort l).Perm l)
    (params : Params ℝ) (e : Env K NonlinSysData SixDRates.Flags NonlinMeasData Y)
    (he : e.Ok NonlinSysData.Sized NonlinMeasData.Sized SixDNoise SixDEstimate 18 0 kd)
    (x : DVec) (c : DMat) (t : ℝ) (hx : SixDEstimate x c)
    (ops : List (Op ℝ DVec DMat K (Env K NonlinSysData SixDRates.Flags NonlinMeasData Y)))
    (hops : ∀ op ∈ ops, op.WellFormed SixDEstimate
      (Env.Ok NonlinSysData.Sized NonlinMeasData.Sized SixDNoise SixDEstimate 18 0 kd) 0 kd DMat.PD) :
    ∃ g, (Filter.construct (ekfPlant SixDRates.cls mc) params e x c t).run (ekfPlant SixDRates.cls mc) sort ops = some g ∧
      ∀ s ∈ g.retained, ∃ v : Fin 18 → ℝ, s.x = .of v ∧ (norm3 (gravityOf v) = 9.8062 ∨ gravityOf v = 0) ∧
        s.covariance.Is 18 18 ∧ s.covariance.PSD := by
  obtain ⟨g, h1, h2, _⟩ := OptP.exists_of_total (mkPlant_run (ekf_sixd_inv hmc kd) sort hsort params e he x c t hx ops hops)
  refine ⟨g, h1, fun s hs => ?_⟩
  obtain ⟨h3, v, h4, h5⟩ := h2 s hs
  exact ⟨v, h4, h5, h3.1.2, h3.2⟩

/-! ## The filter with the odometry and IMU models -/

/-- The two sensor classes: `false` is the odometry, `true` the IMU. -/
noncomputable def sixDSensors (b : Bool) : MeasClass ℝ NonlinMeasData TfData :=
  if b then SixDRatesImu.cls else SixDRatesOdom.cls

theorem sixDSensors_contract (b : Bool) : MeasContract NonlinMeasData.Sized (sixDSensors b) := by
  cases b
  · exact SixDRatesOdom.contract
  · exact SixDRatesImu.contract

/-- Number of measurements. -/
def sixDDims (b : Bool) : Nat := if b then 6 else 4

/-- A 6-D rates model with an odometry and an IMU sensor. -/
noncomputable def sixDEnv (odom imu : TfMeas) : Env Bool NonlinSysData SixDRates.Flags NonlinMeasData TfData where
  sys := SixDRates.construct true true
  meas b := if b then imu else odom

theorem sixDEnv_ok {odom imu : TfMeas} (ho : SixDRatesOdom.construct true = some odom) (hi : SixDRatesImu.construct true = some imu)
    {Q : DVec → DMat → Prop} :
    (sixDEnv odom imu).Ok NonlinSysData.Sized NonlinMeasData.Sized SixDNoise Q 18 0 sixDDims := by
  have h0 := odom_post (Meas.constructNonlinear SixDRates.DIMS 4 ⟨Iso.identity, false, true⟩) rfl 0 rfl
  have h1 := imu_post (Meas.constructNonlinear SixDRates.DIMS 6 ⟨Iso.identity, false, true⟩) rfl 0 rfl
  have e0 : SixDRatesOdom.construct true = _ := h0
  have e1 : SixDRatesImu.construct true = _ := h1
  rw [ho] at e0
  rw [hi] at e1
  cases Option.some.inj e0
  cases Option.some.inj e1
  constructor
  · exact SixDRates.construct_sized true true
  · exact ⟨⟨⟨rfl, PosSemidef.zero⟩, ⟨rfl, PosSemidef.zero⟩⟩, rfl⟩
  · exact fun x c h => ⟨x, c, rfl, h⟩
  · intro b
    cases b
    · exact ⟨rfl, rfl, ⟨rfl, rfl, rfl⟩, rfl, rfl⟩
    · exact ⟨rfl, rfl, ⟨rfl, rfl, rfl⟩, rfl, rfl⟩
  · intro b
    cases b
    · exact fun x c h => ⟨x, c, rfl, h⟩
    · exact fun x c h => ⟨x, c, rfl, h⟩

theorem level_estimate : SixDEstimate (.of levelState) (.identity 18) :=
  ⟨⟨⟨rfl, rfl, rfl⟩, identity_psd 18⟩, levelState, rfl, Or.inl (norm3_axis 9.8062 (by norm_num)).2.2.2⟩

/-- Non-vacuity of C69: the models as constructed, a level start, and a run with a prediction, an odometry and an IMU
correction, queued data and a revert. -/
example (sort : List (FilterInput ℝ DVec DMat Bool) → List (FilterInput ℝ DVec DMat Bool)) (hsort : ∀ l, (sort l).Perm l) :
    ∃ odom imu g, SixDRatesOdom.construct true = some odom ∧ SixDRatesImu.construct true = some imu ∧
      (Filter.construct (ekfPlant SixDRates.cls sixDSensors) { rewindHistory := true, historyWindow := 5, allowPast := false }
        (sixDEnv odom imu) (.of levelState) (.identity 18) 0).run (ekfPlant SixDRates.cls sixDSensors) sort
        [.predictTime 1, .correct (.zero 4) (.identity 4) 2 false, .correct (.zero 6) (.identity 6) 1.5 true,
          .enqueueMeasurement (.zero 4) (.identity 4) 3 false, .processQueues, .revertToState 2] = some g ∧
      ∀ s ∈ g.retained, s.covariance.PSD := by
  obtain ⟨odom, _, ho, _⟩ := odom_state []
  obtain ⟨imu, _, hi, _⟩ := imu_state []
  obtain ⟨g, h1, h2⟩ := C69_gravity (K := Bool) sixDSensors_contract sixDDims sort hsort
    { rewindHistory := true, historyWindow := 5, allowPast := false } (sixDEnv odom imu) (sixDEnv_ok ho hi) (.of levelState)
    (.identity 18) 0 level_estimate
    [.predictTime 1, .correct (.zero 4) (.identity 4) 2 false, .correct (.zero 6) (.identity 6) 1.5 true,
      .enqueueMeasurement (.zero 4) (.identity 4) 3 false, .processQueues, .revertToState 2] (by
      intro op hop
      simp only [List.mem_cons, List.not_mem_nil, or_false] at hop
      rcases hop with rfl | rfl | rfl | rfl | rfl | rfl
      · trivial
      · exact ⟨false, rfl, rfl, ⟨rfl, rfl⟩, identity_pd 4⟩
      · exact ⟨true, rfl, rfl, ⟨rfl, rfl⟩, identity_pd 6⟩
      · exact ⟨false, rfl, rfl, ⟨rfl, rfl⟩, identity_pd 4⟩
      · trivial
      · trivial)
  refine ⟨odom, imu, g, ho, hi, h1, fun s hs => ?_⟩
  obtain ⟨v, _, _, _, h⟩ := h2 s hs
  exact h

end StateEstimation.Props
