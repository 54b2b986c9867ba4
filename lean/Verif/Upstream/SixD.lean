import Verif.Props.SixDSensors

/-!
# test/test_six_d_rates_*.cpp on the model

Tests, not proofs of properties.  The Jacobian tests compare with numerical derivatives; C55 and C56 compare with the
derivative itself.
-/

namespace StateEstimation.Upstream.SixD

open StateEstimation Real Matrix StateEstimation.Props

/-- The state of the IMU tests `BiasesSubtracted`: accelerations, rates and biases. -/
noncomputable def biasedState : Fin 18 → ℝ := ![0, 0, 0, 3.14159, 2.71828, 1.41421, 0.111, 0.222, 0.333, 0, 0, 0,
  0.00123, 0.00456, 0.00789, 0.00321, 0.00654, 0.00987]

/-- `SixDRatesImuMeasurementModel.BiasesSubtracted`, test_six_d_rates_imu_meas_model.cpp:10-29: a fresh model updated
with the state predicts acceleration minus bias and rate minus bias. -/
theorem biases_subtracted : ∃ m m', SixDRatesImu.construct true = some m ∧
    m.update SixDRatesImu.cls (.of biasedState) 0.1 = some m' ∧
    m'.der.h = .of ![3.14159 - 0.00123, 2.71828 - 0.00456, 1.41421 - 0.00789, 0.111 - 0.00321, 0.222 - 0.00654, 0.333 - 0.00987] := by
  obtain ⟨m0, m, h1, h2, h3⟩ := C56_imu_prediction []
  obtain rfl : m0 = m := by simpa [setTfs] using h2
  obtain ⟨m', h4, h5⟩ := h3 biasedState 0.1
  refine ⟨m0, m', h1, h4, h5.trans ?_⟩
  congr 1
  simp only [latest, imuOf, Iso.identity, one_mulVec]
  ext i
  fin_cases i <;> simp [accelOf, gravityOf, rateOf, biasedState]

/-- The state of `GravityAdded`. -/
noncomputable def heavyState : Fin 18 → ℝ := ![0, 0, 0, 3.14159, 2.71828, 1.41421, 0, 0, 0, 0.00123, 0.00456, 0.00789,
  0, 0, 0, 0, 0, 0]

/-- `GravityAdded`, lines 31-44. -/
theorem gravity_added : ∃ m m', SixDRatesImu.construct true = some m ∧
    m.update SixDRatesImu.cls (.of heavyState) 0.1 = some m' ∧
    m'.der.h = .of ![3.14159 + 0.00123, 2.71828 + 0.00456, 1.41421 + 0.00789, 0, 0, 0] := by
  obtain ⟨m0, m, h1, h2, h3⟩ := C56_imu_prediction []
  obtain rfl : m0 = m := by simpa [setTfs] using h2
  obtain ⟨m', h4, h5⟩ := h3 heavyState 0.1
  refine ⟨m0, m', h1, h4, h5.trans ?_⟩
  congr 1
  simp only [latest, imuOf, Iso.identity, one_mulVec]
  ext i
  fin_cases i <;> simp [accelOf, gravityOf, rateOf, heavyState]

/-- The state of the rotation tests: one vector `a` at `v` or `a`, rates. -/
noncomputable def turningState (v a : V3) : Fin 18 → ℝ := ![v 0, v 1, v 2, a 0, a 1, a 2, 0.111, 0.222, 0.333, 0, 0, 0,
  0, 0, 0, 0, 0, 0]

/-- `PredictedMeasurementAccountsForRotation` of the IMU, lines 46-71, for every rotation `R`. -/
theorem imu_rotation (R : M3) : ∃ m0 m m', SixDRatesImu.construct true = some m0 ∧
    m0.setTf SixDRatesImu.postTfUpdate ⟨R, 0⟩ = some m ∧
    m.update SixDRatesImu.cls (.of (turningState 0 ![3.14159, 2.71828, 1.41421])) 0.1 = some m' ∧
    ∃ z : Fin 6 → ℝ, m'.der.h = .of z ∧ (![z 0, z 1, z 2] : V3) = R *ᵥ ![3.14159, 2.71828, 1.41421] ∧
      (![z 3, z 4, z 5] : V3) = R *ᵥ ![0.111, 0.222, 0.333] := by
  obtain ⟨m0, m, h1, h2, h3⟩ := C56_imu_prediction [⟨R, 0⟩]
  have h2' : m0.setTf SixDRatesImu.postTfUpdate ⟨R, 0⟩ = some m := by
    simpa [setTfs] using h2
  obtain ⟨m', h4, h5⟩ := h3 (turningState 0 ![3.14159, 2.71828, 1.41421]) 0.1
  refine ⟨m0, m, m', h1, h2', h4, _, h5, ?_, ?_⟩
  · have : accelOf (turningState 0 ![3.14159, 2.71828, 1.41421]) -
        ![turningState 0 ![3.14159, 2.71828, 1.41421] 12, turningState 0 ![3.14159, 2.71828, 1.41421] 13,
          turningState 0 ![3.14159, 2.71828, 1.41421] 14] +
        gravityOf (turningState 0 ![3.14159, 2.71828, 1.41421]) = ![3.14159, 2.71828, 1.41421] := by
      ext i; fin_cases i <;> simp [accelOf, gravityOf, turningState]
    simp only [latest, imuOf, this]
    ext i; fin_cases i <;> rfl
  · have : rateOf (turningState 0 ![3.14159, 2.71828, 1.41421]) -
        ![turningState 0 ![3.14159, 2.71828, 1.41421] 15, turningState 0 ![3.14159, 2.71828, 1.41421] 16,
          turningState 0 ![3.14159, 2.71828, 1.41421] 17] = ![0.111, 0.222, 0.333] := by
      ext i; fin_cases i <;> simp [rateOf, turningState]
    simp only [latest, imuOf, this]
    ext i; fin_cases i <;> rfl

theorem turning_velocity (v a : V3) : velocityOf (turningState v a) = v := by
  ext i; fin_cases i <;> rfl
theorem turning_rate (v a : V3) : rateOf (turningState v a) = ![0.111, 0.222, 0.333] := by
  ext i; fin_cases i <;> rfl

/-- `PredictedMeasurementAccountsForRotation` of the odometry model, test_six_d_rates_odom_meas_model.cpp:10-34, for
every rotation `R`. -/
theorem odom_rotation (R : M3) : ∃ m0 m m', SixDRatesOdom.construct true = some m0 ∧
    m0.setTf SixDRatesOdom.postTfUpdate ⟨R, 0⟩ = some m ∧
    m.update SixDRatesOdom.cls (.of (turningState ![3.14159, 2.71828, 1.41421] 0)) 0.1 = some m' ∧
    ∃ z : Fin 4 → ℝ, m'.der.h = .of z ∧ (![z 0, z 1, z 2] : V3) = R *ᵥ ![3.14159, 2.71828, 1.41421] ∧
      z 3 = (R *ᵥ ![0.111, 0.222, 0.333]) 2 := by
  obtain ⟨m0, m, h1, h2, h3⟩ := C56_odom_prediction [⟨R, 0⟩]
  have h2' : m0.setTf SixDRatesOdom.postTfUpdate ⟨R, 0⟩ = some m := by simpa [setTfs] using h2
  obtain ⟨m', h4, h5⟩ := h3 (turningState ![3.14159, 2.71828, 1.41421] 0) 0.1
  refine ⟨m0, m, m', h1, h2', h4, _, h5, ?_, ?_⟩
  · simp only [latest, odomOf, turning_velocity, turning_rate, transformLinearVelocity, map_zero, add_zero]
    ext i; fin_cases i <;> rfl
  · simp only [latest, odomOf, turning_rate]
    rfl

/-- `PredictedMeasurementAccountsForTranslation`, lines 36-62. -/
theorem odom_translation : ∃ m0 m m', SixDRatesOdom.construct true = some m0 ∧
    m0.setTf SixDRatesOdom.postTfUpdate ⟨1, ![1.1, 2.2, 3.3]⟩ = some m ∧
    m.update SixDRatesOdom.cls (.of (turningState ![3.14159, 2.71828, 1.41421] 0)) 0.1 = some m' ∧
    ∃ z : Fin 4 → ℝ, m'.der.h = .of z ∧ (![z 0, z 1, z 2] : V3) = ![3.14159, 2.71828, 1.41421] +
      crossProduct ![0.111, 0.222, 0.333] ![1.1, 2.2, 3.3] ∧ z 3 = 0.333 := by
  obtain ⟨m0, m, h1, h2, h3⟩ := C56_odom_prediction [⟨1, ![1.1, 2.2, 3.3]⟩]
  have h2' : m0.setTf SixDRatesOdom.postTfUpdate ⟨1, ![1.1, 2.2, 3.3]⟩ = some m := by simpa [setTfs] using h2
  obtain ⟨m', h4, h5⟩ := h3 (turningState ![3.14159, 2.71828, 1.41421] 0) 0.1
  refine ⟨m0, m, m', h1, h2', h4, _, h5, ?_, ?_⟩
  · simp only [latest, odomOf, turning_velocity, turning_rate, transformLinearVelocity, one_mulVec]
    ext i; fin_cases i <;> rfl
  · simp only [latest, odomOf, turning_rate, one_mulVec]
    rfl

/-- That test, too, has a rotation rate parallel to the translation: the term that it is named after is 0 up to the
rounding of the test's numbers (0.111 * 2.2 = 0.222 * 1.1 exactly, and so on), so it passes without it. -/
theorem odom_translation_blind : crossProduct (![0.111, 0.222, 0.333] : V3) ![1.1, 2.2, 3.3] = 0 := by
  rw [cross_apply]
  ext i; fin_cases i <;> simp <;> norm_num

end StateEstimation.Upstream.SixD
