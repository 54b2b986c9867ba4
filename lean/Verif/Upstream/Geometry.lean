import Verif.Props.Transforms
import Verif.Props.Rotations
import Verif.Props.Angles

/-!
# test/test_transformation_utilities.cpp, test_imu_utilities.cpp, test_integration.cpp and test_angle_utilities.cpp on the model

Tests, not proofs of properties: what the C++ functions are expected to return on these inputs the model returns too.
Where a test draws a particular rotation or vector and its expectation is a formula, the formula is shown for every
rotation or vector.  `isApprox` and `EXPECT_FLOAT_EQ` become equality, as the model is exact.
-/

namespace StateEstimation.Upstream.Geometry

open StateEstimation Real Matrix

/-! ## test_transformation_utilities.cpp -/

/-- `LinearAccelerationTransformations.IdentityTransformDoesNotModifyAcceleration`, lines 6-13, for every vector. -/
theorem acceleration_identity (a : V3) : transformLinearAcceleration a 0 Iso.identity = a := by
  simp [transformLinearAcceleration, Iso.identity]

/-- `OrientatedWithTf`, lines 15-29, for every transform. -/
theorem acceleration_oriented (a : V3) (tf : Iso) : transformLinearAcceleration a 0 tf = tf.R *ᵥ a := by
  simp [transformLinearAcceleration]

/-- `CentripetalComponentAddedToAcceleration`, lines 31-50, with the test's numbers. -/
theorem acceleration_centripetal :
    transformLinearAcceleration 0 ![0, 0, 1] ⟨1, ![1, 2, 0]⟩ = ![-1, -2, 0] := by
  simp only [transformLinearAcceleration, one_mulVec, zero_add, cross_apply]
  ext i; fin_cases i <;> simp

/-- `LinearVelocityTransformations.IdentityTransformDoesNotModifyVelocity`, lines 52-59. -/
theorem velocity_identity (v w : V3) : transformLinearVelocity v w Iso.identity = v := by
  simp [transformLinearVelocity, Iso.identity]

/-- `ZeroTranslationOnlyRotatesVelocity`, lines 61-74, for every rotation. -/
theorem velocity_rotated (v w : V3) (R : M3) : transformLinearVelocity v w ⟨R, 0⟩ = R *ᵥ v := by
  simp [transformLinearVelocity]

/-- `TangentialVelocityAdded`, lines 76-88, for every translation. -/
theorem velocity_tangential (v w t : V3) : transformLinearVelocity v w ⟨1, t⟩ = v + crossProduct w t := by
  simp [transformLinearVelocity]

/-- The same with the test's numbers worked out by hand: `(11, 22, 33) × (1, 2, 3) = 0` — the test's `w` is parallel to
its translation, so it cannot see the term it is named after. -/
theorem velocity_tangential_blind : crossProduct (![11, 22, 33] : V3) ![1, 2, 3] = 0 := by
  rw [cross_apply]
  ext i; fin_cases i <;> simp <;> norm_num

/-- `AngularVelocityTransformations.IdentityRotationDoesNotModifyVelocity`, lines 90-97. -/
theorem angular_identity (w : V3) : transformAngularVelocity w 1 = w := by simp [transformAngularVelocity]

/-- `CovarianceTransformations`, lines 99-126. -/
theorem covariance_identity (cov : M3) : transformCovariance cov 1 = cov := by simp [transformCovariance]
theorem covariance_value (cov R : M3) : transformCovariance cov R = R * cov * Rᵀ := rfl

/-- `orientationFromGravityVector.PureZProducesIdentity`, lines 128-136. -/
theorem gravity_pure_z : orientationFromGravityVector ![0, 0, -9.81] = some Quat.identity := by
  have hs : sqNorm ![0, 0, -9.81] = 9.81 ^ 2 := by simp [sqNorm]; norm_num
  have h1 : normalized ![0, 0, -9.81] = ![0, 0, -1] := by
    unfold normalized
    rw [hs, if_pos (by norm_num), Real.sqrt_sq (by norm_num)]
    ext i; fin_cases i <;> simp
    norm_num
  have h2 : sqNorm ![0, 0, -1] = 1 := by simp [sqNorm]
  have h3 : (0.5 : ℝ) * (-(![0, 0, -1] : V3) 2 + √1) = 1 := by simp; norm_num
  simp only [orientationFromGravityVector, h1, h2, h3]
  norm_num [Quat.identity]

/-! ## test_imu_utilities.cpp -/

/-- `PredictAccelMeasurement.IdentityTransformationMakesMeasurementEqualState`, lines 81-90, for every state. -/
theorem accel_identity (a w : V3) (q : Quat) (g : ℝ) : predictAccelMeasurement a w Iso.identity false q g = a := by
  simp [predictAccelMeasurement, transformLinearAcceleration, Iso.identity]

/-- `GravityAddedFromOrientation`, lines 92-109, for every orientation. -/
theorem accel_gravity (q : Quat) (g : ℝ) : predictAccelMeasurement 0 0 Iso.identity true q g = q.rot ![0, 0, g] := by
  simp [predictAccelMeasurement, transformLinearAcceleration, Iso.identity]

/-- `StationaryZeroOrientationWithGravity`, lines 111-124. -/
theorem accel_stationary (g : ℝ) : predictAccelMeasurement 0 0 Iso.identity true Quat.identity g = ![0, 0, g] := by
  rw [accel_gravity]
  have hv : Quat.identity.vec = 0 := by ext i; fin_cases i <;> rfl
  simp [Quat.rot, hv]

/-- `LinearRatesOrientatedWithTf`, lines 126-143, for every rotation. -/
theorem accel_oriented (a : V3) (R : M3) (q : Quat) (g : ℝ) :
    predictAccelMeasurement a 0 ⟨R, 0⟩ false q g = R *ᵥ a := by
  simp [predictAccelMeasurement, transformLinearAcceleration]

/-- `CentripetalComponentAddedToAcceleration`, lines 145-164. -/
theorem accel_centripetal (q : Quat) (g : ℝ) :
    predictAccelMeasurement 0 ![0, 0, 1] ⟨1, ![1, 2, 0]⟩ false q g = ![-1, -2, 0] := acceleration_centripetal

/-- `PredictGyroMeasurement`, lines 166-190. -/
theorem gyro_identity (w : V3) : predictGyroMeasurement w 1 = w := angular_identity w
theorem gyro_oriented (w : V3) (R : M3) : predictGyroMeasurement w R = R *ᵥ w := rfl

/-! ## test_integration.cpp -/

/-- `ZeroAngularRateProducesZeroDeltaQuaternion`, lines 119-128, for every time step. -/
theorem delta_zero (dt : ℝ) : deltaQuaternion dt 0 = Quat.identity := by
  have : norm3 0 = 0 := by simp [norm3, sqNorm]
  simp only [deltaQuaternion, this]
  norm_num

/-- `DeltaQuaternionEqualBothDirections`, lines 130-141, for every rate. -/
theorem delta_opposite (dt : ℝ) (w : V3) :
    (deltaQuaternion dt w).w = (deltaQuaternion dt (-w)).w ∧ (deltaQuaternion dt w).x = -(deltaQuaternion dt (-w)).x ∧
    (deltaQuaternion dt w).y = -(deltaQuaternion dt (-w)).y ∧ (deltaQuaternion dt w).z = -(deltaQuaternion dt (-w)).z := by
  have hn : norm3 (-w) = norm3 w := by simp [norm3, sqNorm]
  simp only [deltaQuaternion, hn]
  split_ifs <;> simp [Quat.identity]

/-- `DeltaQuaternionKnownValue`, lines 143-163, first of the three axes: `AngleAxisd(dt * w, UnitX())` is
`(cos (dt w / 2), sin (dt w / 2), 0, 0)`. -/
theorem delta_known : deltaQuaternion 0.1 ![1.1, 0, 0] = ⟨cos (0.1 * 1.1 / 2), sin (0.1 * 1.1 / 2), 0, 0⟩ := by
  have hn : norm3 ![1.1, 0, 0] = 1.1 := by
    have : sqNorm ![1.1, 0, 0] = 1.1 ^ 2 := by simp [sqNorm]; norm_num
    rw [norm3, this, Real.sqrt_sq (by norm_num)]
  have h2 : (0.5 * 0.1 * 1.1 : ℝ) = 0.1 * 1.1 / 2 := by norm_num
  simp only [deltaQuaternion, hn, h2]
  rw [if_pos (by norm_num)]
  ext <;> simp
  field_simp

/-- `StraightLineVelocityIntegration`, lines 165-189, one step from any velocity under any acceleration. -/
theorem straight_velocity (dt : ℝ) (a v : V3) : integrateVelocityRK4 dt a 0 v = v + dt • a :=
  Props.C53_velocity dt a v 0 (by norm_num [norm3, sqNorm])

/-- `StraightLinePositionIntegration`, lines 191-217, one step. -/
theorem straight_position (dt : ℝ) (vi a p v : V3) :
    integratePositionRK4 dt vi a 0 p v = (p + dt • vi + (0.5 * dt ^ 2) • a, v + dt • a) := by
  have := Props.C53_position dt vi a p v 0 (by norm_num [norm3, sqNorm])
  rw [this]
  congr 2
  congr 1
  ring

/-! ## test_angle_utilities.cpp -/

theorem fmod_eq {x y : ℝ} {k : ℤ} (h : truncate (x / y) = k) : fmod x y = x - y * k := by rw [fmod, h]

/-- `AngleUtilitiesAngleDifference.NearZero`, lines 17-23. -/
theorem angle_near_zero : angleDifference (0.1 * π) (-0.1 * π) = 0.2 * π ∧ angleDifference (-0.1 * π) (0.1 * π) = -0.2 * π := by
  have hp := Real.pi_pos
  have e1 : (0.1 * π - -0.1 * π) / (2 * π) = 0.1 := by field_simp; norm_num
  have e2 : (-0.1 * π - 0.1 * π) / (2 * π) = -0.1 := by field_simp; norm_num
  have t1 : truncate 0.1 = 0 := by rw [truncate, if_pos (by norm_num)]; norm_num
  have t2 : truncate (-0.1) = 0 := by rw [truncate, if_neg (by norm_num)]; norm_num
  have f1 : fmod (0.1 * π - -0.1 * π) (2 * π) = 0.2 * π := by rw [fmod_eq (e1 ▸ t1)]; push_cast; ring
  have f2 : fmod (-0.1 * π - 0.1 * π) (2 * π) = -0.2 * π := by rw [fmod_eq (e2 ▸ t2)]; push_cast; ring
  have e3 : 2 * (0.2 * π) / (2 * π) = 0.2 := by field_simp
  have e4 : 2 * (-0.2 * π) / (2 * π) = -0.2 := by field_simp
  have t3 : truncate 0.2 = 0 := by rw [truncate, if_pos (by norm_num)]; norm_num
  have t4 : truncate (-0.2) = 0 := by rw [truncate, if_neg (by norm_num)]; norm_num
  constructor
  · simp only [angleDifference, f1]
    rw [fmod_eq (e3 ▸ t3)]; push_cast; ring
  · simp only [angleDifference, f2]
    rw [fmod_eq (e4 ▸ t4)]; push_cast; ring

/-- `NearCrossover`, lines 25-31. -/
theorem angle_near_crossover :
    angleDifference (0.9 * π) (-0.9 * π) = -0.2 * π ∧ angleDifference (-0.9 * π) (0.9 * π) = 0.2 * π := by
  have hp := Real.pi_pos
  have e1 : (0.9 * π - -0.9 * π) / (2 * π) = 0.9 := by field_simp; norm_num
  have e2 : (-0.9 * π - 0.9 * π) / (2 * π) = -0.9 := by field_simp; norm_num
  have t1 : truncate 0.9 = 0 := by rw [truncate, if_pos (by norm_num)]; norm_num
  have t2 : truncate (-0.9) = 0 := by rw [truncate, if_neg (by norm_num)]; norm_num
  have f1 : fmod (0.9 * π - -0.9 * π) (2 * π) = 1.8 * π := by rw [fmod_eq (e1 ▸ t1)]; push_cast; ring
  have f2 : fmod (-0.9 * π - 0.9 * π) (2 * π) = -1.8 * π := by rw [fmod_eq (e2 ▸ t2)]; push_cast; ring
  have e3 : 2 * (1.8 * π) / (2 * π) = 1.8 := by field_simp
  have e4 : 2 * (-1.8 * π) / (2 * π) = -1.8 := by field_simp
  have t3 : truncate 1.8 = 1 := by
    rw [truncate, if_pos (by norm_num), Int.floor_eq_iff]; norm_num
  have t4 : truncate (-1.8) = -1 := by
    rw [truncate, if_neg (by norm_num), Int.ceil_eq_iff]; norm_num
  constructor
  · simp only [angleDifference, f1]
    rw [fmod_eq (e3 ▸ t3)]; push_cast; ring
  · simp only [angleDifference, f2]
    rw [fmod_eq (e4 ▸ t4)]; push_cast; ring

end StateEstimation.Upstream.Geometry
