import Verif.Props.Transforms
import Mathlib.Analysis.Calculus.FDeriv.Pi
import Mathlib.Analysis.Calculus.FDeriv.Mul
import Mathlib.Analysis.SpecialFunctions.Trigonometric.Deriv
import Mathlib.Topology.Algebra.Module.FiniteDimension
import Mathlib.Analysis.Calculus.FDeriv.Add
import Mathlib.Analysis.Calculus.FDeriv.Linear
import Mathlib.Analysis.Calculus.FDeriv.Comp

/-!
# C61: `accelMeasurementJacobian` is the derivative of `predictAccelMeasurement`
-/

namespace StateEstimation.Props

open Matrix Real StateEstimation

/-- Specification: the orientation with the fixed-axis angles roll, pitch, yaw: roll about x, then pitch about y, then
yaw about z. -/
noncomputable def qOfRpy (rpy : V3) : Quat :=
  (Quat.mul ⟨cos (rpy 2 / 2), 0, 0, sin (rpy 2 / 2)⟩ ⟨cos (rpy 1 / 2), 0, sin (rpy 1 / 2), 0⟩).mul
    ⟨cos (rpy 0 / 2), sin (rpy 0 / 2), 0, 0⟩

/-- Specification: the accelerometer prediction as a function of the nine states
`[ax, ay, az, phi, theta, psi, phi_dot, theta_dot, psi_dot]`. -/
noncomputable def accelOfState (tf : Iso) (includeGravity : Bool) (g : ℝ) (x : Fin 9 → ℝ) : Fin 3 → ℝ :=
  predictAccelMeasurement ![x 0, x 1, x 2] ![x 6, x 7, x 8] tf includeGravity (qOfRpy ![x 3, x 4, x 5]) g

/-- Specification: the linear map of a matrix, as a derivative. -/
noncomputable def asDeriv {m n : Nat} (H : Matrix (Fin m) (Fin n) ℝ) : (Fin n → ℝ) →L[ℝ] (Fin m → ℝ) :=
  H.mulVecLin.toContinuousLinearMap

@[simp] theorem asDeriv_apply {m n : Nat} (H : Matrix (Fin m) (Fin n) ℝ) (v : Fin n → ℝ) : asDeriv H v = H *ᵥ v := rfl

theorem qOfRpy_unit (rpy : V3) : qNormSq (qOfRpy rpy) = 1 := by
  have h0 := sin_sq_add_cos_sq (rpy 0 / 2)
  have h1 := sin_sq_add_cos_sq (rpy 1 / 2)
  have h2 := sin_sq_add_cos_sq (rpy 2 / 2)
  rw [qOfRpy, qNormSq_mul, qNormSq_mul]
  have a0 : qNormSq ⟨cos (rpy 2 / 2), 0, 0, sin (rpy 2 / 2)⟩ = 1 := by simp only [qNormSq]; linarith
  have a1 : qNormSq ⟨cos (rpy 1 / 2), 0, sin (rpy 1 / 2), 0⟩ = 1 := by simp only [qNormSq]; linarith
  have a2 : qNormSq ⟨cos (rpy 0 / 2), sin (rpy 0 / 2), 0, 0⟩ = 1 := by simp only [qNormSq]; linarith
  rw [a0, a1, a2]; norm_num

/-- Gravity in terms of the angles. -/
theorem qOfRpy_gravity (rpy : V3) (g : ℝ) : (qOfRpy rpy).rot ![0, 0, g] =
    ![g * (cos (rpy 0) * sin (rpy 1) * cos (rpy 2) + sin (rpy 0) * sin (rpy 2)),
      g * (cos (rpy 0) * sin (rpy 1) * sin (rpy 2) - sin (rpy 0) * cos (rpy 2)),
      g * (cos (rpy 0) * cos (rpy 1))] := by
  have hx : ∀ (c s : ℝ) (u : V3), s ^ 2 + c ^ 2 = 1 → (⟨c, s, 0, 0⟩ : Quat).rot u =
      ![u 0, (2 * c ^ 2 - 1) * u 1 - 2 * s * c * u 2, 2 * s * c * u 1 + (2 * c ^ 2 - 1) * u 2] := by
    intro c s u h
    rw [rot_eq]; ext i
    fin_cases i <;> simp
    · linear_combination (-2 * u 1) * h
    · linear_combination (-2 * u 2) * h
  have hy : ∀ (c s : ℝ) (u : V3), s ^ 2 + c ^ 2 = 1 → (⟨c, 0, s, 0⟩ : Quat).rot u =
      ![(2 * c ^ 2 - 1) * u 0 + 2 * s * c * u 2, u 1, -(2 * s * c * u 0) + (2 * c ^ 2 - 1) * u 2] := by
    intro c s u h
    rw [rot_eq]; ext i
    fin_cases i <;> simp
    · linear_combination (-2 * u 0) * h
    · linear_combination (-2 * u 2) * h
  have hz : ∀ (c s : ℝ) (u : V3), s ^ 2 + c ^ 2 = 1 → (⟨c, 0, 0, s⟩ : Quat).rot u =
      ![(2 * c ^ 2 - 1) * u 0 - 2 * s * c * u 1, 2 * s * c * u 0 + (2 * c ^ 2 - 1) * u 1, u 2] := by
    intro c s u h
    rw [rot_eq]; ext i
    fin_cases i <;> simp
    · linear_combination (-2 * u 0) * h
    · linear_combination (-2 * u 1) * h
  have h0 := sin_sq_add_cos_sq (rpy 0 / 2)
  have h1 := sin_sq_add_cos_sq (rpy 1 / 2)
  have h2 := sin_sq_add_cos_sq (rpy 2 / 2)
  have u2 : qNormSq ⟨cos (rpy 2 / 2), 0, 0, sin (rpy 2 / 2)⟩ = 1 := by simp only [qNormSq]; linarith
  have u1 : qNormSq ⟨cos (rpy 1 / 2), 0, sin (rpy 1 / 2), 0⟩ = 1 := by simp only [qNormSq]; linarith
  have u0 : qNormSq ⟨cos (rpy 0 / 2), sin (rpy 0 / 2), 0, 0⟩ = 1 := by simp only [qNormSq]; linarith
  rw [qOfRpy, C52_rotation_compose (by rw [qNormSq_mul, u2, u1, mul_one]) u0, C52_rotation_compose u2 u1,
    hx _ _ _ h0, hy _ _ _ h1, hz _ _ _ h2]
  have d : ∀ t : ℝ, sin t = 2 * sin (t / 2) * cos (t / 2) ∧ cos t = 2 * cos (t / 2) ^ 2 - 1 := by
    intro t
    rw [← sin_two_mul, ← cos_two_mul]
    have : 2 * (t / 2) = t := by ring
    rw [this]; exact ⟨rfl, rfl⟩
  rw [(d (rpy 0)).1, (d (rpy 0)).2, (d (rpy 1)).1, (d (rpy 1)).2, (d (rpy 2)).1, (d (rpy 2)).2]
  ext i
  fin_cases i <;> simp <;> ring

/-- The derivative of one coordinate. -/
theorem coord (x : Fin 9 → ℝ) (j : Fin 9) :
    HasFDerivAt (fun y : Fin 9 → ℝ => y j) (ContinuousLinearMap.proj (R := ℝ) (φ := fun _ : Fin 9 => ℝ) j) x :=
  hasFDerivAt_apply j x

/-- **C61.** With gravity: the matrix is the (Fréchet) derivative of the prediction at every state. -/
theorem C61_with_gravity (tf : Iso) (g : ℝ) (x : Fin 9 → ℝ) :
    HasFDerivAt (accelOfState tf true g)
      (asDeriv (accelMeasurementJacobian ![x 6, x 7, x 8] tf true ![x 3, x 4, x 5] g)) x := by
  have e : accelOfState tf true g = fun y => tf.R *ᵥ ![
      y 0 + g * (cos (y 3) * sin (y 4) * cos (y 5) + sin (y 3) * sin (y 5))
        + (y 7 * (y 6 * tf.t 1 - y 7 * tf.t 0) - y 8 * (y 8 * tf.t 0 - y 6 * tf.t 2)),
      y 1 + g * (cos (y 3) * sin (y 4) * sin (y 5) - sin (y 3) * cos (y 5))
        + (y 8 * (y 7 * tf.t 2 - y 8 * tf.t 1) - y 6 * (y 6 * tf.t 1 - y 7 * tf.t 0)),
      y 2 + g * (cos (y 3) * cos (y 4))
        + (y 6 * (y 8 * tf.t 0 - y 6 * tf.t 2) - y 7 * (y 7 * tf.t 2 - y 8 * tf.t 1))] := by
    funext y
    simp only [accelOfState, predictAccelMeasurement, if_true, transformLinearAcceleration, qOfRpy_gravity]
    congr 1
    ext i
    fin_cases i <;> simp [crossProduct]
  rw [e]
  have c := fun j => coord x j
  have d0 := ((c 0).add (((((c 3).cos.mul (c 4).sin).mul (c 5).cos).add ((c 3).sin.mul (c 5).sin)).const_mul g)).add
    (((c 7).mul (((c 6).mul_const (tf.t 1)).sub ((c 7).mul_const (tf.t 0)))).sub
      ((c 8).mul (((c 8).mul_const (tf.t 0)).sub ((c 6).mul_const (tf.t 2)))))
  have d1 := ((c 1).add (((((c 3).cos.mul (c 4).sin).mul (c 5).sin).sub ((c 3).sin.mul (c 5).cos)).const_mul g)).add
    (((c 8).mul (((c 7).mul_const (tf.t 2)).sub ((c 8).mul_const (tf.t 1)))).sub
      ((c 6).mul (((c 6).mul_const (tf.t 1)).sub ((c 7).mul_const (tf.t 0)))))
  have d2 := ((c 2).add (((c 3).cos.mul (c 4).cos).const_mul g)).add
    (((c 6).mul (((c 8).mul_const (tf.t 0)).sub ((c 6).mul_const (tf.t 2)))).sub
      ((c 7).mul (((c 7).mul_const (tf.t 2)).sub ((c 8).mul_const (tf.t 1)))))
  have inner := (hasFDerivAt_pi (𝕜 := ℝ) (x := x) (φ := fun i : Fin 3 => fun y => (![
      y 0 + g * (cos (y 3) * sin (y 4) * cos (y 5) + sin (y 3) * sin (y 5))
        + (y 7 * (y 6 * tf.t 1 - y 7 * tf.t 0) - y 8 * (y 8 * tf.t 0 - y 6 * tf.t 2)),
      y 1 + g * (cos (y 3) * sin (y 4) * sin (y 5) - sin (y 3) * cos (y 5))
        + (y 8 * (y 7 * tf.t 2 - y 8 * tf.t 1) - y 6 * (y 6 * tf.t 1 - y 7 * tf.t 0)),
      y 2 + g * (cos (y 3) * cos (y 4))
        + (y 6 * (y 8 * tf.t 0 - y 6 * tf.t 2) - y 7 * (y 7 * tf.t 2 - y 8 * tf.t 1))] : Fin 3 → ℝ) i)
    (φ' := ![_, _, _])).mpr (fun i => by
      fin_cases i
      · exact d0
      · exact d1
      · exact d2)
  refine (((asDeriv tf.R).hasFDerivAt).comp x inner).congr_fderiv ?_
  refine ContinuousLinearMap.ext fun v => ?_
  ext i
  simp [accelMeasurementJacobian, Matrix.mulVec, dotProduct, Fin.sum_univ_succ, crossProduct]
  ring

/-- **C61.** Without gravity. -/
theorem C61_without_gravity (tf : Iso) (g : ℝ) (x : Fin 9 → ℝ) :
    HasFDerivAt (accelOfState tf false g)
      (asDeriv (accelMeasurementJacobian ![x 6, x 7, x 8] tf false ![x 3, x 4, x 5] g)) x := by
  have h0 := C61_with_gravity tf 0 x
  have e : accelOfState tf false g = accelOfState tf true 0 := by
    funext y
    have z : (qOfRpy ![y 3, y 4, y 5]).rot ![0, 0, 0] = 0 := by rw [rot_eq]; ext i; fin_cases i <;> simp
    simp [accelOfState, predictAccelMeasurement, z]
  rw [e]
  refine h0.congr_fderiv ?_
  congr 1
  simp [accelMeasurementJacobian]

/-- **C61.** `gyroMeasurementJacobian` is the derivative of `predictGyroMeasurement` at every angular rate. -/
theorem C61_gyro (R : M3) (w : V3) :
    HasFDerivAt (fun w => predictGyroMeasurement w R) (asDeriv (gyroMeasurementJacobian R)) w :=
  (asDeriv R).hasFDerivAt

/-- **C61.** A derivative is unique: any matrix that is the derivative is the one returned. -/
theorem C61_unique (tf : Iso) (b : Bool) (g : ℝ) (x : Fin 9 → ℝ) (H : Matrix (Fin 3) (Fin 9) ℝ)
    (h : HasFDerivAt (accelOfState tf b g) (asDeriv H) x) :
    H = accelMeasurementJacobian ![x 6, x 7, x 8] tf b ![x 3, x 4, x 5] g := by
  have h' : HasFDerivAt (accelOfState tf b g)
      (asDeriv (accelMeasurementJacobian ![x 6, x 7, x 8] tf b ![x 3, x 4, x 5] g)) x := by
    cases b
    · exact C61_without_gravity tf g x
    · exact C61_with_gravity tf g x
  have e := h.unique h'
  ext i j
  have := congrFun (congrArg (fun L : (Fin 9 → ℝ) →L[ℝ] (Fin 3 → ℝ) => L (Pi.single j 1)) e) i
  simpa using this

/-- Non-vacuity of C61: level and at rest, rolling by a small angle tilts gravity towards minus y. -/
example : (accelMeasurementJacobian 0 Iso.identity true 0 9.8) 1 3 = -9.8 := by
  simp [accelMeasurementJacobian, Iso.identity, Matrix.mulVec, dotProduct, Fin.sum_univ_three, Matrix.one_apply]

end StateEstimation.Props
