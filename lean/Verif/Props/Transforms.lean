import Verif.Props.Rotations
import Verif.Lemmas.Kalman
import Mathlib.LinearAlgebra.Matrix.Trace
import Mathlib.LinearAlgebra.Matrix.Adjugate

/-!
# C57 to C60: transforming velocities, accelerations and covariances, and orientation from gravity
-/

namespace StateEstimation.Props

open Matrix Real StateEstimation

/-- Specification: `R` is a rotation matrix (what the linear part of an `Isometry3d` is supposed to be). -/
structure IsRotation (R : M3) : Prop where
  orth : Rᵀ * R = 1
  det : R.det = 1

theorem isRotation_one : IsRotation 1 := ⟨by simp, by simp⟩

theorem isRotation_mul {A B : M3} (hA : IsRotation A) (hB : IsRotation B) : IsRotation (A * B) := by
  refine ⟨?_, by rw [det_mul, hA.det, hB.det, mul_one]⟩
  rw [transpose_mul, Matrix.mul_assoc, ← Matrix.mul_assoc Aᵀ, hA.orth, Matrix.one_mul, hB.orth]

theorem IsRotation.orth' {R : M3} (h : IsRotation R) : R * Rᵀ = 1 := mul_eq_one_comm.mp h.orth

theorem isRotation_transpose {R : M3} (h : IsRotation R) : IsRotation Rᵀ :=
  ⟨by rw [transpose_transpose]; exact h.orth', by rw [det_transpose, h.det]⟩

/-- A quarter turn about z, used for examples. -/
def quarterTurn : M3 := !![0, -1, 0; 1, 0, 0; 0, 0, 1]

theorem isRotation_quarterTurn : IsRotation quarterTurn := by
  constructor
  · ext i j; fin_cases i <;> fin_cases j <;> simp [quarterTurn, Matrix.mul_apply, Fin.sum_univ_three]
  · simp [quarterTurn, Matrix.det_fin_three]

theorem rotation_adjugate {R : M3} (h : IsRotation R) : R.adjugate = Rᵀ := by
  have h1 := Matrix.adjugate_mul R
  rw [h.det, one_smul] at h1
  calc R.adjugate = R.adjugate * (R * Rᵀ) := by rw [h.orth', Matrix.mul_one]
    _ = Rᵀ := by rw [← Matrix.mul_assoc, h1, Matrix.one_mul]

/-- A rotation commutes with the cross product. -/
theorem rotation_cross {R : M3} (h : IsRotation R) (a b : V3) :
    R *ᵥ crossProduct a b = crossProduct (R *ᵥ a) (R *ᵥ b) := by
  have e := rotation_adjugate h
  rw [Matrix.adjugate_fin_three] at e
  have f := fun i j => congrFun (congrFun e j) i
  have f00 := f 0 0; have f01 := f 0 1; have f02 := f 0 2
  have f10 := f 1 0; have f11 := f 1 1; have f12 := f 1 2
  have f20 := f 2 0; have f21 := f 2 1; have f22 := f 2 2
  simp only [Matrix.of_apply, Matrix.cons_val_zero, Matrix.cons_val_one, Matrix.cons_val, Matrix.transpose_apply]
    at f00 f01 f02 f10 f11 f12 f20 f21 f22
  clear e f
  ext i
  fin_cases i <;> simp only [crossProduct, LinearMap.mk₂_apply, Matrix.mulVec, dotProduct, Fin.sum_univ_three,
    Fin.zero_eta, Fin.mk_one, Fin.reduceFinMk, Matrix.cons_val_zero, Matrix.cons_val_one, Matrix.cons_val]
  · rw [← f00, ← f01, ← f02]; ring
  · rw [← f10, ← f11, ← f12]; ring
  · rw [← f20, ← f21, ← f22]; ring

/-! ## C57 -/

/-- **C57.** The identity transform does nothing. -/
theorem C57_identity (v w : V3) :
    transformLinearVelocity v w Iso.identity = v ∧ transformAngularVelocity w Iso.identity.R = w := by
  constructor
  · simp [transformLinearVelocity, Iso.identity]
  · simp [transformAngularVelocity, Iso.identity]

/-- **C57.** Transforming through `tf1` and then `tf2` is transforming through `tf2 * tf1`. -/
theorem C57_compose (tf1 tf2 : Iso) (h2 : IsRotation tf2.R) (v w : V3) :
    transformLinearVelocity (transformLinearVelocity v w tf1) (transformAngularVelocity w tf1.R) tf2 =
      transformLinearVelocity v w (tf2.mul tf1) ∧
    transformAngularVelocity (transformAngularVelocity w tf1.R) tf2.R = transformAngularVelocity w (tf2.mul tf1).R := by
  constructor
  · simp only [transformLinearVelocity, transformAngularVelocity, Iso.mul, Matrix.mulVec_add, rotation_cross h2, map_add,
      Matrix.mulVec_mulVec]
    abel
  · simp only [transformAngularVelocity, Iso.mul, Matrix.mulVec_mulVec]

/-- Specification: the inverse transform. -/
def isoInv (tf : Iso) : Iso := ⟨tf.Rᵀ, -(tf.Rᵀ *ᵥ tf.t)⟩

/-- **C57.** Transforming there and back returns the original velocities. -/
theorem C57_inverse (tf : Iso) (h : IsRotation tf.R) (v w : V3) :
    transformLinearVelocity (transformLinearVelocity v w tf) (transformAngularVelocity w tf.R) (isoInv tf) = v ∧
    transformAngularVelocity (transformAngularVelocity w tf.R) (isoInv tf).R = w := by
  have e : (isoInv tf).mul tf = Iso.identity := by simp [isoInv, Iso.mul, Iso.identity, h.orth]
  have := C57_compose tf (isoInv tf) (isRotation_transpose h) v w
  rw [e] at this
  exact ⟨this.1.trans (C57_identity v w).1, this.2.trans (C57_identity v w).2⟩

/-- Non-vacuity of C57: a transform with rotation and offset for which the lever arm matters. -/
example : transformLinearVelocity ![1, 0, 0] ![0, 0, 1] ⟨quarterTurn, ![1, 0, 0]⟩ = ![0, 2, 0] := by
  ext i
  fin_cases i <;>
  simp [transformLinearVelocity, quarterTurn, crossProduct, Matrix.mulVec, dotProduct, Fin.sum_univ_three] <;> norm_num

/-! ## C58 -/

/-- Specification: velocity, in the sensor's axes `R`, of the point `p` of a rigid body moving with `v`, `w`. -/
def pointVelocity (R : M3) (p v w : V3) : V3 := R *ᵥ (v + crossProduct w p)

/-- Specification: acceleration of that point at constant angular velocity. -/
def pointAcceleration (R : M3) (p a w : V3) : V3 := R *ᵥ (a + crossProduct w (crossProduct w p))

/-- **C58.** The velocity transform is that of the body point `Rᵀ t`. -/
theorem C58_velocity_point (tf : Iso) (h : IsRotation tf.R) (v w : V3) :
    transformLinearVelocity v w tf = pointVelocity tf.R (tf.Rᵀ *ᵥ tf.t) v w := by
  simp only [transformLinearVelocity, pointVelocity, Matrix.mulVec_add, rotation_cross h, Matrix.mulVec_mulVec, h.orth',
    Matrix.one_mulVec]

/-- **C58.** The acceleration transform is that of the body point `t`. -/
theorem C58_acceleration_point (tf : Iso) (a w : V3) :
    transformLinearAcceleration a w tf = pointAcceleration tf.R tf.t a w := rfl

/-- **C58, refuted.** For a transform with a quarter turn and an offset there is no point of the body whose velocity and
acceleration the two functions return: the claim that both refer to the same sensor position is false. -/
theorem C58_refuted : ∃ tf : Iso, IsRotation tf.R ∧ ¬ ∃ p : V3, ∀ v a w : V3,
    transformLinearVelocity v w tf = pointVelocity tf.R p v w ∧
    transformLinearAcceleration a w tf = pointAcceleration tf.R p a w := by
  refine ⟨⟨quarterTurn, ![1, 0, 0]⟩, isRotation_quarterTurn, ?_⟩
  rintro ⟨p, h⟩
  have hv := congrFun (h 0 0 ![0, 0, 1]).1 0
  have ha := congrFun (h 0 0 ![0, 0, 1]).2 1
  simp [transformLinearVelocity, transformLinearAcceleration, pointVelocity, pointAcceleration, quarterTurn,
    crossProduct, Matrix.mulVec, dotProduct, Fin.sum_univ_three] at hv ha
  linarith

/-- **C58, refuted.** The acceleration transform does not compose like the frames. -/
theorem C58_refuted_compose : ∃ (tf1 tf2 : Iso) (a w : V3), IsRotation tf1.R ∧ IsRotation tf2.R ∧
    transformLinearAcceleration (transformLinearAcceleration a w tf1) (transformAngularVelocity w tf1.R) tf2 ≠
      transformLinearAcceleration a w (tf2.mul tf1) := by
  refine ⟨⟨1, ![1, 0, 0]⟩, ⟨quarterTurn, 0⟩, 0, ![0, 0, 1], isRotation_one, isRotation_quarterTurn, ?_⟩
  intro h
  have h1 := congrFun h 1
  simp [transformLinearAcceleration, transformAngularVelocity, Iso.mul, quarterTurn,
    crossProduct, Matrix.mulVec, dotProduct, Fin.sum_univ_three] at h1

/-- **C58, what holds.** The two functions refer to the same sensor position exactly when the rotation leaves the
translation where it is (no rotation, no translation, or translation along the axis). -/
theorem C58_partial (tf : Iso) (h : IsRotation tf.R) :
    (∃ p : V3, ∀ v a w : V3, transformLinearVelocity v w tf = pointVelocity tf.R p v w ∧
      transformLinearAcceleration a w tf = pointAcceleration tf.R p a w) ↔ tf.R *ᵥ tf.t = tf.t := by
  have inj : ∀ x y : V3, tf.R *ᵥ x = tf.R *ᵥ y → x = y := by
    intro x y e
    have := congrArg (fun z => tf.Rᵀ *ᵥ z) e
    simpa [Matrix.mulVec_mulVec, h.orth] using this
  constructor
  · rintro ⟨p, hp⟩
    have hv : ∀ w : V3, crossProduct w (tf.Rᵀ *ᵥ tf.t) = crossProduct w p := by
      intro w
      have := (hp 0 0 w).1
      rw [C58_velocity_point tf h] at this
      have := inj _ _ this
      simpa using this
    have ha : ∀ w : V3, crossProduct w (crossProduct w tf.t) = crossProduct w (crossProduct w p) := by
      intro w
      have := inj _ _ (hp 0 0 w).2
      simpa using this
    have e1 : tf.Rᵀ *ᵥ tf.t = p := by
      have a1 := congrFun (hv ![1, 0, 0]) 1
      have a2 := congrFun (hv ![1, 0, 0]) 2
      have a3 := congrFun (hv ![0, 1, 0]) 2
      ext i
      fin_cases i <;> simp [crossProduct] at a1 a2 a3 ⊢ <;> assumption
    have e2 : tf.t = p := by
      have a1 := congrFun (ha ![1, 0, 0]) 1
      have a2 := congrFun (ha ![1, 0, 0]) 2
      have a3 := congrFun (ha ![0, 1, 0]) 0
      ext i
      fin_cases i <;> simp [crossProduct] at a1 a2 a3 ⊢ <;> assumption
    have := congrArg (fun z => tf.R *ᵥ z) (e1.trans e2.symm)
    simp only [Matrix.mulVec_mulVec, h.orth', Matrix.one_mulVec] at this
    exact this.symm
  · intro e
    refine ⟨tf.t, fun v a w => ⟨?_, rfl⟩⟩
    rw [C58_velocity_point tf h]
    have : tf.Rᵀ *ᵥ tf.t = tf.t := by
      conv_lhs => rw [← e]
      rw [Matrix.mulVec_mulVec, h.orth, Matrix.one_mulVec]
    rw [this]

/-- **C58, what holds.** Accelerations compose like the frames when neither transform rotates; in general the
composition has the lever arm `t1 + R1ᵀ t2` instead of `R2 t1 + t2`. -/
theorem C58_compose_partial (tf1 tf2 : Iso) (h1 : IsRotation tf1.R) (a w : V3) :
    transformLinearAcceleration (transformLinearAcceleration a w tf1) (transformAngularVelocity w tf1.R) tf2 =
      pointAcceleration (tf2.R * tf1.R) (tf1.t + tf1.Rᵀ *ᵥ tf2.t) a w ∧
    (tf1.R = 1 → tf2.R = 1 →
      transformLinearAcceleration (transformLinearAcceleration a w tf1) (transformAngularVelocity w tf1.R) tf2 =
        transformLinearAcceleration a w (tf2.mul tf1)) := by
  have e : transformLinearAcceleration (transformLinearAcceleration a w tf1) (transformAngularVelocity w tf1.R) tf2 =
      pointAcceleration (tf2.R * tf1.R) (tf1.t + tf1.Rᵀ *ᵥ tf2.t) a w := by
    simp only [transformLinearAcceleration, transformAngularVelocity, pointAcceleration]
    rw [← Matrix.mulVec_mulVec]
    congr 1
    simp only [Matrix.mulVec_add, map_add, rotation_cross h1, Matrix.mulVec_mulVec, h1.orth', Matrix.one_mulVec, add_assoc]
  refine ⟨e, fun r1 r2 => ?_⟩
  rw [e]
  simp [pointAcceleration, transformLinearAcceleration, Iso.mul, r1, r2]

/-! ## C59 -/

/-- **C59.** `transformCovariance` keeps symmetry. -/
theorem C59_symmetric {cov : M3} (h : covᵀ = cov) (R : M3) : (transformCovariance cov R)ᵀ = transformCovariance cov R := by
  simp only [transformCovariance, transpose_mul, transpose_transpose, h, Matrix.mul_assoc]

/-- **C59.** It keeps positive semidefiniteness, for any matrix `R`. -/
theorem C59_psd {cov : M3} (h : cov.PosSemidef) (R : M3) : (transformCovariance cov R).PosSemidef := Kalman.psd_conj h R

/-- **C59.** It keeps the trace and the determinant under a rotation. -/
theorem C59_trace {R : M3} (h : IsRotation R) (cov : M3) :
    (transformCovariance cov R).trace = cov.trace ∧ (transformCovariance cov R).det = cov.det := by
  constructor
  · rw [transformCovariance, Matrix.trace_mul_comm, ← Matrix.mul_assoc, h.orth, Matrix.one_mul]
  · simp [transformCovariance, det_mul, h.det]

/-- **C59.** It composes, and the identity does nothing. -/
theorem C59_compose (cov R1 R2 : M3) :
    transformCovariance (transformCovariance cov R1) R2 = transformCovariance cov (R2 * R1) ∧
    transformCovariance cov 1 = cov := by
  constructor
  · simp only [transformCovariance, transpose_mul, Matrix.mul_assoc]
  · simp [transformCovariance]

/-- **C59.** It is the covariance of rotated vectors: quadratic forms are read off along the rotated direction. -/
theorem C59_quadratic (cov R : M3) (u : V3) :
    u ⬝ᵥ (transformCovariance cov R *ᵥ u) = (Rᵀ *ᵥ u) ⬝ᵥ (cov *ᵥ (Rᵀ *ᵥ u)) := by
  rw [transformCovariance, Matrix.mul_assoc, ← Matrix.mulVec_mulVec, ← Matrix.mulVec_mulVec, Matrix.dotProduct_mulVec,
    ← Matrix.mulVec_transpose]

/-- Non-vacuity of C59: a quarter turn exchanges the variances along x and y. -/
example : transformCovariance (diagonal ![4, 1, 9]) quarterTurn = diagonal ![1, 4, 9] := by
  ext i j
  fin_cases i <;> fin_cases j <;>
  simp [transformCovariance, quarterTurn, Matrix.mul_apply, Fin.sum_univ_three, Matrix.diagonal_apply, Matrix.vecMul,
    dotProduct]

/-! ## C60 -/

theorem normalized_sqNorm {g : V3} (h : g ≠ 0) : sqNorm (normalized g) = 1 ∧ 0 < sqNorm g := by
  have hp : 0 < sqNorm g := by
    rcases lt_or_eq_of_le (sqNorm_nonneg g) with h1 | h1
    · exact h1
    · exfalso
      apply h
      simp only [sqNorm] at h1
      have a0 : g 0 = 0 := by nlinarith [mul_self_nonneg (g 0), mul_self_nonneg (g 1), mul_self_nonneg (g 2)]
      have a1 : g 1 = 0 := by nlinarith [mul_self_nonneg (g 0), mul_self_nonneg (g 1), mul_self_nonneg (g 2)]
      have a2 : g 2 = 0 := by nlinarith [mul_self_nonneg (g 0), mul_self_nonneg (g 1), mul_self_nonneg (g 2)]
      ext i; fin_cases i <;> assumption
  refine ⟨?_, hp⟩
  rw [normalized, if_pos hp, sqNorm_smul, div_pow, one_pow, sq_sqrt hp.le, one_div, inv_mul_cancel₀ hp.ne']

/-- **C60.** For every gravity vector that does not point straight up, the result is a unit quaternion with zero z
component which rotates `(0, 0, -1)` onto the direction of gravity. -/
theorem C60_aligned {g : V3} (hg : g ≠ 0) (hz : ¬ (g 0 = 0 ∧ g 1 = 0 ∧ 0 < g 2)) :
    ∃ q, orientationFromGravityVector g = some q ∧ qNormSq q = 1 ∧ q.z = 0 ∧ 0 < q.w ∧
      norm3 g • q.rot ![0, 0, -1] = g := by
  obtain ⟨hu, hp⟩ := normalized_sqNorm hg
  have hn : 0 < norm3 g := sqrt_pos.mpr hp
  have hgn : norm3 g • normalized g = g := by
    rw [normalized, if_pos hp, smul_smul]
    show (norm3 g * (1 / norm3 g)) • g = g
    rw [mul_one_div_cancel hn.ne', one_smul]
  set u := normalized g with hudef
  have hu' : u 0 * u 0 + u 1 * u 1 + u 2 * u 2 = 1 := hu
  have hlt : u 2 < 1 := by
    by_contra hc
    push Not at hc
    have a0 : u 0 = 0 := by nlinarith [mul_self_nonneg (u 0), mul_self_nonneg (u 1)]
    have a1 : u 1 = 0 := by nlinarith [mul_self_nonneg (u 0), mul_self_nonneg (u 1)]
    apply hz
    refine ⟨?_, ?_, ?_⟩
    · rw [← hgn]; simp [a0]
    · rw [← hgn]; simp [a1]
    · rw [← hgn]; simp only [Pi.smul_apply, smul_eq_mul]; exact mul_pos hn (by linarith)
  have hw2 : 0 < 0.5 * (-u 2 + 1) := by linarith
  have hw : 0 < sqrt (0.5 * (-u 2 + 1)) := sqrt_pos.mpr hw2
  have hsq := sq_sqrt hw2.le
  refine ⟨⟨sqrt (0.5 * (-u 2 + 1)), u 1 / (2 * sqrt (0.5 * (-u 2 + 1))), -u 0 / (2 * sqrt (0.5 * (-u 2 + 1))), 0⟩,
    ?_, ?_⟩
  · simp only [orientationFromGravityVector]
    rw [← hudef, hu, if_pos (by norm_num), sqrt_one, if_neg hw.ne']
  · generalize sqrt (0.5 * (-u 2 + 1)) = w at *
    have e2 : u 2 = 1 - 2 * w ^ 2 := by rw [hsq]; ring
    obtain ⟨x, hx⟩ : ∃ x, x = u 1 / (2 * w) := ⟨_, rfl⟩
    obtain ⟨y, hy⟩ : ∃ y, y = -u 0 / (2 * w) := ⟨_, rfl⟩
    have e1 : u 1 = 2 * w * x := by rw [hx]; field_simp
    have e0 : u 0 = -(2 * w * y) := by rw [hy]; field_simp
    rw [← hx, ← hy]
    have key : w ^ 2 + x ^ 2 + y ^ 2 = 1 := by
      rw [e0, e1, e2] at hu'
      have : 4 * w ^ 2 * (w ^ 2 + x ^ 2 + y ^ 2 - 1) = 0 := by linear_combination hu'
      have hne : 4 * w ^ 2 ≠ 0 := by positivity
      have := (mul_eq_zero.mp this).resolve_left hne
      linarith
    refine ⟨by simp [qNormSq]; linarith, rfl, hw, ?_⟩
    rw [show (⟨w, x, y, 0⟩ : Quat).rot ![0, 0, -1] = u from ?_]
    · exact hgn
    · rw [rot_eq]
      ext i
      fin_cases i <;> simp
      · rw [e0]; ring
      · rw [e1]; ring
      · rw [e2]; linear_combination (2 : ℝ) * key

/-- **C60.** A zero vector gives the identity. -/
theorem C60_zero : orientationFromGravityVector 0 = some Quat.identity := by
  simp [orientationFromGravityVector, normalized, sqNorm]
  norm_num

/-- **C60, refuted.** Gravity pointing straight up makes the program divide by zero: no orientation is returned.  With
`C60_aligned` and `C60_zero` this is the only failing direction. -/
theorem C60_refuted (c : ℝ) (hc : 0 < c) : orientationFromGravityVector ![0, 0, c] = none := by
  have e : sqNorm ![0, 0, c] = c ^ 2 := by simp [sqNorm]; ring
  have hp : sqNorm ![0, 0, c] > 0 := by rw [e]; positivity
  have hu : normalized ![0, 0, c] = ![0, 0, 1] := by
    rw [normalized, if_pos hp, e, sqrt_sq hc.le]
    ext i; fin_cases i <;> simp [hc.ne']
  simp only [orientationFromGravityVector, hu]
  simp [sqNorm]
  norm_num

/-- Non-vacuity of C60: level gravity gives the identity, gravity along x a pitch. -/
example : orientationFromGravityVector ![0, 0, -9.8] = some Quat.identity := by
  obtain ⟨q, h1, h2, h3, h4, h5⟩ := C60_aligned (g := ![0, 0, -9.8]) (by intro h; have := congrFun h 2; simp at this; norm_num at this)
    (by simp; norm_num)
  have : norm3 ![0, 0, -9.8] = 9.8 := by
    rw [norm3, show sqNorm ![0, 0, -9.8] = 9.8 ^ 2 by simp [sqNorm]; norm_num, sqrt_sq (by norm_num)]
  rw [this, rot_eq] at h5
  have a2 := congrFun h5 2
  simp [h3] at a2
  have hn : q.w ^ 2 + q.x ^ 2 + q.y ^ 2 + q.z ^ 2 = 1 := h2
  rw [h3] at hn
  have hxy : q.x ^ 2 + q.y ^ 2 = 0 := by nlinarith
  have hx : q.x = 0 := by nlinarith [sq_nonneg q.x, sq_nonneg q.y]
  have hy : q.y = 0 := by nlinarith [sq_nonneg q.x, sq_nonneg q.y]
  rw [hx, hy] at hn
  have hw : q.w = 1 := by nlinarith
  rw [h1]
  congr 1
  ext <;> simp [Quat.identity, hw, hx, hy, h3]

end StateEstimation.Props
