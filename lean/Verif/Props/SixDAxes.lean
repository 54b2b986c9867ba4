import Verif.Spec.Axes
import Verif.Props.Units
import Verif.Props.SixDFilter
import Verif.Props.SixDRateJac
import Verif.Props.SixDNoise
import Verif.Props.Transforms

/-!
# C126: the choice of the body axes does not matter
-/

set_option linter.unusedSectionVars false

namespace StateEstimation.Props

open Matrix Real Units SixDRates

/-! ## Rotations and the formulas of the 6-D rates model -/

variable {Q : M3}

private theorem rotation_dot (h : IsRotation Q) (a b : V3) : (Q *ᵥ a) ⬝ᵥ (Q *ᵥ b) = a ⬝ᵥ b := by
  rw [Matrix.dotProduct_mulVec, ← Matrix.mulVec_transpose, Matrix.mulVec_mulVec, h.orth, Matrix.one_mulVec]

private theorem sqNorm_dot (a : V3) : sqNorm a = a ⬝ᵥ a := by
  simp [sqNorm, dotProduct, Fin.sum_univ_three]

private theorem rotation_sqNorm (h : IsRotation Q) (a : V3) : sqNorm (Q *ᵥ a) = sqNorm a := by
  rw [sqNorm_dot, sqNorm_dot, rotation_dot h]

private theorem rotation_norm (h : IsRotation Q) (a : V3) : norm3 (Q *ᵥ a) = norm3 a := by
  unfold norm3; rw [rotation_sqNorm h]

private theorem rotation_rescaled (h : IsRotation Q) (g : V3) : rescaled (Q *ᵥ g) = Q *ᵥ rescaled g := by
  unfold rescaled normalized
  rw [rotation_sqNorm h]
  split
  · simp only [Matrix.mulVec_smul]
  · rw [Matrix.mulVec_smul]

private theorem delta_vec (dt : ℝ) (w : V3) : (deltaQuaternion dt w).vec =
    (if norm3 w > 1e-9 then sin (0.5 * dt * norm3 w) / norm3 w else 0) • w := by
  unfold deltaQuaternion
  dsimp only
  split
  · ext i; fin_cases i <;> simp [Quat.vec]
  · ext i; fin_cases i <;> simp [Quat.vec, Quat.identity]

private theorem delta_w (h : IsRotation Q) (dt : ℝ) (w : V3) : (deltaQuaternion dt (Q *ᵥ w)).w = (deltaQuaternion dt w).w := by
  unfold deltaQuaternion
  rw [rotation_norm h]
  dsimp only
  split <;> rfl

private theorem rotation_delta_vec (h : IsRotation Q) (dt : ℝ) (w : V3) :
    (deltaQuaternion dt (Q *ᵥ w)).vec = Q *ᵥ (deltaQuaternion dt w).vec := by
  rw [delta_vec, delta_vec, rotation_norm h, Matrix.mulVec_smul]

private theorem rotation_rot (h : IsRotation Q) (dt : ℝ) (w a : V3) :
    (deltaQuaternion dt (Q *ᵥ w)).rot (Q *ᵥ a) = Q *ᵥ (deltaQuaternion dt w).rot a := by
  unfold Quat.rot
  dsimp only
  rw [delta_w h, rotation_delta_vec h]
  simp only [Matrix.mulVec_add, Matrix.mulVec_smul, rotation_cross h, map_add]

private theorem rotation_rk4 (h : IsRotation Q) (dt : ℝ) (a w : V3) :
    integrateVelocityRK4 dt (Q *ᵥ a) (Q *ᵥ w) 0 = Q *ᵥ integrateVelocityRK4 dt a w 0 := by
  unfold integrateVelocityRK4
  dsimp only
  rw [rotation_rot h, rotation_rot h]
  simp only [Matrix.mulVec_add, Matrix.mulVec_smul, Matrix.mulVec_zero]

private theorem rotation_gravityRate (h : IsRotation Q) (dt : ℝ) (g w v : V3) :
    jacGravityRate dt (Q *ᵥ g) (Q *ᵥ w) *ᵥ (Q *ᵥ v) = Q *ᵥ (jacGravityRate dt g w *ᵥ v) := by
  rw [jacGravityRate_mulVec, jacGravityRate_mulVec, delta_w h, rotation_dot h]
  simp only [Matrix.mulVec_add, Matrix.mulVec_smul, rotation_cross h]

private theorem gravityGravity_mulVec (dt : ℝ) (w g : V3) : jacGravityGravity dt w *ᵥ g =
    ((deltaQuaternion dt w).w ^ 2 + (deltaQuaternion dt w).vec ⬝ᵥ (deltaQuaternion dt w).vec) • g +
      ((deltaQuaternion dt w).vec ⬝ᵥ g) • (deltaQuaternion dt w).vec +
      (2 * (deltaQuaternion dt w).w) • crossProduct (deltaQuaternion dt w).vec g := by
  unfold jacGravityGravity
  dsimp only
  generalize deltaQuaternion dt w = q
  ext i
  fin_cases i <;>
    simp [Matrix.mulVec, dotProduct, Fin.sum_univ_three, skew, crossProduct, Matrix.vecMulVec_apply, Matrix.one_apply, Matrix.vecHead, Matrix.vecTail] <;>
    ring

private theorem rotation_gravityGravity (h : IsRotation Q) (dt : ℝ) (w g : V3) :
    jacGravityGravity dt (Q *ᵥ w) *ᵥ (Q *ᵥ g) = Q *ᵥ (jacGravityGravity dt w *ᵥ g) := by
  rw [gravityGravity_mulVec, gravityGravity_mulVec, delta_w h, rotation_delta_vec h, rotation_dot h, rotation_dot h]
  simp only [Matrix.mulVec_add, Matrix.mulVec_smul, rotation_cross h]

private theorem rotation_noiseGravity (h : IsRotation Q) (dt : ℝ) (g w c : V3) :
    noiseGravity dt (Q *ᵥ g) (Q *ᵥ w) *ᵥ (Q *ᵥ c) = Q *ᵥ (noiseGravity dt g w *ᵥ c) := by
  rw [noiseGravity_mulVec, noiseGravity_mulVec, delta_w h, rotation_dot h, rotation_dot h]
  simp only [Matrix.mulVec_add, Matrix.mulVec_smul, rotation_cross h]

/-! ## States and their six vectors -/

private def biasA (x : Fin 18 → ℝ) : V3 := ![x 12, x 13, x 14]
private def biasW (x : Fin 18 → ℝ) : V3 := ![x 15, x 16, x 17]

private theorem ext18 {x y : Fin 18 → ℝ} (h0 : velocityOf x = velocityOf y) (h1 : accelOf x = accelOf y) (h2 : rateOf x = rateOf y)
    (h3 : gravityOf x = gravityOf y) (h4 : biasA x = biasA y) (h5 : biasW x = biasW y) : x = y := by
  funext i
  fin_cases i
  · exact congrFun h0 0
  · exact congrFun h0 1
  · exact congrFun h0 2
  · exact congrFun h1 0
  · exact congrFun h1 1
  · exact congrFun h1 2
  · exact congrFun h2 0
  · exact congrFun h2 1
  · exact congrFun h2 2
  · exact congrFun h3 0
  · exact congrFun h3 1
  · exact congrFun h3 2
  · exact congrFun h4 0
  · exact congrFun h4 1
  · exact congrFun h4 2
  · exact congrFun h5 0
  · exact congrFun h5 1
  · exact congrFun h5 2

private theorem turn_velocity (Q : M3) (x : Fin 18 → ℝ) : velocityOf (turnEach 18 Q *ᵥ x) = Q *ᵥ velocityOf x := by
  funext k
  fin_cases k <;> simp [velocityOf, turnEach, Matrix.mulVec, dotProduct, Fin.sum_univ_succ]
private theorem turn_accel (Q : M3) (x : Fin 18 → ℝ) : accelOf (turnEach 18 Q *ᵥ x) = Q *ᵥ accelOf x := by
  funext k
  fin_cases k <;> simp [accelOf, turnEach, Matrix.mulVec, dotProduct, Fin.sum_univ_succ]
private theorem turn_rate (Q : M3) (x : Fin 18 → ℝ) : rateOf (turnEach 18 Q *ᵥ x) = Q *ᵥ rateOf x := by
  funext k
  fin_cases k <;> simp [rateOf, turnEach, Matrix.mulVec, dotProduct, Fin.sum_univ_succ]
private theorem turn_gravity (Q : M3) (x : Fin 18 → ℝ) : gravityOf (turnEach 18 Q *ᵥ x) = Q *ᵥ gravityOf x := by
  funext k
  fin_cases k <;> simp [gravityOf, turnEach, Matrix.mulVec, dotProduct, Fin.sum_univ_succ]
private theorem turn_biasA (Q : M3) (x : Fin 18 → ℝ) : biasA (turnEach 18 Q *ᵥ x) = Q *ᵥ biasA x := by
  funext k
  fin_cases k <;> simp [biasA, turnEach, Matrix.mulVec, dotProduct, Fin.sum_univ_succ]
private theorem turn_biasW (Q : M3) (x : Fin 18 → ℝ) : biasW (turnEach 18 Q *ᵥ x) = Q *ᵥ biasW x := by
  funext k
  fin_cases k <;> simp [biasW, turnEach, Matrix.mulVec, dotProduct, Fin.sum_univ_succ]


private theorem matrix_of_mulVec {a b : Nat} {A B : Matrix (Fin a) (Fin b) ℝ} (h : ∀ v, A *ᵥ v = B *ᵥ v) : A = B := by
  ext i j
  have := congrFun (h (Pi.single j 1)) i
  rwa [Matrix.mulVec_single_one, Matrix.mulVec_single_one] at this

private theorem turn_turn (h : IsRotation Q) : turnEach 18 Q * turnEach 18 Qᵀ = 1 := by
  refine matrix_of_mulVec (fun v => ?_)
  rw [← Matrix.mulVec_mulVec, Matrix.one_mulVec]
  refine ext18 ?_ ?_ ?_ ?_ ?_ ?_
  · rw [turn_velocity, turn_velocity, Matrix.mulVec_mulVec, h.orth', Matrix.one_mulVec]
  · rw [turn_accel, turn_accel, Matrix.mulVec_mulVec, h.orth', Matrix.one_mulVec]
  · rw [turn_rate, turn_rate, Matrix.mulVec_mulVec, h.orth', Matrix.one_mulVec]
  · rw [turn_gravity, turn_gravity, Matrix.mulVec_mulVec, h.orth', Matrix.one_mulVec]
  · rw [turn_biasA, turn_biasA, Matrix.mulVec_mulVec, h.orth', Matrix.one_mulVec]
  · rw [turn_biasW, turn_biasW, Matrix.mulVec_mulVec, h.orth', Matrix.one_mulVec]

private theorem turn_unit (h : IsRotation Q) : IsUnit (turnEach 18 Q).det := by
  have := congrArg Matrix.det (turn_turn h)
  rw [Matrix.det_mul, Matrix.det_one] at this
  exact IsUnit.of_mul_eq_one _ this

private theorem turn_noise (Q : M3) (q : Fin 15 → ℝ) : noisePart (turnEach 15 Q *ᵥ q) 0 = Q *ᵥ noisePart q 0 ∧
    noisePart (turnEach 15 Q *ᵥ q) 3 = Q *ᵥ noisePart q 3 ∧ noisePart (turnEach 15 Q *ᵥ q) 6 = Q *ᵥ noisePart q 6 ∧
    noisePart (turnEach 15 Q *ᵥ q) 9 = Q *ᵥ noisePart q 9 ∧ noisePart (turnEach 15 Q *ᵥ q) 12 = Q *ᵥ noisePart q 12 := by
  refine ⟨?_, ?_, ?_, ?_, ?_⟩ <;>
    (funext k; fin_cases k <;> simp [noisePart, turnEach, Matrix.mulVec, dotProduct, Fin.sum_univ_succ])

/-! ## The vocabulary for this change of axes -/

/-- Turning the body axes by `Q`: the states and the process noises are turned, the measurements are not. -/
def axesUnits (Q : M3) (h : IsRotation Q) : Units 18 0 15 sixDDims where
  T := turnEach 18 Q
  U := 1
  N := turnEach 15 Q
  D := fun _ => 1
  hT := turn_unit h
  hD := fun _ => by rw [Matrix.det_one]; exact isUnit_one

/-- The two system model objects: all states in use, the same flags, stationary functions that correspond, the noise
covariance turned, and Jacobians computed at corresponding states (or not computed yet). -/
structure AxesSys (Q : M3) (hQ : IsRotation Q) (s s' : SixDRates.Obj) : Prop where
  sized : s.Sized NonlinSysData.Sized 18 0
  sized' : s'.Sized NonlinSysData.Sized 18 0
  used : s.fm.stateUsage = List.replicate 18 true
  used' : s'.fm.stateUsage = List.replicate 18 true
  flags : s.ext = s'.ext
  fm : (axesUnits Q hQ).StationaryIn (axesUnits Q hQ).DataIn s.fm s'.fm
  Rp : CovIn (turnEach 15 Q) s.Rp s'.Rp
  G : (s.der.G = .identity 18 ∧ s'.der.G = .identity 18) ∨
    ∃ x dt, s.der.G = .of (jacobian 1 x dt) ∧ s'.der.G = .of (jacobian 1 (turnEach 18 Q *ᵥ x) dt)
  P : (s.P = .zero 18 15 ∧ s'.P = .zero 18 15) ∨
    ∃ x dt, s.P = .of (noise 0 x dt) ∧ s'.P = .of (noise 0 (turnEach 18 Q *ᵥ x) dt)

/-- `H()` of the two sensors for a mounting. -/
noncomputable def sensorH (b : Bool) (tf : Iso) : Matrix (Fin (sixDDims b)) (Fin 18) ℝ :=
  match b with
  | false => odomH 0 tf
  | true => imuH 0 tf

/-- The two objects of a sensor: mounted with `tf` and, seen from the new axes, with `tf.inAxes Q`. -/
structure AxesMeas (Q : M3) (hQ : IsRotation Q) (b : Bool) (m m' : TfMeas) : Prop where
  mounted : ∃ tf, TfState (sixDDims b) (sensorH b) m tf tf ∧ TfState (sixDDims b) (sensorH b) m' (tf.inAxes Q) (tf.inAxes Q)
  cov : ∃ R : Matrix (Fin (sixDDims b)) (Fin (sixDDims b)) ℝ, m.cov = .of R ∧ m'.cov = .of R
  fm : (axesUnits Q hQ).StationaryIn (VecIn ((axesUnits Q hQ).D b)) m.fm m'.fm

/-- All model objects. -/
def AxesEnv (Q : M3) (hQ : IsRotation Q) (e e' : Env Bool NonlinSysData SixDRates.Flags NonlinMeasData TfData) : Prop :=
  AxesSys Q hQ e.sys e'.sys ∧ ∀ b, AxesMeas Q hQ b (e.meas b) (e'.meas b)

/-! ## One update -/

private theorem turn_jacobian (h : IsRotation Q) (x : Fin 18 → ℝ) (dt : ℝ) :
    jacobian 1 (turnEach 18 Q *ᵥ x) dt * turnEach 18 Q = turnEach 18 Q * jacobian 1 x dt := by
  refine matrix_of_mulVec (fun v => ?_)
  rw [← Matrix.mulVec_mulVec, ← Matrix.mulVec_mulVec]
  obtain ⟨a1, a2, a3⟩ := jacobian_any (turnEach 18 Q *ᵥ x) (turnEach 18 Q *ᵥ v) dt
  obtain ⟨b1, b2, b3⟩ := jacobian_any x v dt
  have keep : ∀ (y : Fin 18 → ℝ) (w : Fin 18 → ℝ), (∀ i : Fin 18, 3 ≤ i.val → NotGravity i → y i = w i) →
      accelOf y = accelOf w ∧ rateOf y = rateOf w ∧ biasA y = biasA w ∧ biasW y = biasW w := by
    intro y w hw
    refine ⟨?_, ?_, ?_, ?_⟩
    · funext k; fin_cases k
      · exact hw 3 (by decide) (Or.inl (by decide))
      · exact hw 4 (by decide) (Or.inl (by decide))
      · exact hw 5 (by decide) (Or.inl (by decide))
    · funext k; fin_cases k
      · exact hw 6 (by decide) (Or.inl (by decide))
      · exact hw 7 (by decide) (Or.inl (by decide))
      · exact hw 8 (by decide) (Or.inl (by decide))
    · funext k; fin_cases k
      · exact hw 12 (by decide) (Or.inr (by decide))
      · exact hw 13 (by decide) (Or.inr (by decide))
      · exact hw 14 (by decide) (Or.inr (by decide))
    · funext k; fin_cases k
      · exact hw 15 (by decide) (Or.inr (by decide))
      · exact hw 16 (by decide) (Or.inr (by decide))
      · exact hw 17 (by decide) (Or.inr (by decide))
  obtain ⟨c1, c2, c3, c4⟩ := keep _ _ a1
  obtain ⟨d1, d2, d3, d4⟩ := keep _ _ b1
  refine ext18 ?_ ?_ ?_ ?_ ?_ ?_
  · rw [a2, turn_velocity, turn_accel, turn_velocity, b2, Matrix.mulVec_add, Matrix.mulVec_smul]
  · rw [c1, turn_accel, turn_accel, d1]
  · rw [c2, turn_rate, turn_rate, d2]
  · rw [a3, turn_gravity, turn_gravity, turn_rate, turn_rate, turn_gravity, b3, rotation_gravityGravity h,
      rotation_gravityRate h, Matrix.mulVec_add]
  · rw [c3, turn_biasA, turn_biasA, d3]
  · rw [c4, turn_biasW, turn_biasW, d4]

private theorem turn_noiseJ (h : IsRotation Q) (x : Fin 18 → ℝ) (dt : ℝ) :
    noise 0 (turnEach 18 Q *ᵥ x) dt * turnEach 15 Q = turnEach 18 Q * noise 0 x dt := by
  refine matrix_of_mulVec (fun q => ?_)
  rw [← Matrix.mulVec_mulVec, ← Matrix.mulVec_mulVec]
  obtain ⟨a1, a2, a3, a4, a5⟩ := noise_mulVec (turnEach 18 Q *ᵥ x) dt (turnEach 15 Q *ᵥ q)
  obtain ⟨b1, b2, b3, b4, b5⟩ := noise_mulVec x dt q
  obtain ⟨n1, n2, n3, n4, n5⟩ := turn_noise Q q
  have zero : ∀ y : Fin 18 → ℝ, (∀ i, IsBias i → y i = 0) → biasA y = 0 ∧ biasW y = 0 := by
    intro y hy
    constructor
    · funext k; fin_cases k
      · exact hy 12 (by unfold IsBias; decide)
      · exact hy 13 (by unfold IsBias; decide)
      · exact hy 14 (by unfold IsBias; decide)
    · funext k; fin_cases k
      · exact hy 15 (by unfold IsBias; decide)
      · exact hy 16 (by unfold IsBias; decide)
      · exact hy 17 (by unfold IsBias; decide)
  obtain ⟨c1, c2⟩ := zero _ a5
  obtain ⟨d1, d2⟩ := zero _ b5
  refine ext18 ?_ ?_ ?_ ?_ ?_ ?_
  · rw [a1, turn_velocity, b1, n1, n2, Matrix.mulVec_smul, Matrix.mulVec_add]
  · rw [a2, turn_accel, b2, n1, n2, Matrix.mulVec_smul, Matrix.mulVec_add]
  · rw [a3, turn_rate, b3, n3, n4, Matrix.mulVec_smul, Matrix.mulVec_add]
  · rw [a4, turn_gravity, turn_gravity, turn_rate, b4, n5, rotation_noiseGravity h]
  · rw [c1, turn_biasA, d1, Matrix.mulVec_zero]
  · rw [c2, turn_biasW, d2, Matrix.mulVec_zero]

private theorem used_all {s : SixDRates.Obj} (h : s.fm.stateUsage = List.replicate 18 true) : gravityUsed s = true ∧
    ∀ i : Nat, i < 3 → used s i = 1 := by
  constructor
  · unfold gravityUsed; rw [h]; rfl
  · intro i hi
    unfold used
    rw [h]
    interval_cases i <;> simp

private theorem predicted_all {s : SixDRates.Obj} (h : s.fm.stateUsage = List.replicate 18 true) (x : Fin 18 → ℝ) (dt : ℝ) :
    velocityOf (predicted s x dt) = velocityOf x + integrateVelocityRK4 dt (accelOf x) (rateOf x) 0 ∧
    accelOf (predicted s x dt) = accelOf x ∧ rateOf (predicted s x dt) = rateOf x ∧
    gravityOf (predicted s x dt) = (deltaQuaternion dt (rateOf x)).rot (gravityOf x) ∧
    biasA (predicted s x dt) = biasA x ∧ biasW (predicted s x dt) = biasW x := by
  obtain ⟨hg, hu⟩ := used_all h
  refine ⟨?_, ?_, ?_, ?_, ?_, ?_⟩
  · rw [← part_accel, ← part_rate]
    funext k
    fin_cases k <;> simp [velocityOf, predicted, hu]
  · funext k; fin_cases k <;> simp [accelOf, predicted]
  · funext k; fin_cases k <;> simp [rateOf, predicted]
  · rw [← part_rate, ← part_gravity x]
    funext k
    fin_cases k <;> simp [gravityOf, predicted, hg]
  · funext k; fin_cases k <;> simp [biasA, predicted]
  · funext k; fin_cases k <;> simp [biasW, predicted]

private theorem turn_predicted (hQ : IsRotation Q) {s s' : SixDRates.Obj} (h : s.fm.stateUsage = List.replicate 18 true)
    (h' : s'.fm.stateUsage = List.replicate 18 true) (x : Fin 18 → ℝ) (dt : ℝ) :
    predicted s' (turnEach 18 Q *ᵥ x) dt = turnEach 18 Q *ᵥ predicted s x dt := by
  obtain ⟨a1, a2, a3, a4, a5, a6⟩ := predicted_all h x dt
  obtain ⟨b1, b2, b3, b4, b5, b6⟩ := predicted_all h' (turnEach 18 Q *ᵥ x) dt
  refine ext18 ?_ ?_ ?_ ?_ ?_ ?_
  · rw [b1, turn_velocity, turn_accel, turn_rate, rotation_rk4 hQ, turn_velocity, a1, Matrix.mulVec_add]
  · rw [b2, turn_accel, turn_accel, a2]
  · rw [b3, turn_rate, turn_rate, a3]
  · rw [b4, turn_rate, turn_gravity, rotation_rot hQ, turn_gravity, a4]
  · rw [b5, turn_biasA, turn_biasA, a5]
  · rw [b6, turn_biasW, turn_biasW, a6]

private theorem AxesSys.shape {hQ : IsRotation Q} {s s' : SixDRates.Obj} (h : AxesSys Q hQ s s') : SixDRates.Shape s ∧ SixDRates.Shape s' := by
  obtain ⟨M, e, e'⟩ := h.Rp
  exact ⟨⟨h.sized.states, h.sized.controls, by rw [e]⟩, ⟨h.sized'.states, h.sized'.controls, by rw [e']⟩⟩

private theorem identity_of (n : Nat) : DMat.identity n = .of (1 : Matrix (Fin n) (Fin n) ℝ) := rfl
private theorem zero_of (a b : Nat) : DMat.zero a b = .of (0 : Matrix (Fin a) (Fin b) ℝ) := rfl

private theorem axes_update (hQ : IsRotation Q) {s s' : SixDRates.Obj} (h : AxesSys Q hQ s s') (x : Fin 18 → ℝ) {u u' : DVec}
    (hu : u.size = 0) (hu' : u'.size = 0) (dt : ℝ) : ∃ r r', s.update cls (.of x) u dt = some r ∧
      s'.update cls (.of (turnEach 18 Q *ᵥ x)) u' dt = some r' ∧ AxesSys Q hQ r r' ∧
      r.der.g = .of (predicted s x dt) ∧ r'.der.g = .of (turnEach 18 Q *ᵥ predicted s x dt) := by
  obtain ⟨sh, sh'⟩ := h.shape
  obtain ⟨r, k1, k2, k3, k4, k5, k6, k7⟩ := myUpdate_of s h.sized sh.2.2 x u dt
  obtain ⟨r', l1, l2, l3, l4, l5, l6, l7⟩ := myUpdate_of s' h.sized' sh'.2.2 (turnEach 18 Q *ᵥ x) u' dt
  have up : ∀ {s r : SixDRates.Obj} {x u}, SixDRates.Shape s → s.Sized NonlinSysData.Sized 18 0 → u.size = 0 →
      myUpdate s (.of (n := 18) x) u dt = some r → s.update cls (.of x) u dt = some r := by
    intro s r x u a b c d
    unfold Sys.update
    rw [if_pos ⟨b.states.symm, by rw [c]; exact b.controls.symm⟩]
    show (open Classical in if SixDRates.Shape s then myUpdate s (.of x) u dt else some s) = _
    rw [if_pos a, d]
  have g0 : ∀ {s r : SixDRates.Obj} {x u}, myUpdate s x u dt = some r →
      (s.ext.computeJacobian = false → r.der.G = s.der.G) ∧ (s.ext.updateCovariance = false → r.P = s.P) := by
    intro s r x u e
    unfold myUpdate at e
    constructor
    · intro hf
      cases hg : s.ext.updateCovariance <;>
        simp only [hf, hg, Bool.false_eq_true, if_false, if_true, Option.bind_eq_bind, Option.bind_eq_some_iff, Option.bind_some] at e
      · obtain ⟨xp, _, e⟩ := e
        cases e; rfl
      · obtain ⟨xp, _, P, _, e⟩ := e
        cases e; rfl
    · intro hf
      cases hg : s.ext.computeJacobian <;>
        simp only [hf, hg, Bool.false_eq_true, if_false, if_true, Option.bind_eq_bind, Option.bind_eq_some_iff, Option.bind_some] at e
      · obtain ⟨xp, _, e⟩ := e
        cases e; rfl
      · obtain ⟨xp, _, G, _, e⟩ := e
        cases e; rfl
  refine ⟨r, r', up sh h.sized hu k1, up sh' h.sized' hu' l1, ⟨k2, l2, by rw [k3.fm]; exact h.used, by rw [l3.fm]; exact h.used',
    by rw [k4, l4]; exact h.flags, by rw [k3.fm, l3.fm]; exact h.fm, by rw [k3.Rp, l3.Rp]; exact h.Rp, ?_, ?_⟩, k5, ?_⟩
  · cases hj : s.ext.computeJacobian with
    | false => rw [(g0 k1).1 hj, (g0 l1).1 (by rw [← h.flags]; exact hj)]; exact h.G
    | true =>
      refine Or.inr ⟨x, dt, ?_⟩
      have a := k6 hj
      have b := l6 (by rw [← h.flags]; exact hj)
      rcases h.G with ⟨e, e'⟩ | ⟨x0, d0, e, e'⟩
      · rw [e, identity_of, updateJacobian_of] at a
        rw [e', identity_of, updateJacobian_of] at b
        exact ⟨(Option.some.inj a).symm, (Option.some.inj b).symm⟩
      · rw [e, updateJacobian_of, jacobian_again] at a
        rw [e', updateJacobian_of, jacobian_again] at b
        exact ⟨(Option.some.inj a).symm, (Option.some.inj b).symm⟩
  · cases hj : s.ext.updateCovariance with
    | false => rw [(g0 k1).2 hj, (g0 l1).2 (by rw [← h.flags]; exact hj)]; exact h.P
    | true =>
      refine Or.inr ⟨x, dt, ?_⟩
      have a := k7 hj
      have b := l7 (by rw [← h.flags]; exact hj)
      rcases h.P with ⟨e, e'⟩ | ⟨x0, d0, e, e'⟩
      · rw [e, zero_of, updateNoise_of] at a
        rw [e', zero_of, updateNoise_of] at b
        exact ⟨(Option.some.inj a).symm, (Option.some.inj b).symm⟩
      · rw [e, updateNoise_of, noise_again] at a
        rw [e', updateNoise_of, noise_again] at b
        exact ⟨(Option.some.inj a).symm, (Option.some.inj b).symm⟩
  · rw [l5, turn_predicted hQ h.used h.used']

private theorem AxesSys.mats {hQ : IsRotation Q} {s s' : SixDRates.Obj} (h : AxesSys Q hQ s s') :
    MatIn (turnEach 18 Q) (turnEach 18 Q) s.der.G s'.der.G ∧ MatIn (turnEach 18 Q) (turnEach 15 Q) s.P s'.P ∧
    MatIn (turnEach 18 Q) (1 : Matrix (Fin 0) (Fin 0) ℝ) s.V s'.V ∧ CovIn (1 : Matrix (Fin 0) (Fin 0) ℝ) s.Rc s'.Rc := by
  refine ⟨?_, ?_, ?_, ?_⟩
  · rcases h.G with ⟨e, e'⟩ | ⟨x0, d0, e, e'⟩
    · exact ⟨1, 1, e, e', by rw [Matrix.one_mul, Matrix.mul_one]⟩
    · exact ⟨_, _, e, e', turn_jacobian hQ x0 d0⟩
  · rcases h.P with ⟨e, e'⟩ | ⟨x0, d0, e, e'⟩
    · exact ⟨0, 0, e, e', by rw [Matrix.zero_mul, Matrix.mul_zero]⟩
    · exact ⟨_, _, e, e', turn_noiseJ hQ x0 d0⟩
  · obtain ⟨V, e⟩ := h.sized.V.exists_of
    obtain ⟨V', e'⟩ := h.sized'.V.exists_of
    exact ⟨V, V', e, e', by ext i j; exact j.elim0⟩
  · obtain ⟨V, e⟩ := h.sized.Rc.exists_of
    obtain ⟨V', e'⟩ := h.sized'.Rc.exists_of
    exact ⟨V, e, by rw [e', DMat.of_inj]; ext i j; exact j.elim0⟩

/-! ## The sensors -/

private theorem odom_axes (h : IsRotation Q) (tf : Iso) (x : Fin 18 → ℝ) :
    odomOf (tf.inAxes Q) (turnEach 18 Q *ᵥ x) = odomOf tf x := by
  unfold odomOf transformLinearVelocity Iso.inAxes
  dsimp only
  rw [turn_velocity, turn_rate]
  simp only [Matrix.mulVec_mulVec, Matrix.mul_assoc, h.orth, Matrix.mul_one]

private theorem imu_axes (h : IsRotation Q) (tf : Iso) (x : Fin 18 → ℝ) :
    imuOf (tf.inAxes Q) (turnEach 18 Q *ᵥ x) = imuOf tf x := by
  have ea : ∀ y : Fin 18 → ℝ, (![y 12, y 13, y 14] : V3) = biasA y := fun _ => rfl
  have ew : ∀ y : Fin 18 → ℝ, (![y 15, y 16, y 17] : V3) = biasW y := fun _ => rfl
  unfold imuOf Iso.inAxes
  rw [ea, ew, ea, ew, turn_accel, turn_gravity, turn_biasA, turn_biasW, turn_rate, ← Matrix.mulVec_sub, ← Matrix.mulVec_add,
    ← Matrix.mulVec_sub]
  simp only [Matrix.mulVec_mulVec, Matrix.mul_assoc, h.orth, Matrix.mul_one]

/-- What the sensor predicts. -/
private noncomputable def sensorOf (b : Bool) (tf : Iso) (x : Fin 18 → ℝ) : Fin (sixDDims b) → ℝ :=
  match b with
  | false => odomOf tf x
  | true => imuOf tf x

private theorem sensor_axes (h : IsRotation Q) (b : Bool) (tf : Iso) (x : Fin 18 → ℝ) :
    sensorOf b (tf.inAxes Q) (turnEach 18 Q *ᵥ x) = sensorOf b tf x := by
  cases b
  · exact odom_axes h tf x
  · exact imu_axes h tf x

private theorem sensorH_mulVec (b : Bool) (tf : Iso) (x : Fin 18 → ℝ) : sensorH b tf *ᵥ x = sensorOf b tf x := by
  cases b
  · exact odomH_mulVec tf x
  · exact imuH_mulVec tf x

private theorem sensorH_axes (h : IsRotation Q) (b : Bool) (tf : Iso) :
    sensorH b (tf.inAxes Q) * turnEach 18 Q = (1 : Matrix (Fin (sixDDims b)) (Fin (sixDDims b)) ℝ) * sensorH b tf := by
  refine matrix_of_mulVec (fun v => ?_)
  rw [← Matrix.mulVec_mulVec, Matrix.one_mul, sensorH_mulVec, sensor_axes h, sensorH_mulVec]

private theorem sensor_update {b : Bool} {m : TfMeas} {tf eff : Iso} (h : TfState (sixDDims b) (sensorH b) m tf eff) (x : Fin 18 → ℝ)
    (dt : ℝ) : m.update (sixDSensors b) (.of x) dt = some { m with der := { m.der with h := .of (sensorOf b tf x) } } := by
  cases b
  · exact odom_update h x dt
  · exact imu_update h x dt

private theorem sensor_sub (b : Bool) (m : TfMeas) (a c : DVec) : (sixDSensors b).sub m a c = a.sub c := by
  cases b <;> rfl

/-! ## Every call -/

private theorem both_of {α β : Type} {R : α → β → Prop} {a : Option α} {b : Option β} (h : OptRel False R a b) : Both R a b := by
  cases a <;> cases b <;> simp_all [Both, OptRel]

private theorem vecIn_one {k : Nat} {z z' : DVec} (h : VecIn (1 : Matrix (Fin k) (Fin k) ℝ) z z') : z.size = k ∧ z' = z := by
  obtain ⟨v, rfl, rfl⟩ := h
  exact ⟨rfl, by rw [Matrix.one_mulVec]⟩

private theorem axes_setMeas {hQ : IsRotation Q} {e e' : Env Bool NonlinSysData SixDRates.Flags NonlinMeasData TfData}
    (he : AxesEnv Q hQ e e') (b : Bool) {r r' : TfMeas} (hr : AxesMeas Q hQ b r r') :
    AxesEnv Q hQ (e.setMeas b r) (e'.setMeas b r') := by
  refine ⟨he.1, fun j => ?_⟩
  show AxesMeas Q hQ j ((e.setMeas b r).meas j) ((e'.setMeas b r').meas j)
  unfold Env.setMeas
  dsimp only
  by_cases hj : j = b
  · subst hj; rw [if_pos rfl, if_pos rfl]; exact hr
  · rw [if_neg hj, if_neg hj]; exact he.2 j

private theorem axes_add (hQ : IsRotation Q) {s : SixDRates.Obj} {s' : SixDRates.Obj} (hs : SixDRates.Shape s) (hs' : SixDRates.Shape s')
    {x x' d d' : DVec} (hx : VecIn (turnEach 18 Q) x x') (hd : VecIn (turnEach 18 Q) d d') :
    ∃ r r', cls.add s x d = some r ∧ cls.add s' x' d' = some r' ∧ VecIn (turnEach 18 Q) r r' := by
  obtain ⟨x, rfl, rfl⟩ := hx
  obtain ⟨d, rfl, rfl⟩ := hd
  have e : ∀ {s : SixDRates.Obj} {a b : DVec}, SixDRates.Shape s → cls.add s a b = addState a b := by
    intro s a b h
    show (open Classical in if SixDRates.Shape s then addState a b else _) = _
    rw [if_pos h]
  rw [e hs, e hs', addState_of, addState_of]
  refine ⟨_, _, rfl, rfl, _, rfl, ?_⟩
  rw [DVec.of_inj, ← Matrix.mulVec_add, part_gravity, part_gravity, turn_gravity, rotation_rescaled hQ]
  generalize x + d = y
  have w : ∀ (y : Fin 18 → ℝ) (g : V3), velocityOf (withGravity y g) = velocityOf y ∧ accelOf (withGravity y g) = accelOf y ∧
      rateOf (withGravity y g) = rateOf y ∧ gravityOf (withGravity y g) = g ∧ biasA (withGravity y g) = biasA y ∧
      biasW (withGravity y g) = biasW y := by
    intro y g
    refine ⟨?_, ?_, ?_, ?_, ?_, ?_⟩ <;> funext k <;>
      fin_cases k <;> simp [velocityOf, accelOf, rateOf, gravityOf, biasA, biasW, withGravity]
  obtain ⟨a1, a2, a3, a4, a5, a6⟩ := w (turnEach 18 Q *ᵥ y) (Q *ᵥ rescaled (gravityOf y))
  obtain ⟨b1, b2, b3, b4, b5, b6⟩ := w y (rescaled (gravityOf y))
  refine ext18 ?_ ?_ ?_ ?_ ?_ ?_
  · rw [a1, turn_velocity, turn_velocity, b1]
  · rw [a2, turn_accel, turn_accel, b2]
  · rw [a3, turn_rate, turn_rate, b3]
  · rw [a4, turn_gravity, b4]
  · rw [a5, turn_biasA, turn_biasA, b5]
  · rw [a6, turn_biasW, turn_biasW, b6]

private theorem make_rel {hQ : IsRotation Q} {R : DVec → DVec → Prop} {f f' : FilterModel}
    (h : (axesUnits Q hQ).StationaryIn R f f') {x c x' c'} (hx : (axesUnits Q hQ).StateIn x c x' c') :
    OptRel False (fun r q => (axesUnits Q hQ).StateIn r.1 r.2 q.1 q.2) (f.makeStationary x c) (f'.makeStationary x' c') := by
  have := h.make _ _ _ _ hx
  generalize f.makeStationary _ _ = a at this ⊢
  generalize f'.makeStationary _ _ = b at this ⊢
  cases a <;> cases b <;> simp only [OptRel] at this ⊢
  · exact fun h => h
  · exact this

private theorem axes_rel (hQ : IsRotation Q) :
    PlantRel (ekfPlant cls sixDSensors) (ekfPlant cls sixDSensors) False (axesUnits Q hQ).StateIn (AxesEnv Q hQ)
      (VecIn (axesUnits Q hQ).U) (CovIn (axesUnits Q hQ).U)
      (fun z c z' c' b => VecIn ((axesUnits Q hQ).D b) z z' ∧ CovIn ((axesUnits Q hQ).D b) c c') where
  empty := rfl
  empty' := rfl
  rc e e' he := he.1.mats.2.2.2
  zero e e' he := by
    show VecIn (1 : Matrix (Fin 0) (Fin 0) ℝ) (.zero e.sys.controlDims) (.zero e'.sys.controlDims)
    rw [he.1.sized.controls, he.1.sized'.controls]
    exact ⟨0, rfl, by rw [Matrix.mulVec_zero]; rfl⟩
  setRc e e' c c' he hc := by
    obtain ⟨M, rfl, rfl⟩ := hc
    show OptRel False _ ((e.sys.setControlCovariance _).map _) ((e'.sys.setControlCovariance _).map _)
    unfold Sys.setControlCovariance
    rw [if_pos ⟨he.1.sized.controls.symm, he.1.sized.controls.symm⟩, if_pos ⟨he.1.sized'.controls.symm, he.1.sized'.controls.symm⟩]
    have h := he.1
    exact ⟨⟨⟨h.sized.states, h.sized.controls, h.sized.der, h.sized.P, h.sized.Rp, h.sized.V, ⟨rfl, rfl⟩⟩,
      ⟨h.sized'.states, h.sized'.controls, h.sized'.der, h.sized'.P, h.sized'.Rp, h.sized'.V, ⟨rfl, rfl⟩⟩, h.used, h.used', h.flags,
      h.fm, h.Rp, h.G, h.P⟩, he.2⟩
  sysSt e e' x c x' c' d d' he hx hd := by
    show (e.sys.fm.checkStationary && e.sys.fm.isStationary x d) = (e'.sys.fm.checkStationary && e'.sys.fm.isStationary x' d')
    rw [he.1.fm.check, he.1.fm.is x c x' c' d d' hx (by
      rcases hd with ⟨h1, _, h3⟩ | h
      · exact Or.inl ⟨h1, h3⟩
      · exact Or.inr h)]
  predict e e' x c x' c' v v' dt he hx hv := by
    obtain ⟨y, rfl, rfl⟩ := hx.1
    obtain ⟨w, rfl, rfl⟩ := hv
    obtain ⟨r, r', k1, k2, k3, k4, k5⟩ := axes_update hQ he.1 y (u := .of w) (u' := .of ((1 : Matrix (Fin 0) (Fin 0) ℝ) *ᵥ w)) rfl rfl dt
    obtain ⟨m1, m2, m3, m4⟩ := k3.mats
    obtain ⟨q, q', e4, e4', hq⟩ := units_propagate (axesUnits Q hQ) m1 hx.2 m2 k3.Rp m3 m4
    show OptRel False _ (ekfPredict cls e.sys _ c _ dt _) (ekfPredict cls e'.sys _ c' _ dt _)
    unfold ekfPredict
    have k2' : e'.sys.update cls (.of ((axesUnits Q hQ).T *ᵥ y)) (.of ((axesUnits Q hQ).U *ᵥ w)) dt = some r' := k2
    simp only [Option.bind_eq_bind, k1, k2', Option.bind_some, e4, e4']
    exact ⟨⟨⟨_, k4, k5⟩, hq⟩, k3, he.2⟩
  sysStationary e e' x c x' c' d d' he hx hd _ := ⟨he, make_rel he.1.fm hx⟩
  setMeasCov e e' b z c z' c' he hz := by
    obtain ⟨hz, M, rfl, rfl⟩ := hz
    have eM : ((axesUnits Q hQ).D b * M * ((axesUnits Q hQ).D b)ᵀ) = M := by
      show (1 : Matrix (Fin (sixDDims b)) (Fin (sixDDims b)) ℝ) * M * 1ᵀ = M
      rw [Matrix.transpose_one, Matrix.one_mul, Matrix.mul_one]
    rw [eM]
    have hk := he.2 b
    obtain ⟨tf, s1, s2⟩ := hk.mounted
    show OptRel False _ (((e.meas b).setCovariance _).map _) (((e'.meas b).setCovariance _).map _)
    unfold Meas.setCovariance
    rw [if_pos ⟨s1.meas.symm, s1.meas.symm⟩, if_pos ⟨s2.meas.symm, s2.meas.symm⟩]
    have hk1 : AxesMeas Q hQ b { e.meas b with cov := .of M } { e'.meas b with cov := .of M } :=
      ⟨⟨tf, ⟨s1.states, s1.meas, s1.hsize, s1.tfEq, s1.tfSet, s1.jac, s1.H⟩,
        ⟨s2.states, s2.meas, s2.hsize, s2.tfEq, s2.tfSet, s2.jac, s2.H⟩⟩, ⟨M, rfl, rfl⟩, hk.fm⟩
    have he1 := axes_setMeas he b hk1
    refine ⟨he1, ?_, ?_, ?_⟩
    · intro x q x' q' hx
      have := (he1.2 b).fm
      show ((_ : FilterModel).checkStationary && FilterModel.isStationary _ x z) = (FilterModel.checkStationary _ && FilterModel.isStationary _ x' z')
      rw [this.check, this.is x q x' q' z z' hx hz]
    · intro x q x' q' dt hx
      have hb := he1.2 b
      generalize hr : (e.setMeas b { e.meas b with cov := .of M }) = e1 at he1 hb ⊢
      generalize hr' : (e'.setMeas b { e'.meas b with cov := .of M }) = e1' at he1 hb ⊢
      obtain ⟨y, rfl, rfl⟩ := hx.1
      obtain ⟨tf, s1, s2⟩ := hb.mounted
      obtain ⟨R, c1, c2⟩ := hb.cov
      show OptRel False _ (ekfCorrect cls (sixDSensors b) e1.sys (e1.meas b) _ q z dt _)
        (ekfCorrect cls (sixDSensors b) e1'.sys (e1'.meas b) _ q' z' dt _)
      unfold ekfCorrect
      have k1 := sensor_update s1 y dt
      have k2 : (e1'.meas b).update (sixDSensors b) (.of ((axesUnits Q hQ).T *ᵥ y)) dt = _ :=
        sensor_update s2 (turnEach 18 Q *ᵥ y) dt
      rw [sensor_axes hQ] at k2
      simp only [Option.bind_eq_bind, k1, k2, Option.bind_some, sensor_sub]
      obtain ⟨sh, sh'⟩ := he1.1.shape
      refine units_correct (axesUnits Q hQ) ((axesUnits Q hQ).D b) ((axesUnits Q hQ).hD b) (add := cls.add e1.sys)
        (add' := cls.add e1'.sys) (fun d d' hd => axes_add hQ sh sh' hx.1 hd) hx.1 hx.2 hz ⟨_, rfl, ?_⟩
        ⟨_, _, s1.H, s2.H, sensorH_axes hQ b tf⟩ ⟨R, c1, ?_⟩ ?_
      · rw [DVec.of_inj]; exact (Matrix.one_mulVec _).symm
      · rw [c2, DMat.of_inj]
        show R = (1 : Matrix (Fin (sixDDims b)) (Fin (sixDDims b)) ℝ) * R * 1ᵀ
        rw [Matrix.transpose_one, Matrix.one_mul, Matrix.mul_one]
      · refine axes_setMeas he1 b ⟨⟨tf, ⟨s1.states, s1.meas, rfl, s1.tfEq, s1.tfSet, s1.jac, s1.H⟩,
          ⟨s2.states, s2.meas, rfl, s2.tfEq, s2.tfSet, s2.jac, s2.H⟩⟩, ⟨R, c1, c2⟩, hb.fm⟩
    · intro x q x' q' hx _
      have key : ∀ (m : TfMeas) a z, (sixDSensors b).processStationary m a z = some m := by cases b <;> intros <;> rfl
      show OptRel False _ (((sixDSensors b).processStationary _ _ _).map _) (((sixDSensors b).processStationary _ _ _).map _)
      rw [key, key]
      have he2 := axes_setMeas he1 b (he1.2 b)
      exact ⟨he2, make_rel (he2.2 b).fm hx⟩

/-- **C126.** Two EKFs with the 6-D rates model, the odometry and the IMU describe the same vehicle, the second one in body
axes turned by `Q`: initial estimate `(T x, T P Tᵀ)`, process noise covariance `N Rp Nᵀ`, sensor mountings `R Qᵀ`, and every
call the same call (the measurements and their covariances are not turned; `initialize` gets the turned estimate).  Then
either both runs abort, or they end at the same time and everything the second filter holds is the first one's in the new
axes. -/
theorem C126_body_axes (Q : M3) (hQ : IsRotation Q)
    (sort : List (FilterInput ℝ DVec DMat Bool) → List (FilterInput ℝ DVec DMat Bool)) (hsort : SameSort sort sort)
    (params : Params ℝ) (e e' : Env Bool NonlinSysData SixDRates.Flags NonlinMeasData TfData) (he : AxesEnv Q hQ e e')
    (x : Fin 18 → ℝ) (c : Matrix (Fin 18) (Fin 18) ℝ) (t : ℝ)
    (ops ops' : List (Op ℝ DVec DMat Bool (Env Bool NonlinSysData SixDRates.Flags NonlinMeasData TfData)))
    (hops : List.Forall₂ ((axesUnits Q hQ).CallIn (AxesEnv Q hQ)) ops ops') :
    Both (fun f g => f.getStateTime = g.getStateTime ∧
        (∃ y C, f.getState = .of y ∧ f.getCovariance = .of C ∧ g.getState = .of (turnEach 18 Q *ᵥ y) ∧
          g.getCovariance = .of (turnEach 18 Q * C * (turnEach 18 Q)ᵀ)) ∧
        AxesEnv Q hQ f.env g.env ∧ List.Forall₂ (fun s s' => s.timestamp = s'.timestamp ∧
          ∃ y C, s.x = .of y ∧ s.covariance = .of C ∧ s'.x = .of (turnEach 18 Q *ᵥ y) ∧
            s'.covariance = .of (turnEach 18 Q * C * (turnEach 18 Q)ᵀ)) f.history g.history)
      ((Filter.construct (ekfPlant cls sixDSensors) params e (.of x) (.of c) t).run (ekfPlant cls sixDSensors) sort ops)
      ((Filter.construct (ekfPlant cls sixDSensors) params e' (.of (turnEach 18 Q *ᵥ x))
        (.of (turnEach 18 Q * c * (turnEach 18 Q)ᵀ)) t).run (ekfPlant cls sixDSensors) sort ops') := by
  have key := (axes_rel hQ).run hsort
    { params := params
      state := { x := (ekfPlant cls sixDSensors).emptyV, covariance := (ekfPlant cls sixDSensors).emptyM, timestamp := TimeOps.zero,
                 prevInput := FilterInput.default (ekfPlant cls sixDSensors) }
      prevControl := (ekfPlant cls sixDSensors).emptyV
      prevControlCov := (ekfPlant cls sixDSensors).emptyM
      env := e, history := [], controlQueue := [], measQueue := [] }
    { params := params
      state := { x := (ekfPlant cls sixDSensors).emptyV, covariance := (ekfPlant cls sixDSensors).emptyM, timestamp := TimeOps.zero,
                 prevInput := FilterInput.default (ekfPlant cls sixDSensors) }
      prevControl := (ekfPlant cls sixDSensors).emptyV
      prevControlCov := (ekfPlant cls sixDSensors).emptyM
      env := e', history := [], controlQueue := [], measQueue := [] } rfl he (Or.inr ⟨rfl, rfl⟩) (.of x) (.of c)
    (.of (turnEach 18 Q *ᵥ x)) (.of (turnEach 18 Q * c * (turnEach 18 Q)ᵀ)) t ⟨⟨x, rfl, rfl⟩, ⟨c, rfl, rfl⟩⟩
    (hops.imp (fun _ _ h => units_call h))
  have conv : ∀ {y c y' c'}, (axesUnits Q hQ).StateIn y c y' c' → ∃ z C, y = .of z ∧ c = .of C ∧ y' = .of (turnEach 18 Q *ᵥ z) ∧
      c' = .of (turnEach 18 Q * C * (turnEach 18 Q)ᵀ) := by
    rintro y c y' c' ⟨⟨z, rfl, rfl⟩, C, rfl, rfl⟩
    exact ⟨z, C, rfl, rfl, rfl, rfl⟩
  refine both_of (OptRel.mono key ?_)
  rintro f g ⟨_, h2, _, h4⟩
  obtain ⟨h5, h6⟩ := SimRel.forall₂_concat (l := f.history) (l' := g.history) h4
  exact ⟨h6.1, conv h6.2, h2, h5.imp (fun s s' h => ⟨h.1, conv h.2⟩)⟩

/-! ## Setting the two filters up, and changing the set-up -/

/-- The models of one vehicle: flags, process noise covariance, the mountings of the sensors. -/
structure Rig where
  flags : SixDRates.Flags
  Rp : Matrix (Fin 15) (Fin 15) ℝ
  odom : Iso
  imu : Iso

/-- The same rig in the new axes. -/
def Rig.inAxes (Q : M3) (r : Rig) : Rig where
  flags := r.flags
  Rp := turnEach 15 Q * r.Rp * (turnEach 15 Q)ᵀ
  odom := r.odom.inAxes Q
  imu := r.imu.inAxes Q

/-- What the program does to set the models up: construct them, `setProcessCovariance`, `setTf`. -/
noncomputable def Rig.env (r : Rig) : Option (Env Bool NonlinSysData SixDRates.Flags NonlinMeasData TfData) := do
  let sys ← (SixDRates.construct r.flags.computeJacobian r.flags.updateCovariance).setProcessCovariance (.of r.Rp)
  let odom ← SixDRatesOdom.construct true
  let odom ← odom.setTf SixDRatesOdom.postTfUpdate r.odom
  let imu ← SixDRatesImu.construct true
  let imu ← imu.setTf SixDRatesImu.postTfUpdate r.imu
  some { sys := sys, meas := fun b => if b then imu else odom }

private theorem stationary_default (hQ : IsRotation Q) (R : DVec → DVec → Prop) {f f' : FilterModel} (h : f.checkStationary = f'.checkStationary)
    (h1 : f.isStationary = f'.isStationary) (h2 : ∀ x d y d', f.isStationary x d = f.isStationary y d')
    (h3 : ∀ x c, f.makeStationary x c = some (x, c)) (h4 : ∀ x c, f'.makeStationary x c = some (x, c)) :
    (axesUnits Q hQ).StationaryIn R f f' where
  check := h
  is _ _ _ _ _ _ _ _ := by rw [← h1]; exact h2 _ _ _ _
  make x c x' c' hx := by rw [h3, h4]; exact hx

open Classical in
private theorem setTf_fm {post : TfMeas → Option TfMeas} (hp : ∀ m m', post m = some m' → m'.fm = m.fm ∧ m'.cov = m.cov)
    {m m' : TfMeas} {tf : Iso} (h : m.setTf post tf = some m') : m'.fm = m.fm ∧ m'.cov = m.cov := by
  unfold TfMeas.setTf at h
  dsimp only at h
  split at h
  · obtain ⟨a, b⟩ := hp _ _ h
    exact ⟨a, b⟩
  · cases h; exact ⟨rfl, rfl⟩

/-- `postTfUpdate` of the two sensors. -/
noncomputable def sensorPost (b : Bool) : TfMeas → Option TfMeas :=
  match b with
  | false => SixDRatesOdom.postTfUpdate
  | true => SixDRatesImu.postTfUpdate

private theorem sensor_post (b : Bool) (m : TfMeas) (hj : m.ext.computeJacobian = true) (t0 : Iso) (hH : m.der.H = .of (sensorH b t0)) :
    sensorPost b m = some { m with der := { m.der with H := .of (sensorH b m.ext.tf) } } := by
  cases b
  · have := odom_post m hj (odomH 0 t0) hH
    rw [odomH_again] at this
    exact this
  · have := imu_post m hj (imuH 0 t0) hH
    rw [imuH_again] at this
    exact this

open Classical in
private theorem sensor_setTf (b : Bool) {m : TfMeas} {t0 tf : Iso} (h : TfState (sixDDims b) (sensorH b) m t0 t0)
    (hm : ¬ IsIdentity tf ∨ IsIdentity t0) : ∃ m', m.setTf (sensorPost b) tf = some m' ∧
      TfState (sixDDims b) (sensorH b) m' tf tf ∧ m'.fm = m.fm ∧ m'.cov = m.cov := by
  unfold TfMeas.setTf
  by_cases hi : IsIdentity tf
  · have hd : (!decide (tf.R = 1 ∧ tf.t = 0)) = false := by
      rw [decide_eq_true (show tf.R = 1 ∧ tf.t = 0 from hi)]; rfl
    simp only [hd, Bool.false_eq_true, if_false]
    refine ⟨_, rfl, ⟨h.states, h.meas, h.hsize, rfl, iff_of_false (by simp) (fun hc => hc hi), h.jac, ?_⟩, rfl, rfl⟩
    have e : t0 = tf := by
      rcases hm with hm | hm
      · exact absurd hi hm
      · rw [identity_eq hm, identity_eq hi]
    rw [← e]; exact h.H
  · have hd : (!decide (tf.R = 1 ∧ tf.t = 0)) = true := by
      rw [decide_eq_false (show ¬ (tf.R = 1 ∧ tf.t = 0) from hi)]; rfl
    simp only [hd, if_true]
    rw [sensor_post b { m with ext := { m.ext with tf := tf, tfSet := true } } h.jac t0 h.H]
    exact ⟨_, rfl, ⟨h.states, h.meas, h.hsize, rfl, iff_of_true rfl hi, h.jac, rfl⟩, rfl, rfl⟩

private theorem sensor_made (b : Bool) : ∃ m : TfMeas, (match b with | false => SixDRatesOdom.construct true | true => SixDRatesImu.construct true) = some m ∧
    TfState (sixDDims b) (sensorH b) m Iso.identity Iso.identity ∧ m.fm = FilterModel.construct 18 ∧ m.cov = .zero (sixDDims b) (sixDDims b) := by
  cases b
  · have h0 := odom_post (Meas.constructNonlinear SixDRates.DIMS 4 ⟨Iso.identity, false, true⟩) rfl 0 rfl
    exact ⟨_, h0, ⟨rfl, rfl, rfl, rfl, iff_of_false (fun h => Bool.noConfusion h) (fun h => h ⟨rfl, rfl⟩), rfl, rfl⟩, rfl, rfl⟩
  · have h0 := imu_post (Meas.constructNonlinear SixDRates.DIMS 6 ⟨Iso.identity, false, true⟩) rfl 0 rfl
    exact ⟨_, h0, ⟨rfl, rfl, rfl, rfl, iff_of_false (fun h => Bool.noConfusion h) (fun h => h ⟨rfl, rfl⟩), rfl, rfl⟩, rfl, rfl⟩

/-- **C126 (set-up).** Setting up the models of a vehicle and those of the same vehicle in the new axes gives corresponding
models. -/
theorem C126_setup (Q : M3) (hQ : IsRotation Q) (r : Rig) : ∃ e e', r.env = some e ∧ (r.inAxes Q).env = some e' ∧ AxesEnv Q hQ e e' := by
  obtain ⟨o, ho, so, fo, co⟩ := sensor_made false
  obtain ⟨i, hi, si, fi, ci⟩ := sensor_made true
  obtain ⟨o1, k1, s1, f1, c1⟩ := sensor_setTf false (tf := r.odom) so (Or.inr ⟨rfl, rfl⟩)
  obtain ⟨o2, k2, s2, f2, c2⟩ := sensor_setTf false (tf := r.odom.inAxes Q) so (Or.inr ⟨rfl, rfl⟩)
  obtain ⟨i1, l1, t1, g1, d1⟩ := sensor_setTf true (tf := r.imu) si (Or.inr ⟨rfl, rfl⟩)
  obtain ⟨i2, l2, t2, g2, d2⟩ := sensor_setTf true (tf := r.imu.inAxes Q) si (Or.inr ⟨rfl, rfl⟩)
  have ho : SixDRatesOdom.construct true = some o := ho
  have hi : SixDRatesImu.construct true = some i := hi
  have k1 : o.setTf SixDRatesOdom.postTfUpdate r.odom = some o1 := k1
  have k2 : o.setTf SixDRatesOdom.postTfUpdate (r.odom.inAxes Q) = some o2 := k2
  have l1 : i.setTf SixDRatesImu.postTfUpdate r.imu = some i1 := l1
  have l2 : i.setTf SixDRatesImu.postTfUpdate (r.imu.inAxes Q) = some i2 := l2
  refine ⟨⟨{ SixDRates.construct r.flags.computeJacobian r.flags.updateCovariance with Rp := .of r.Rp },
      fun b => if b then i1 else o1⟩,
    ⟨{ SixDRates.construct r.flags.computeJacobian r.flags.updateCovariance with Rp := .of (turnEach 15 Q * r.Rp * (turnEach 15 Q)ᵀ) },
      fun b => if b then i2 else o2⟩, ?_, ?_, ?_, ?_⟩
  · unfold Rig.env
    simp only [Option.bind_eq_bind, ho, hi, Option.bind_some, k1, l1]
    rfl
  · unfold Rig.env Rig.inAxes
    simp only [Option.bind_eq_bind, ho, hi, Option.bind_some, k2, l2]
    rfl
  · exact ⟨⟨rfl, rfl, ⟨rfl, rfl, rfl⟩, ⟨rfl, rfl⟩, ⟨rfl, rfl⟩, ⟨rfl, rfl⟩, ⟨rfl, rfl⟩⟩,
      ⟨rfl, rfl, ⟨rfl, rfl, rfl⟩, ⟨rfl, rfl⟩, ⟨rfl, rfl⟩, ⟨rfl, rfl⟩, ⟨rfl, rfl⟩⟩, rfl, rfl, rfl,
      stationary_default hQ _ rfl rfl (fun _ _ _ _ => rfl) (fun _ _ => rfl) (fun _ _ => rfl), ⟨r.Rp, rfl, rfl⟩, Or.inl ⟨rfl, rfl⟩, Or.inl ⟨rfl, rfl⟩⟩
  · intro b
    cases b
    · refine ⟨⟨r.odom, s1, s2⟩, ⟨0, by show o1.cov = _; rw [c1, co]; rfl, by show o2.cov = _; rw [c2, co]; rfl⟩, ?_⟩
      show (axesUnits Q hQ).StationaryIn _ o1.fm o2.fm
      rw [f1, f2, fo]
      exact stationary_default hQ _ rfl rfl (fun _ _ _ _ => rfl) (fun _ _ => rfl) (fun _ _ => rfl)
    · refine ⟨⟨r.imu, t1, t2⟩, ⟨0, by show i1.cov = _; rw [d1, ci]; rfl, by show i2.cov = _; rw [d2, ci]; rfl⟩, ?_⟩
      show (axesUnits Q hQ).StationaryIn _ i1.fm i2.fm
      rw [g1, g2, fi]
      exact stationary_default hQ _ rfl rfl (fun _ _ _ _ => rfl) (fun _ _ => rfl) (fun _ _ => rfl)

/-- **C126 (moving a sensor).** `setTf` to a new mounting is a corresponding call on the two sides, if the new mounting is not
the identity in either set of axes (`setTf` to the identity leaves `H()` stale, see C56). -/
theorem C126_move (Q : M3) (hQ : IsRotation Q) (b : Bool) (tf : Iso) (h1 : ¬ IsIdentity tf) (h2 : ¬ IsIdentity (tf.inAxes Q)) :
    (axesUnits Q hQ).CallIn (T := ℝ) (AxesEnv Q hQ) (.userModel fun e => (TfMeas.setTf (sensorPost b) (e.meas b) tf).map (e.setMeas b))
      (.userModel fun e => (TfMeas.setTf (sensorPost b) (e.meas b) (tf.inAxes Q)).map (e.setMeas b)) := by
  intro e e' he
  obtain ⟨⟨t0, s1, s2⟩, ⟨R, c1, c2⟩, hf⟩ := he.2 b
  obtain ⟨m, k1, k2, k3, k4⟩ := sensor_setTf b (tf := tf) s1 (Or.inl h1)
  obtain ⟨m', l1, l2, l3, l4⟩ := sensor_setTf b (tf := tf.inAxes Q) s2 (Or.inl h2)
  simp only [k1, l1, Option.map_some]
  exact axes_setMeas he b ⟨⟨tf, k2, l2⟩, ⟨R, by rw [k4, c1], by rw [l4, c2]⟩, by rw [k3, l3]; exact hf⟩

/-- **C126 (process noise).** `setProcessCovariance` with the turned covariance is the corresponding call. -/
theorem C126_process_noise (Q : M3) (hQ : IsRotation Q) (Rp : Matrix (Fin 15) (Fin 15) ℝ) :
    (axesUnits Q hQ).CallIn (T := ℝ) (K := Bool) (AxesEnv Q hQ)
      (.userModel fun e => (e.sys.setProcessCovariance (.of Rp)).map fun s => { e with sys := s })
      (.userModel fun e => (e.sys.setProcessCovariance (.of (turnEach 15 Q * Rp * (turnEach 15 Q)ᵀ))).map fun s => { e with sys := s }) := by
  intro e e' he
  obtain ⟨hs, hm⟩ := he
  obtain ⟨M, r1, r2⟩ := hs.Rp
  have hp := hs.sized.P
  have hp' := hs.sized'.P
  rw [r1] at hp
  rw [r2] at hp'
  unfold Sys.setProcessCovariance
  dsimp only
  rw [if_pos (by rw [r1]; exact ⟨rfl, rfl⟩), if_pos (by rw [r2]; exact ⟨rfl, rfl⟩)]
  exact ⟨⟨⟨hs.sized.states, hs.sized.controls, hs.sized.der, hp, ⟨rfl, rfl⟩, hs.sized.V, hs.sized.Rc⟩,
    ⟨hs.sized'.states, hs.sized'.controls, hs.sized'.der, hp', ⟨rfl, rfl⟩, hs.sized'.V, hs.sized'.Rc⟩,
    hs.used, hs.used', hs.flags, hs.fm, ⟨Rp, rfl, rfl⟩, hs.G, hs.P⟩, hm⟩

/-- Noise that is the same in every direction looks the same in every axes: with one intensity per group of three, nothing has
to be changed. -/
theorem C126_isotropic (Q : M3) (hQ : IsRotation Q) (a : Fin 5 → ℝ) :
    turnEach 15 Q * Matrix.diagonal (fun i : Fin 15 => a ⟨i.val / 3, by omega⟩) * (turnEach 15 Q)ᵀ =
      Matrix.diagonal (fun i : Fin 15 => a ⟨i.val / 3, by omega⟩) := by
  have comm : turnEach 15 Q * Matrix.diagonal (fun i : Fin 15 => a ⟨i.val / 3, by omega⟩) =
      Matrix.diagonal (fun i : Fin 15 => a ⟨i.val / 3, by omega⟩) * turnEach 15 Q := by
    ext i j
    rw [Matrix.mul_diagonal, Matrix.diagonal_mul]
    unfold turnEach
    split
    next h =>
      rw [mul_comm]
      congr 2
      exact Fin.ext h.symm
    next => rw [zero_mul, mul_zero]
  have tr : (turnEach 15 Q)ᵀ = turnEach 15 Qᵀ := by
    ext i j
    show (if j.val / 3 = i.val / 3 then _ else _) = if i.val / 3 = j.val / 3 then _ else _
    by_cases h : i.val / 3 = j.val / 3
    · rw [if_pos h, if_pos h.symm]; rfl
    · rw [if_neg h, if_neg (fun k => h k.symm)]
  have one : turnEach 15 Q * turnEach 15 Qᵀ = 1 := by
    refine matrix_of_mulVec (fun v => ?_)
    rw [← Matrix.mulVec_mulVec, Matrix.one_mulVec]
    obtain ⟨p1, p2, p3, p4, p5⟩ := turn_noise Q (turnEach 15 Qᵀ *ᵥ v)
    obtain ⟨q1, q2, q3, q4, q5⟩ := turn_noise Qᵀ v
    have back : ∀ a : V3, Q *ᵥ (Qᵀ *ᵥ a) = a := fun a => by rw [Matrix.mulVec_mulVec, hQ.orth', Matrix.one_mulVec]
    rw [q1, back] at p1
    rw [q2, back] at p2
    rw [q3, back] at p3
    rw [q4, back] at p4
    rw [q5, back] at p5
    funext i
    fin_cases i
    · exact congrFun p1 0
    · exact congrFun p1 1
    · exact congrFun p1 2
    · exact congrFun p2 0
    · exact congrFun p2 1
    · exact congrFun p2 2
    · exact congrFun p3 0
    · exact congrFun p3 1
    · exact congrFun p3 2
    · exact congrFun p4 0
    · exact congrFun p4 1
    · exact congrFun p4 2
    · exact congrFun p5 0
    · exact congrFun p5 1
    · exact congrFun p5 2
  rw [comm, Matrix.mul_assoc, tr, one, Matrix.mul_one]

/-- Non-vacuity: axes turned by a quarter turn about the vertical, an IMU mounted upside down, a prediction, odometry, a late
IMU reading, moving the IMU, queued data. -/
example (sort : List (FilterInput ℝ DVec DMat Bool) → List (FilterInput ℝ DVec DMat Bool)) (hsort : SameSort sort sort) :
    ∃ (r : Rig) (e e' : _), r.env = some e ∧ (r.inAxes quarterTurn).env = some e' ∧
      Both (fun f g => ∃ y, f.getState = .of y ∧ g.getState = .of (turnEach 18 quarterTurn *ᵥ y))
        ((Filter.construct (ekfPlant cls sixDSensors) { rewindHistory := true, historyWindow := 5, allowPast := false } e (.of levelState)
          (.of (1 : Matrix (Fin 18) (Fin 18) ℝ)) 0).run (ekfPlant cls sixDSensors) sort
          [.predictTime 1, .correct (.of ![1, 0, 0, 0.5]) (.of (1 : Matrix (Fin 4) (Fin 4) ℝ)) 2 (some false), .correct (.of ![0, 1, -9.8, 0, 0, 1]) (.of (1 : Matrix (Fin 6) (Fin 6) ℝ)) 1.5 (some true),
            .userModel fun e => (TfMeas.setTf (sensorPost true) (e.meas true) ⟨1, ![1, 0, 0]⟩).map (e.setMeas true),
            .enqueueMeasurement (.of ![0, 1, -9.8, 0, 0, 1]) (.of (1 : Matrix (Fin 6) (Fin 6) ℝ)) 3 (some true), .processQueues])
        ((Filter.construct (ekfPlant cls sixDSensors) { rewindHistory := true, historyWindow := 5, allowPast := false } e'
          (.of (turnEach 18 quarterTurn *ᵥ levelState)) (.of (turnEach 18 quarterTurn * 1 * (turnEach 18 quarterTurn)ᵀ)) 0).run
          (ekfPlant cls sixDSensors) sort
          [.predictTime 1, .correct (.of ![1, 0, 0, 0.5]) (.of (1 : Matrix (Fin 4) (Fin 4) ℝ)) 2 (some false), .correct (.of ![0, 1, -9.8, 0, 0, 1]) (.of (1 : Matrix (Fin 6) (Fin 6) ℝ)) 1.5 (some true),
            .userModel fun e => (TfMeas.setTf (sensorPost true) (e.meas true) (Iso.inAxes quarterTurn ⟨1, ![1, 0, 0]⟩)).map (e.setMeas true),
            .enqueueMeasurement (.of ![0, 1, -9.8, 0, 0, 1]) (.of (1 : Matrix (Fin 6) (Fin 6) ℝ)) 3 (some true), .processQueues]) := by
  let r : Rig := ⟨⟨true, true⟩, 1, ⟨1, ![0.5, 0, 0]⟩, ⟨!![1, 0, 0; 0, -1, 0; 0, 0, -1], 0⟩⟩
  obtain ⟨e, e', h1, h2, h3⟩ := C126_setup quarterTurn isRotation_quarterTurn r
  have vec : ∀ (b : Bool) (z : Fin (sixDDims b) → ℝ), VecIn ((axesUnits quarterTurn isRotation_quarterTurn).D b) (.of z) (.of z) :=
    fun b z => ⟨z, rfl, by rw [DVec.of_inj]; exact (Matrix.one_mulVec z).symm⟩
  have cov : ∀ (b : Bool) (R : Matrix (Fin (sixDDims b)) (Fin (sixDDims b)) ℝ),
      CovIn ((axesUnits quarterTurn isRotation_quarterTurn).D b) (.of R) (.of R) := fun b R => ⟨R, rfl, by
    rw [DMat.of_inj]
    show R = (1 : Matrix (Fin (sixDDims b)) (Fin (sixDDims b)) ℝ) * R * 1ᵀ
    rw [Matrix.transpose_one, Matrix.one_mul, Matrix.mul_one]⟩
  have key := C126_body_axes quarterTurn isRotation_quarterTurn sort hsort
    { rewindHistory := true, historyWindow := 5, allowPast := false } e e' h3 levelState 1 0
    [.predictTime 1, .correct (.of ![1, 0, 0, 0.5]) (.of (1 : Matrix (Fin 4) (Fin 4) ℝ)) 2 (some false),
      .correct (.of ![0, 1, -9.8, 0, 0, 1]) (.of (1 : Matrix (Fin 6) (Fin 6) ℝ)) 1.5 (some true),
      .userModel fun e => (TfMeas.setTf (sensorPost true) (e.meas true) ⟨1, ![1, 0, 0]⟩).map (e.setMeas true),
      .enqueueMeasurement (.of ![0, 1, -9.8, 0, 0, 1]) (.of (1 : Matrix (Fin 6) (Fin 6) ℝ)) 3 (some true), .processQueues]
    [.predictTime 1, .correct (.of ![1, 0, 0, 0.5]) (.of (1 : Matrix (Fin 4) (Fin 4) ℝ)) 2 (some false),
      .correct (.of ![0, 1, -9.8, 0, 0, 1]) (.of (1 : Matrix (Fin 6) (Fin 6) ℝ)) 1.5 (some true),
      .userModel fun e => (TfMeas.setTf (sensorPost true) (e.meas true) (Iso.inAxes quarterTurn ⟨1, ![1, 0, 0]⟩)).map (e.setMeas true),
      .enqueueMeasurement (.of ![0, 1, -9.8, 0, 0, 1]) (.of (1 : Matrix (Fin 6) (Fin 6) ℝ)) 3 (some true), .processQueues]
    (.cons rfl (.cons ⟨rfl, false, rfl, rfl, vec false _, cov false _⟩ (.cons ⟨rfl, true, rfl, rfl, vec true _, cov true _⟩
      (.cons (C126_move quarterTurn isRotation_quarterTurn true ⟨1, ![1, 0, 0]⟩ (fun h => by simpa using congrFun h.2 0)
        (fun h => by simpa [Iso.inAxes] using congrFun h.2 0))
      (.cons ⟨rfl, true, rfl, rfl, vec true _, cov true _⟩ (.cons trivial .nil))))))
  refine ⟨r, e, e', h1, h2, ?_⟩
  have weaken : ∀ {α β : Type} {R S : α → β → Prop} {a : Option α} {b : Option β}, Both R a b → (∀ x y, R x y → S x y) → Both S a b := by
    intro α β R S a b h hRS
    cases a <;> cases b <;> simp only [Both] at h ⊢
    exact hRS _ _ h
  refine weaken key ?_
  rintro f g ⟨_, ⟨y, _, k1, _, k2, _⟩, _⟩
  exact ⟨y, k1, k2⟩

end StateEstimation.Props
