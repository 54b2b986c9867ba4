import Verif.Model.Geometry
import Mathlib.Analysis.SpecialFunctions.Trigonometric.Basic
import Mathlib.Tactic.LinearCombination
import Mathlib.Tactic.FieldSimp

/-!
# C52 and C53: rotation increments and RK4 integration
-/

namespace StateEstimation.Props

open Matrix Real StateEstimation

/-- Specification: squared norm of a quaternion. -/
def qNormSq (q : Quat) : ℝ := q.w ^ 2 + q.x ^ 2 + q.y ^ 2 + q.z ^ 2

/-- Specification: the opposite rotation. -/
def qConj (q : Quat) : Quat := ⟨q.w, -q.x, -q.y, -q.z⟩

theorem sqNorm_nonneg (v : V3) : 0 ≤ sqNorm v := by
  simp only [sqNorm]; nlinarith [sq_nonneg (v 0), sq_nonneg (v 1), sq_nonneg (v 2)]

theorem norm3_nonneg (v : V3) : 0 ≤ norm3 v := sqrt_nonneg _

theorem norm3_sq (v : V3) : norm3 v ^ 2 = sqNorm v := sq_sqrt (sqNorm_nonneg v)

theorem sqNorm_neg (v : V3) : sqNorm (-v) = sqNorm v := by simp [sqNorm]

theorem norm3_neg (v : V3) : norm3 (-v) = norm3 v := by simp [norm3, sqNorm_neg]

theorem sqNorm_smul (c : ℝ) (v : V3) : sqNorm (c • v) = c ^ 2 * sqNorm v := by
  simp [sqNorm]; ring

theorem norm3_smul (c : ℝ) (v : V3) : norm3 (c • v) = |c| * norm3 v := by
  rw [norm3, sqNorm_smul, sqrt_mul (sq_nonneg c), sqrt_sq_eq_abs]; rfl

/-- Cauchy-Schwarz in three dimensions. -/
theorem dot_le (u v : V3) : u 0 * v 0 + u 1 * v 1 + u 2 * v 2 ≤ norm3 u * norm3 v := by
  refine le_trans (le_abs_self _) ?_
  rw [← sqrt_sq_eq_abs, norm3, norm3, ← sqrt_mul (sqNorm_nonneg u)]
  refine sqrt_le_sqrt ?_
  simp only [sqNorm]
  nlinarith [sq_nonneg (u 0 * v 1 - u 1 * v 0), sq_nonneg (u 0 * v 2 - u 2 * v 0), sq_nonneg (u 1 * v 2 - u 2 * v 1)]

theorem norm3_add (u v : V3) : norm3 (u + v) ≤ norm3 u + norm3 v := by
  have h := dot_le u v
  rw [norm3]
  refine sqrt_le_iff.mpr ⟨add_nonneg (norm3_nonneg _) (norm3_nonneg _), ?_⟩
  have e1 := norm3_sq u
  have e2 := norm3_sq v
  have e3 : sqNorm (u + v) = sqNorm u + sqNorm v + 2 * (u 0 * v 0 + u 1 * v 1 + u 2 * v 2) := by
    simp [sqNorm]; ring
  nlinarith

theorem qNormSq_mul (a b : Quat) : qNormSq (a.mul b) = qNormSq a * qNormSq b := by
  simp [qNormSq, Quat.mul]; ring

theorem deltaQuaternion_big {dt : ℝ} {w : V3} (h : norm3 w > 1e-9) :
    deltaQuaternion dt w = ⟨cos (0.5 * dt * norm3 w), sin (0.5 * dt * norm3 w) / norm3 w * w 0,
      sin (0.5 * dt * norm3 w) / norm3 w * w 1, sin (0.5 * dt * norm3 w) / norm3 w * w 2⟩ := by
  simp only [deltaQuaternion, if_pos h]

theorem deltaQuaternion_small {dt : ℝ} {w : V3} (h : ¬ norm3 w > 1e-9) : deltaQuaternion dt w = Quat.identity := by
  simp only [deltaQuaternion, if_neg h]

/-- **C52.** `deltaQuaternion(dt, w)` is a unit quaternion, for every step and every angular velocity. -/
theorem C52_unit (dt : ℝ) (w : V3) : qNormSq (deltaQuaternion dt w) = 1 := by
  by_cases h : norm3 w > 1e-9
  · have hn : norm3 w ≠ 0 := by intro e; rw [e] at h; norm_num at h
    rw [deltaQuaternion_big h, qNormSq]
    have e := norm3_sq w
    have e2 := sin_sq_add_cos_sq (0.5 * dt * norm3 w)
    simp only [sqNorm] at e
    generalize sin (0.5 * dt * norm3 w) = s at *
    generalize cos (0.5 * dt * norm3 w) = c at *
    generalize norm3 w = n at *
    have : c ^ 2 + (s / n * w 0) ^ 2 + (s / n * w 1) ^ 2 + (s / n * w 2) ^ 2
        = c ^ 2 + (s / n) ^ 2 * (w 0 * w 0 + w 1 * w 1 + w 2 * w 2) := by ring
    rw [this, ← e, div_pow, div_mul_cancel₀ _ (pow_ne_zero 2 hn)]
    linarith
  · rw [deltaQuaternion_small h]; simp [qNormSq, Quat.identity]

/-- **C52.** The increment for the opposite angular velocity is the opposite rotation. -/
theorem C52_opposite (dt : ℝ) (w : V3) : deltaQuaternion dt (-w) = qConj (deltaQuaternion dt w) := by
  by_cases h : norm3 w > 1e-9
  · rw [deltaQuaternion_big h, deltaQuaternion_big (by rwa [norm3_neg])]
    simp [qConj, norm3_neg]
  · rw [deltaQuaternion_small h, deltaQuaternion_small (by rwa [norm3_neg])]
    simp [qConj, Quat.identity]

/-- **C52.** It undoes the increment, on either side. -/
theorem C52_inverse (dt : ℝ) (w : V3) :
    (deltaQuaternion dt w).mul (deltaQuaternion dt (-w)) = Quat.identity ∧
    (deltaQuaternion dt (-w)).mul (deltaQuaternion dt w) = Quat.identity := by
  have h := C52_unit dt w
  rw [C52_opposite]
  generalize deltaQuaternion dt w = q at *
  simp only [qNormSq] at h
  constructor <;> (ext <;> simp [Quat.mul, qConj, Quat.identity] <;> first | ring1 | linear_combination h)

/-- **C52.** Increments over `dt1` and `dt2` compose to the increment over `dt1 + dt2`. -/
theorem C52_compose (dt1 dt2 : ℝ) (w : V3) :
    (deltaQuaternion dt1 w).mul (deltaQuaternion dt2 w) = deltaQuaternion (dt1 + dt2) w := by
  by_cases h : norm3 w > 1e-9
  · have hn : norm3 w ≠ 0 := by intro e; rw [e] at h; norm_num at h
    have e := norm3_sq w
    simp only [sqNorm] at e
    rw [deltaQuaternion_big h, deltaQuaternion_big h, deltaQuaternion_big h]
    have a1 : 0.5 * (dt1 + dt2) * norm3 w = 0.5 * dt1 * norm3 w + 0.5 * dt2 * norm3 w := by ring
    rw [a1, cos_add, sin_add]
    generalize sin (0.5 * dt1 * norm3 w) = s1
    generalize cos (0.5 * dt1 * norm3 w) = c1
    generalize sin (0.5 * dt2 * norm3 w) = s2
    generalize cos (0.5 * dt2 * norm3 w) = c2
    generalize norm3 w = n at *
    ext
    · simp only [Quat.mul]
      have : c1 * c2 - s1 / n * w 0 * (s2 / n * w 0) - s1 / n * w 1 * (s2 / n * w 1) - s1 / n * w 2 * (s2 / n * w 2)
        = c1 * c2 - s1 * s2 * ((w 0 * w 0 + w 1 * w 1 + w 2 * w 2) / n ^ 2) := by
        field_simp; ring
      rw [this, ← e, div_self (pow_ne_zero 2 hn), mul_one]
    · simp only [Quat.mul]; ring
    · simp only [Quat.mul]; ring
    · simp only [Quat.mul]; ring
  · simp only [deltaQuaternion_small h]
    simp [Quat.mul, Quat.identity]

/-- **C52.** `integrate` keeps the norm of the orientation: a unit quaternion stays one over any number of steps. -/
theorem C52_integrate (q : Quat) (steps : List (ℝ × V3)) :
    qNormSq (steps.foldl (fun q s => integrate s.1 q s.2) q) = qNormSq q := by
  induction steps generalizing q with
  | nil => rfl
  | cons s r ih => rw [List.foldl_cons, ih, integrate, qNormSq_mul, C52_unit, mul_one]

theorem rot_eq (q : Quat) (v : V3) : q.rot v =
    ![v 0 + q.w * (2 * (q.y * v 2 - q.z * v 1)) + (q.y * (2 * (q.x * v 1 - q.y * v 0)) - q.z * (2 * (q.z * v 0 - q.x * v 2))),
      v 1 + q.w * (2 * (q.z * v 0 - q.x * v 2)) + (q.z * (2 * (q.y * v 2 - q.z * v 1)) - q.x * (2 * (q.x * v 1 - q.y * v 0))),
      v 2 + q.w * (2 * (q.x * v 1 - q.y * v 0)) + (q.x * (2 * (q.z * v 0 - q.x * v 2)) - q.y * (2 * (q.y * v 2 - q.z * v 1)))] := by
  ext i
  fin_cases i <;>
  simp only [Quat.rot, Quat.vec, crossProduct, LinearMap.mk₂_apply, Matrix.cons_val_zero, Matrix.cons_val_one,
    Matrix.cons_val, Pi.add_apply, Pi.smul_apply, smul_eq_mul, Fin.zero_eta, Fin.mk_one, Fin.reduceFinMk] <;> ring

theorem rot_sqNorm {q : Quat} (hq : qNormSq q = 1) (v : V3) : sqNorm (q.rot v) = sqNorm v := by
  have h : q.w ^ 2 + q.x ^ 2 + q.y ^ 2 + q.z ^ 2 = 1 := hq
  simp only [sqNorm, Quat.rot, Quat.vec, crossProduct, LinearMap.mk₂_apply, Matrix.cons_val_zero, Matrix.cons_val_one,
    Matrix.cons_val, Pi.add_apply, Pi.smul_apply, smul_eq_mul]
  have hw : q.w ^ 2 = 1 - q.x ^ 2 - q.y ^ 2 - q.z ^ 2 := by linarith
  linear_combination (4 * ((q.y * v 2 - q.z * v 1)^2 + (q.z * v 0 - q.x * v 2)^2 + (q.x * v 1 - q.y * v 0)^2)) * h

/-- **C52.** Rotating by a unit quaternion, in particular by an increment, preserves the length of every vector. -/
theorem C52_rotation {q : Quat} (hq : qNormSq q = 1) (v : V3) : norm3 (q.rot v) = norm3 v := by
  rw [norm3, rot_sqNorm hq]; rfl

/-- **C52.** Rotating by a product of quaternions is rotating by the second, then by the first (unit quaternions): the
orientation that `integrate` returns acts on vectors as the increment followed by the old orientation. -/
theorem C52_rotation_compose {p q : Quat} (hp : qNormSq p = 1) (hq : qNormSq q = 1) (v : V3) :
    (p.mul q).rot v = p.rot (q.rot v) := by
  have h1 : p.w ^ 2 + p.x ^ 2 + p.y ^ 2 + p.z ^ 2 = 1 := hp
  have h2 : q.w ^ 2 + q.x ^ 2 + q.y ^ 2 + q.z ^ 2 = 1 := hq
  -- `rot q v = (1 - |q|²) v + conjugation`
  have conj : ∀ (r : Quat), r.w ^ 2 + r.x ^ 2 + r.y ^ 2 + r.z ^ 2 = 1 → ∀ u : V3, r.rot u =
      ![(r.w^2 + r.x^2 - r.y^2 - r.z^2) * u 0 + 2*(r.x*r.y - r.w*r.z) * u 1 + 2*(r.x*r.z + r.w*r.y) * u 2,
        2*(r.x*r.y + r.w*r.z) * u 0 + (r.w^2 - r.x^2 + r.y^2 - r.z^2) * u 1 + 2*(r.y*r.z - r.w*r.x) * u 2,
        2*(r.x*r.z - r.w*r.y) * u 0 + 2*(r.y*r.z + r.w*r.x) * u 1 + (r.w^2 - r.x^2 - r.y^2 + r.z^2) * u 2] := by
    intro r hr u
    ext i
    fin_cases i <;>
    simp only [Quat.rot, Quat.vec, crossProduct, LinearMap.mk₂_apply, Matrix.cons_val_zero, Matrix.cons_val_one,
      Matrix.cons_val, Pi.add_apply, Pi.smul_apply, smul_eq_mul, Fin.zero_eta, Fin.mk_one, Fin.reduceFinMk]
    · linear_combination (-u 0) * hr
    · linear_combination (-u 1) * hr
    · linear_combination (-u 2) * hr
  rw [conj _ (by have := qNormSq_mul p q; simp only [qNormSq] at this; rw [this, h1, h2, mul_one]) v, conj p h1, conj q h2]
  ext i
  fin_cases i <;> simp [Quat.mul] <;> ring

/-- **C52.** The increment really is the rotation by the angle `dt |w|` about `w`: it fixes the axis. -/
theorem C52_axis (dt : ℝ) (w : V3) : (deltaQuaternion dt w).rot w = w := by
  by_cases h : norm3 w > 1e-9
  · rw [deltaQuaternion_big h, rot_eq]
    ext i
    fin_cases i <;> simp only [Fin.zero_eta, Fin.mk_one, Fin.reduceFinMk, Matrix.cons_val_zero, Matrix.cons_val_one,
      Matrix.cons_val] <;> ring
  · rw [deltaQuaternion_small h, rot_eq]
    ext i
    fin_cases i <;> simp [Quat.identity]

/-- **C52.** On vectors perpendicular to `w` it turns by the angle `dt |w|`, in the direction of `w × v`. -/
theorem C52_angle (dt : ℝ) (w v : V3) (hw : norm3 w > 1e-9) (hp : w 0 * v 0 + w 1 * v 1 + w 2 * v 2 = 0) :
    (deltaQuaternion dt w).rot v = cos (dt * norm3 w) • v + (sin (dt * norm3 w) / norm3 w) • crossProduct w v := by
  have hn : norm3 w ≠ 0 := by intro e; rw [e] at hw; norm_num at hw
  have e := norm3_sq w
  simp only [sqNorm] at e
  have d : dt * norm3 w = 2 * (0.5 * dt * norm3 w) := by ring
  rw [deltaQuaternion_big hw, d, cos_two_mul, sin_two_mul]
  have sc := sin_sq_add_cos_sq (0.5 * dt * norm3 w)
  generalize sin (0.5 * dt * norm3 w) = s at *
  generalize cos (0.5 * dt * norm3 w) = c at *
  generalize norm3 w = n at *
  obtain ⟨k, hk⟩ : ∃ k, k = s / n := ⟨_, rfl⟩
  have hs : s = k * n := by rw [hk, div_mul_cancel₀ _ hn]
  have e2 : 2 * s * c / n = 2 * k * c := by rw [hs]; field_simp
  rw [← hk, e2]
  have hk2 : k ^ 2 * (w 0 * w 0 + w 1 * w 1 + w 2 * w 2) + c ^ 2 = 1 := by rw [← e, ← sc, hs]; ring
  rw [rot_eq]
  ext i
  fin_cases i <;> simp only [crossProduct, LinearMap.mk₂_apply, Fin.zero_eta, Fin.mk_one, Fin.reduceFinMk,
    Matrix.cons_val_zero, Matrix.cons_val_one, Matrix.cons_val, Pi.add_apply, Pi.smul_apply, smul_eq_mul]
  · linear_combination (2 * k^2 * w 0) * hp - (2 * v 0) * hk2
  · linear_combination (2 * k^2 * w 1) * hp - (2 * v 1) * hk2
  · linear_combination (2 * k^2 * w 2) * hp - (2 * v 2) * hk2

/-- Non-vacuity of C52: a quarter turn about z takes x to y. -/
example : (deltaQuaternion 1 ![0, 0, π / 2]).rot ![1, 0, 0] = ![0, 1, 0] := by
  have hn : norm3 ![0, 0, π / 2] = π / 2 := by
    simp only [norm3, sqNorm, Matrix.cons_val]
    rw [show (0 : ℝ) * 0 + 0 * 0 + π / 2 * (π / 2) = (π / 2) ^ 2 by ring, sqrt_sq (by positivity)]
  have hb : norm3 ![0, 0, π / 2] > 1e-9 := by rw [hn]; have := two_le_pi; norm_num; linarith
  rw [C52_angle _ _ _ hb (by simp), hn]
  ext i
  have := pi_ne_zero
  fin_cases i <;> simp [crossProduct]

theorem identity_rot (v : V3) : Quat.identity.rot v = v := by
  rw [rot_eq]
  ext i
  fin_cases i <;> simp [Quat.identity]

/-- **C53.** Without rotation the velocity integration is exact. -/
theorem C53_velocity (dt : ℝ) (a v w : V3) (hw : norm3 w ≤ 1e-9) : integrateVelocityRK4 dt a w v = v + dt • a := by
  simp only [integrateVelocityRK4, deltaQuaternion_small (not_lt.mpr hw), identity_rot]
  ext i
  simp
  ring

/-- **C53.** Without rotation the position integration is exact. -/
theorem C53_position (dt : ℝ) (vi a p v w : V3) (hw : norm3 w ≤ 1e-9) :
    integratePositionRK4 dt vi a w p v = (p + dt • vi + (dt ^ 2 / 2) • a, v + dt • a) := by
  simp only [integratePositionRK4, deltaQuaternion_small (not_lt.mpr hw), identity_rot]
  refine Prod.ext ?_ ?_ <;> (ext i; simp; ring)

/-- **C53.** Zero angular velocity is in the exact branch. -/
theorem C53_zero_rotation (dt : ℝ) (vi a p v : V3) :
    integrateVelocityRK4 dt a 0 v = v + dt • a ∧
    integratePositionRK4 dt vi a 0 p v = (p + dt • vi + (dt ^ 2 / 2) • a, v + dt • a) := by
  have h : norm3 0 ≤ 1e-9 := by simp [norm3, sqNorm]; norm_num
  exact ⟨C53_velocity _ _ _ _ h, C53_position _ _ _ _ _ _ h⟩

theorem rk4_norm (dt : ℝ) (a b c : V3) (n : ℝ) (ha : norm3 a = n) (hb : norm3 b = n) (hc : norm3 c = n) :
    norm3 ((1 / 6 : ℝ) • (dt • (a + (2 : ℝ) • b + (2 : ℝ) • b + c))) ≤ |dt| * n := by
  rw [norm3_smul, norm3_smul]
  have h1 := norm3_add (a + (2 : ℝ) • b + (2 : ℝ) • b) c
  have h2 := norm3_add (a + (2 : ℝ) • b) ((2 : ℝ) • b)
  have h3 := norm3_add a ((2 : ℝ) • b)
  have h4 : norm3 ((2 : ℝ) • b) = 2 * n := by rw [norm3_smul, hb]; norm_num
  have h5 : norm3 (a + (2 : ℝ) • b + (2 : ℝ) • b + c) ≤ 6 * n := by rw [hc] at h1; rw [h4] at h2 h3; rw [ha] at h3; linarith
  have h6 : |(1 / 6 : ℝ)| = 1 / 6 := abs_of_pos (by norm_num)
  rw [h6]
  nlinarith [mul_le_mul_of_nonneg_left h5 (abs_nonneg dt)]

/-- **C53.** Whatever the rotation, one step changes the velocity by at most `|dt| |a|`. -/
theorem C53_velocity_bounded (dt : ℝ) (a w v : V3) : norm3 (integrateVelocityRK4 dt a w v - v) ≤ |dt| * norm3 a := by
  have e : integrateVelocityRK4 dt a w v - v = (1 / 6 : ℝ) • (dt • (a + (2 : ℝ) • (deltaQuaternion (0.5 * dt) w).rot a
      + (2 : ℝ) • (deltaQuaternion (0.5 * dt) w).rot a + (deltaQuaternion dt w).rot a)) := by
    simp only [integrateVelocityRK4]; abel
  rw [e]
  exact rk4_norm _ _ _ _ _ rfl (C52_rotation (C52_unit _ _) _) (C52_rotation (C52_unit _ _) _)

/-- **C53.** The velocity `integratePositionRK4` returns is the one `integrateVelocityRK4` returns. -/
theorem C53_same_velocity (dt : ℝ) (vi a w p v : V3) :
    (integratePositionRK4 dt vi a w p v).2 = integrateVelocityRK4 dt a w v := rfl

/-- **C53.** Whatever the rotation, one step moves the position by at most `|dt| |v| + dt²/2 |a|`. -/
theorem C53_position_bounded (dt : ℝ) (vi a w p v : V3) :
    norm3 ((integratePositionRK4 dt vi a w p v).1 - p) ≤ |dt| * norm3 vi + dt ^ 2 / 2 * norm3 a := by
  have u1 := fun x => C52_rotation (C52_unit (0.5 * dt) w) x
  have u2 := fun x => C52_rotation (C52_unit dt w) x
  simp only [integratePositionRK4]
  rw [add_sub_cancel_left, norm3_smul, norm3_smul, show |(1 / 6 : ℝ)| = 1 / 6 from abs_of_pos (by norm_num)]
  set qm := deltaQuaternion (0.5 * dt) w
  set qe := deltaQuaternion dt w
  have hh : |0.5 * dt| = |dt| / 2 := by rw [abs_mul, abs_of_pos (by norm_num : (0.5 : ℝ) > 0)]; ring
  have b2 : norm3 (qm.rot (vi + (0.5 * dt) • a)) ≤ norm3 vi + |dt| / 2 * norm3 a := by
    rw [u1]; refine (norm3_add _ _).trans ?_; rw [norm3_smul, hh]
  have b3 : norm3 (qm.rot (vi + (0.5 * dt) • qm.rot a)) ≤ norm3 vi + |dt| / 2 * norm3 a := by
    rw [u1]; refine (norm3_add _ _).trans ?_; rw [norm3_smul, hh, u1]
  have b4 : norm3 (qe.rot (vi + dt • qm.rot a)) ≤ norm3 vi + |dt| * norm3 a := by
    rw [u2]; refine (norm3_add _ _).trans ?_; rw [norm3_smul, u1]
  generalize qm.rot (vi + (0.5 * dt) • a) = k2 at *
  generalize qm.rot (vi + (0.5 * dt) • qm.rot a) = k3 at *
  generalize qe.rot (vi + dt • qm.rot a) = k4 at *
  have c1 := norm3_add (vi + (2 : ℝ) • k2 + (2 : ℝ) • k3) k4
  have c2 := norm3_add (vi + (2 : ℝ) • k2) ((2 : ℝ) • k3)
  have c3 := norm3_add vi ((2 : ℝ) • k2)
  rw [norm3_smul, show |(2 : ℝ)| = 2 from abs_of_pos (by norm_num)] at c2 c3
  have tot : norm3 (vi + (2 : ℝ) • k2 + (2 : ℝ) • k3 + k4) ≤ 6 * norm3 vi + 3 * (|dt| * norm3 a) := by linarith
  have sq : dt ^ 2 = |dt| * |dt| := by rw [← sq, sq_abs]
  rw [sq]
  nlinarith [mul_le_mul_of_nonneg_left tot (abs_nonneg dt)]

/-- Non-vacuity of C53: the bound is not met by a wrong step, e.g. a step using `dt` twice. -/
example : norm3 (integrateVelocityRK4 2 ![1, 0, 0] 0 0) = 2 := by
  rw [(C53_zero_rotation 2 0 ![1, 0, 0] 0 0).1, zero_add, norm3_smul]
  simp [norm3, sqNorm]

end StateEstimation.Props
