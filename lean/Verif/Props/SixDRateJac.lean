import Verif.Lemmas.Trig
import Verif.Props.SixDNoise
import Mathlib.Analysis.Calculus.Deriv.Prod

/-!
# C55 (system model), all directions: how far `G()` of `SixDRates` is from the derivative of `g()`
-/

namespace StateEstimation.Props

open Matrix Real

open StateEstimation.SixDRates (jacobian jacobian_apply)

/-! ## The rotation by `dt w` and its derivative in `w` -/

/-- Rodrigues' formula for the rotation the code uses. -/
theorem rot_axis (dt : ℝ) {w : V3} (h : norm3 w > 1e-9) (g : V3) : (deltaQuaternion dt w).rot g =
    g + (sin (dt * norm3 w) / norm3 w) • crossProduct w g +
      ((1 - cos (dt * norm3 w)) / norm3 w ^ 2) • crossProduct w (crossProduct w g) := by
  have hp : norm3 w ≠ 0 := (lt_trans (by norm_num) h).ne'
  rw [deltaQuaternion_big h, rot_eq]
  have e : dt * norm3 w = 2 * (0.5 * dt * norm3 w) := by ring
  rw [e, sin_two_mul, cos_two_mul]
  have hc : cos (0.5 * dt * norm3 w) ^ 2 = 1 - sin (0.5 * dt * norm3 w) ^ 2 := by
    have := sin_sq_add_cos_sq (0.5 * dt * norm3 w); linarith
  rw [hc]
  generalize sin (0.5 * dt * norm3 w) = S
  generalize cos (0.5 * dt * norm3 w) = C
  generalize norm3 w = n at hp
  ext i
  fin_cases i <;> simp [crossProduct, Matrix.vecHead, Matrix.vecTail] <;> field_simp <;> ring

/-- The derivative of the rotated vector along `w + t v`. -/
noncomputable def rotDeriv (dt : ℝ) (w v g : V3) : V3 :=
  (sin (dt * norm3 w) / norm3 w) • crossProduct v g +
    ((1 - cos (dt * norm3 w)) / norm3 w ^ 2) • (crossProduct v (crossProduct w g) + crossProduct w (crossProduct v g)) +
    ((dt * norm3 w * cos (dt * norm3 w) - sin (dt * norm3 w)) / norm3 w ^ 3 * (w ⬝ᵥ v)) • crossProduct w g +
    ((dt * norm3 w * sin (dt * norm3 w) - 2 * (1 - cos (dt * norm3 w))) / norm3 w ^ 4 * (w ⬝ᵥ v)) •
      crossProduct w (crossProduct w g)

theorem norm3_line_deriv {w : V3} (h : 0 < norm3 w) (v : V3) :
    HasDerivAt (fun t : ℝ => norm3 (w + t • v)) ((w ⬝ᵥ v) / norm3 w) 0 := by
  have hs : HasDerivAt (fun t : ℝ => sqNorm (w + t • v)) (2 * (w ⬝ᵥ v)) 0 := by
    have e : (fun t : ℝ => sqNorm (w + t • v)) = fun t => sqNorm w + t * (2 * (w ⬝ᵥ v)) + t ^ 2 * sqNorm v := by
      funext t
      simp [sqNorm, dotProduct, Fin.sum_univ_three]
      ring
    rw [e]
    have a := (((hasDerivAt_id (0 : ℝ)).mul_const (2 * (w ⬝ᵥ v))).const_add (sqNorm w)).add
      ((hasDerivAt_pow 2 (0 : ℝ)).mul_const (sqNorm v))
    refine a.congr_deriv ?_
    norm_num
  have h0 : sqNorm (w + (0 : ℝ) • v) = sqNorm w := by rw [zero_smul, add_zero]
  have hne : sqNorm (w + (0 : ℝ) • v) ≠ 0 := by
    rw [h0, ← norm3_sq]; positivity
  have a := hs.sqrt hne
  rw [h0] at a
  refine a.congr_deriv ?_
  show 2 * (w ⬝ᵥ v) / (2 * norm3 w) = _
  rw [mul_div_mul_left _ _ two_ne_zero]

theorem rot_line_deriv (dt : ℝ) {w : V3} (h : norm3 w > 1e-9) (v g : V3) :
    HasDerivAt (fun t : ℝ => (deltaQuaternion dt (w + t • v)).rot g) (rotDeriv dt w v g) 0 := by
  have hpos : 0 < norm3 w := lt_trans (by norm_num) h
  have hn := norm3_line_deriv hpos v
  have h0 : w + (0 : ℝ) • v = w := by rw [zero_smul, add_zero]
  have hev : (fun t : ℝ => (deltaQuaternion dt (w + t • v)).rot g) =ᶠ[nhds 0] fun t : ℝ =>
      g + (sin (dt * norm3 (w + t • v)) / norm3 (w + t • v)) • crossProduct (w + t • v) g +
      ((1 - cos (dt * norm3 (w + t • v))) / norm3 (w + t • v) ^ 2) • crossProduct (w + t • v) (crossProduct (w + t • v) g) := by
    have hc : ContinuousAt (fun t : ℝ => norm3 (w + t • v)) 0 := hn.continuousAt
    have : ∀ᶠ t in nhds (0 : ℝ), norm3 (w + t • v) > 1e-9 := by
      refine hc.eventually_const_lt ?_
      show (1e-9 : ℝ) < norm3 (w + (0 : ℝ) • v)
      rw [h0]; exact h
    filter_upwards [this] with t ht
    exact rot_axis dt ht g
  refine HasDerivAt.congr_of_eventuallyEq ?_ hev
  have hne : norm3 (w + (0 : ℝ) • v) ≠ 0 := by rw [h0]; exact hpos.ne'
  have hA : HasDerivAt (fun t : ℝ => sin (dt * norm3 (w + t • v)) / norm3 (w + t • v))
      ((dt * norm3 w * cos (dt * norm3 w) - sin (dt * norm3 w)) / norm3 w ^ 3 * (w ⬝ᵥ v)) 0 := by
    have a := ((hn.const_mul dt).sin).div hn hne
    refine a.congr_deriv ?_
    rw [h0]
    field_simp
  have hB : HasDerivAt (fun t : ℝ => (1 - cos (dt * norm3 (w + t • v))) / norm3 (w + t • v) ^ 2)
      ((dt * norm3 w * sin (dt * norm3 w) - 2 * (1 - cos (dt * norm3 w))) / norm3 w ^ 4 * (w ⬝ᵥ v)) 0 := by
    have a := (((hn.const_mul dt).cos).const_sub 1).div (hn.pow 2) (pow_ne_zero 2 hne)
    refine a.congr_deriv ?_
    simp only [Pi.pow_apply, Nat.cast_ofNat, Nat.add_one_sub_one, pow_one]
    rw [h0]
    field_simp
  have hw : HasDerivAt (fun t : ℝ => w + t • v) v 0 := by
    have := ((hasDerivAt_id (0 : ℝ)).smul_const v).const_add w
    simpa using this
  have hc1 : HasDerivAt (fun t : ℝ => crossProduct (w + t • v) g) (crossProduct v g) 0 := by
    have e : (fun t : ℝ => crossProduct (w + t • v) g) = fun t : ℝ => crossProduct w g + t • crossProduct v g := by
      funext t
      rw [map_add, LinearMap.add_apply, map_smul, LinearMap.smul_apply]
    rw [e]
    have := ((hasDerivAt_id (0 : ℝ)).smul_const (crossProduct v g)).const_add (crossProduct w g)
    simpa using this
  have hc2 : HasDerivAt (fun t : ℝ => crossProduct (w + t • v) (crossProduct (w + t • v) g))
      (crossProduct v (crossProduct w g) + crossProduct w (crossProduct v g)) 0 := by
    have e : (fun t : ℝ => crossProduct (w + t • v) (crossProduct (w + t • v) g)) = fun t : ℝ =>
        crossProduct w (crossProduct w g) + t • (crossProduct v (crossProduct w g) + crossProduct w (crossProduct v g)) +
        t ^ 2 • crossProduct v (crossProduct v g) := by
      funext t
      simp only [map_add, LinearMap.add_apply, map_smul, LinearMap.smul_apply, smul_add, smul_smul, sq]
      abel
    rw [e]
    have := (((hasDerivAt_id (0 : ℝ)).smul_const (crossProduct v (crossProduct w g) + crossProduct w (crossProduct v g))).const_add
      (crossProduct w (crossProduct w g))).add ((hasDerivAt_pow 2 (0 : ℝ)).smul_const (crossProduct v (crossProduct v g)))
    refine HasDerivAt.congr_deriv (f := fun t : ℝ =>
        crossProduct w (crossProduct w g) + t • (crossProduct v (crossProduct w g) + crossProduct w (crossProduct v g)) +
        t ^ 2 • crossProduct v (crossProduct v g)) this ?_
    simp
  have a := ((hA.smul hc1).const_add g).add (hB.smul hc2)
  have e1 : (fun t : ℝ =>
      g + (sin (dt * norm3 (w + t • v)) / norm3 (w + t • v)) • crossProduct (w + t • v) g +
      ((1 - cos (dt * norm3 (w + t • v))) / norm3 (w + t • v) ^ 2) • crossProduct (w + t • v) (crossProduct (w + t • v) g)) =
    fun t : ℝ => (g + ((fun t : ℝ => sin (dt * norm3 (w + t • v)) / norm3 (w + t • v)) • fun t : ℝ => crossProduct (w + t • v) g) t) +
      ((fun t : ℝ => (1 - cos (dt * norm3 (w + t • v))) / norm3 (w + t • v) ^ 2) •
        fun t : ℝ => crossProduct (w + t • v) (crossProduct (w + t • v) g)) t := rfl
  rw [e1]
  refine a.congr_deriv ?_
  unfold rotDeriv
  rw [h0]
  abel

/-! ## Bounds -/

theorem coef_A (dt : ℝ) {n : ℝ} (h : 0 < n) : |sin (dt * n) / n - dt| ≤ |dt| * (|dt| * n) ^ 2 / 6 := by
  have e : sin (dt * n) / n - dt = (sin (dt * n) - dt * n) / n := by field_simp
  rw [e, abs_div, abs_of_pos h, div_le_iff₀ h]
  refine (abs_sin_sub _).trans_eq ?_
  rw [abs_mul, abs_of_pos h]; ring

theorem coef_A_abs (dt : ℝ) {n : ℝ} (h : 0 < n) : |sin (dt * n) / n| ≤ |dt| := by
  rw [abs_div, abs_of_pos h, div_le_iff₀ h]
  refine abs_sin_le_abs.trans_eq ?_
  rw [abs_mul, abs_of_pos h]

theorem coef_B (dt : ℝ) {n : ℝ} (h : 0 < n) : |(1 - cos (dt * n)) / n ^ 2 - dt ^ 2 / 2| ≤ dt ^ 2 * (|dt| * n) ^ 2 / 24 := by
  have e : (1 - cos (dt * n)) / n ^ 2 - dt ^ 2 / 2 = (1 - cos (dt * n) - (dt * n) ^ 2 / 2) / n ^ 2 := by field_simp
  have hn : 0 < n ^ 2 := by positivity
  rw [e, abs_div, abs_of_pos hn, div_le_iff₀ hn]
  refine (abs_cos_sub_sq _).trans_eq ?_
  rw [mul_pow |dt|, sq_abs]; ring

theorem coef_B_abs (dt : ℝ) {n : ℝ} (h : 0 < n) : |(1 - cos (dt * n)) / n ^ 2| ≤ dt ^ 2 / 2 := by
  have hn : 0 < n ^ 2 := by positivity
  rw [abs_div, abs_of_pos hn, div_le_iff₀ hn, ← abs_neg, neg_sub]
  refine (abs_cos_sub _).trans_eq ?_
  ring

theorem coef_dA (dt : ℝ) {n : ℝ} (h : 0 < n) : |(dt * n * cos (dt * n) - sin (dt * n)) / n ^ 3| ≤ |dt| ^ 3 / 3 := by
  have hn : 0 < n ^ 3 := by positivity
  rw [abs_div, abs_of_pos hn, div_le_iff₀ hn]
  refine (abs_x_cos_sub_sin _).trans_eq ?_
  rw [abs_mul, abs_of_pos h]; ring

theorem coef_dB (dt : ℝ) {n : ℝ} (h : 0 < n) : |(dt * n * sin (dt * n) - 2 * (1 - cos (dt * n))) / n ^ 4| ≤ dt ^ 4 / 12 := by
  have hn : 0 < n ^ 4 := by positivity
  rw [abs_div, abs_of_pos hn, div_le_iff₀ hn]
  refine (abs_x_sin_sub _).trans_eq ?_
  ring

theorem norm3_smul_le {c C : ℝ} {u : V3} {U : ℝ} (hc : |c| ≤ C) (hu : norm3 u ≤ U) : norm3 (c • u) ≤ C * U := by
  rw [norm3_smul]
  exact mul_le_mul hc hu (norm3_nonneg u) ((abs_nonneg c).trans hc)

theorem norm3_cross_le {a b : V3} {A B : ℝ} (ha : norm3 a ≤ A) (hb : norm3 b ≤ B) : norm3 (crossProduct a b) ≤ A * B :=
  (norm3_cross a b).trans (mul_le_mul ha hb (norm3_nonneg b) ((norm3_nonneg a).trans ha))

/-- The last two terms of the derivative are small. -/
theorem rotDeriv_tail (dt : ℝ) {w : V3} (h : 0 < norm3 w) (v g : V3) :
    norm3 (((dt * norm3 w * cos (dt * norm3 w) - sin (dt * norm3 w)) / norm3 w ^ 3 * (w ⬝ᵥ v)) • crossProduct w g +
    ((dt * norm3 w * sin (dt * norm3 w) - 2 * (1 - cos (dt * norm3 w))) / norm3 w ^ 4 * (w ⬝ᵥ v)) •
      crossProduct w (crossProduct w g)) ≤
    |dt| * ((|dt| * norm3 w) ^ 2 / 3 + (|dt| * norm3 w) ^ 3 / 12) * norm3 v * norm3 g := by
  have hv := norm3_nonneg v
  have hg := norm3_nonneg g
  have hd : |w ⬝ᵥ v| ≤ norm3 w * norm3 v := dot_abs w v
  refine (norm3_add _ _).trans ?_
  have k1 : norm3 (((dt * norm3 w * cos (dt * norm3 w) - sin (dt * norm3 w)) / norm3 w ^ 3 * (w ⬝ᵥ v)) • crossProduct w g) ≤
      (|dt| ^ 3 / 3 * (norm3 w * norm3 v)) * (norm3 w * norm3 g) := by
    refine norm3_smul_le ?_ (norm3_cross w g)
    rw [abs_mul]
    exact mul_le_mul (coef_dA dt h) hd (abs_nonneg _) (by positivity)
  have k2 : norm3 (((dt * norm3 w * sin (dt * norm3 w) - 2 * (1 - cos (dt * norm3 w))) / norm3 w ^ 4 * (w ⬝ᵥ v)) •
      crossProduct w (crossProduct w g)) ≤ (dt ^ 4 / 12 * (norm3 w * norm3 v)) * (norm3 w * (norm3 w * norm3 g)) := by
    refine norm3_smul_le ?_ (norm3_cross_le le_rfl (norm3_cross w g))
    rw [abs_mul]
    exact mul_le_mul (coef_dB dt h) hd (abs_nonneg _) (by positivity)
  have e4 : dt ^ 4 = |dt| ^ 4 := by rw [← abs_pow]; exact (abs_of_nonneg (by positivity)).symm
  rw [e4] at k2
  calc _ ≤ _ := add_le_add k1 k2
    _ = _ := by ring

theorem rotDeriv_bound (dt : ℝ) {w : V3} (h : 0 < norm3 w) (v g : V3) : norm3 (rotDeriv dt w v g) ≤
    |dt| * (1 + |dt| * norm3 w + (|dt| * norm3 w) ^ 2 / 3 + (|dt| * norm3 w) ^ 3 / 12) * norm3 v * norm3 g := by
  have ht := rotDeriv_tail dt h v g
  unfold rotDeriv
  rw [add_assoc]
  have k1 := norm3_smul_le (coef_A_abs dt h) (norm3_cross v g)
  have k2 : norm3 (((1 - cos (dt * norm3 w)) / norm3 w ^ 2) • (crossProduct v (crossProduct w g) + crossProduct w (crossProduct v g)))
      ≤ dt ^ 2 / 2 * (norm3 v * (norm3 w * norm3 g) + norm3 w * (norm3 v * norm3 g)) :=
    norm3_smul_le (coef_B_abs dt h) ((norm3_add _ _).trans
      (add_le_add (norm3_cross_le le_rfl (norm3_cross w g)) (norm3_cross_le le_rfl (norm3_cross v g))))
  rw [← sq_abs dt] at k2
  calc _ ≤ _ := (norm3_add _ _).trans (add_le_add ((norm3_add _ _).trans (add_le_add k1 k2)) ht)
    _ = _ := by ring

theorem jacGravityRate_mulVec (dt : ℝ) (g w v : V3) : SixDRates.jacGravityRate dt g w *ᵥ v =
    ((deltaQuaternion dt w).w * dt) • crossProduct v g +
      (dt ^ 2 / 2) • (crossProduct v (crossProduct w g) + crossProduct w (crossProduct v g)) + (dt ^ 2 / 2 * (w ⬝ᵥ v)) • g := by
  unfold SixDRates.jacGravityRate
  ext i
  fin_cases i <;>
    simp [Matrix.mulVec, dotProduct, Fin.sum_univ_three, skew, crossProduct, Matrix.vecMulVec_apply, Matrix.one_apply, Matrix.vecHead, Matrix.vecTail] <;>
    ring

theorem gravityRate_error (dt : ℝ) {w : V3} (h : norm3 w > 1e-9) (v g : V3) :
    norm3 (rotDeriv dt w v g - SixDRates.jacGravityRate dt g w *ᵥ v) ≤
      dt ^ 2 / 2 * |w ⬝ᵥ v| * norm3 g +
      |dt| * (2 / 3 * (|dt| * norm3 w) ^ 2 + (|dt| * norm3 w) ^ 3 / 6) * norm3 v * norm3 g := by
  have hp : 0 < norm3 w := lt_trans (by norm_num) h
  have ht := rotDeriv_tail dt hp v g
  have hv := norm3_nonneg v
  have hg := norm3_nonneg g
  rw [jacGravityRate_mulVec]
  unfold rotDeriv
  rw [add_assoc]
  set T : V3 := ((dt * norm3 w * cos (dt * norm3 w) - sin (dt * norm3 w)) / norm3 w ^ 3 * (w ⬝ᵥ v)) • crossProduct w g +
    ((dt * norm3 w * sin (dt * norm3 w) - 2 * (1 - cos (dt * norm3 w))) / norm3 w ^ 4 * (w ⬝ᵥ v)) •
      crossProduct w (crossProduct w g)
  set X := crossProduct v (crossProduct w g) + crossProduct w (crossProduct v g) with hX
  have e : (sin (dt * norm3 w) / norm3 w) • crossProduct v g + ((1 - cos (dt * norm3 w)) / norm3 w ^ 2) • X + T -
      (((deltaQuaternion dt w).w * dt) • crossProduct v g + (dt ^ 2 / 2) • X + (dt ^ 2 / 2 * (w ⬝ᵥ v)) • g) =
      (-(dt ^ 2 / 2 * (w ⬝ᵥ v))) • g + (((sin (dt * norm3 w) / norm3 w - dt) + dt * (1 - (deltaQuaternion dt w).w)) • crossProduct v g +
        ((1 - cos (dt * norm3 w)) / norm3 w ^ 2 - dt ^ 2 / 2) • X + T) := by
    module
  rw [e]
  have k0 : norm3 ((-(dt ^ 2 / 2 * (w ⬝ᵥ v))) • g) = dt ^ 2 / 2 * |w ⬝ᵥ v| * norm3 g := by
    rw [norm3_smul, abs_neg, abs_mul, abs_of_nonneg (by positivity : 0 ≤ dt ^ 2 / 2)]
  have k1 : norm3 (((sin (dt * norm3 w) / norm3 w - dt) + dt * (1 - (deltaQuaternion dt w).w)) • crossProduct v g) ≤
      (|dt| * (|dt| * norm3 w) ^ 2 / 6 + |dt| * ((|dt| * norm3 w) ^ 2 / 8)) * (norm3 v * norm3 g) := by
    refine norm3_smul_le ((abs_add_le _ _).trans (add_le_add (coef_A dt hp) ?_)) (norm3_cross v g)
    rw [abs_mul]
    refine mul_le_mul_of_nonneg_left ?_ (abs_nonneg dt)
    rw [← abs_neg, neg_sub]
    refine (half_angle_cos dt w).trans_eq ?_
    rw [mul_pow |dt|, sq_abs]; ring
  have k2 : norm3 (((1 - cos (dt * norm3 w)) / norm3 w ^ 2 - dt ^ 2 / 2) • X) ≤
      dt ^ 2 * (|dt| * norm3 w) ^ 2 / 24 * (norm3 v * (norm3 w * norm3 g) + norm3 w * (norm3 v * norm3 g)) :=
    norm3_smul_le (coef_B dt hp) ((norm3_add _ _).trans
      (add_le_add (norm3_cross_le le_rfl (norm3_cross w g)) (norm3_cross_le le_rfl (norm3_cross v g))))
  have ed : dt ^ 2 * (|dt| * norm3 w) ^ 2 = |dt| ^ 2 * (|dt| * norm3 w) ^ 2 := by rw [sq_abs]
  rw [ed] at k2
  refine (norm3_add _ _).trans ?_
  rw [k0]
  refine add_le_add le_rfl ?_
  refine ((norm3_add _ _).trans (add_le_add ((norm3_add _ _).trans (add_le_add k1 k2)) ht)).trans ?_
  have q : 0 ≤ |dt| * (|dt| * norm3 w) ^ 2 * (norm3 v * norm3 g) := by positivity
  nlinarith

/-! ## The prediction and `G()` along any direction -/

theorem predicted_parts {s : SixDRates.Obj} (h : RatesState s) (dt : ℝ) (y : Fin 18 → ℝ) :
    (∀ i : Fin 18, 3 ≤ i.val → NotGravity i → SixDRates.predicted s y dt i = y i) ∧
    velocityOf (SixDRates.predicted s y dt) = velocityOf y + integrateVelocityRK4 dt (accelOf y) (rateOf y) 0 ∧
    gravityOf (SixDRates.predicted s y dt) = (deltaQuaternion dt (rateOf y)).rot (gravityOf y) := by
  obtain ⟨hgu, hu⟩ := rates_used h
  refine ⟨?_, ?_, ?_⟩
  · intro i h3 hi
    unfold SixDRates.predicted
    rw [dif_neg (by omega), dif_neg (by rcases hi with h | h <;> omega)]
  · rw [← part_accel, ← part_rate]
    funext k
    fin_cases k <;> simp [velocityOf, SixDRates.predicted, hu]
  · rw [← part_rate, ← part_gravity y]
    funext k
    fin_cases k <;> simp [gravityOf, SixDRates.predicted, hgu]

/-- The rate part of a direction, and the rest. -/
def rateOnly (v : Fin 18 → ℝ) : Fin 18 → ℝ := fun i => if 6 ≤ i.val ∧ i.val < 9 then v i else 0

theorem rateOnly_rest (v : Fin 18 → ℝ) : rateOf (v - rateOnly v) = 0 ∧ velocityOf (v - rateOnly v) = velocityOf v ∧
    accelOf (v - rateOnly v) = accelOf v ∧ gravityOf (v - rateOnly v) = gravityOf v := by
  refine ⟨?_, ?_, ?_, ?_⟩ <;> funext k <;> fin_cases k <;> simp [rateOf, velocityOf, accelOf, gravityOf, rateOnly]

theorem jacobian_rateOnly (x v : Fin 18 → ℝ) (dt : ℝ) :
    (∀ i : Fin 18, NotGravity i → (jacobian 1 x dt *ᵥ rateOnly v) i = rateOnly v i) ∧
    gravityOf (jacobian 1 x dt *ᵥ rateOnly v) = SixDRates.jacGravityRate dt (gravityOf x) (rateOf x) *ᵥ rateOf v := by
  constructor
  · intro i hi
    have e : ∀ j, jacobian 1 x dt i j * rateOnly v j = if j = i then rateOnly v j else 0 := by
      intro j
      rw [jacobian_apply, dif_neg (by rcases hi with h | h <;> omega), dif_neg (by rcases hi with h | h <;> omega)]
      by_cases h3 : i.val < 3 ∧ j.val = i.val + 3
      · rw [if_pos h3, if_neg (by intro h; rw [h] at h3; omega)]
        unfold rateOnly
        rw [if_neg (by omega), mul_zero]
      · rw [if_neg h3, Matrix.one_apply]
        by_cases h4 : i = j
        · rw [if_pos h4, if_pos h4.symm, one_mul]
        · rw [if_neg h4, if_neg (fun h => h4 h.symm), zero_mul]
    show ∑ j, jacobian 1 x dt i j * rateOnly v j = _
    simp only [e]
    rw [Finset.sum_ite_eq' Finset.univ i (rateOnly v), if_pos (Finset.mem_univ _)]
  · have hz : ∀ (i : Fin 18) (k : Fin 3) (hk : i.val = 9 + k.val), (jacobian 1 x dt *ᵥ rateOnly v) i =
        (SixDRates.jacGravityRate dt (gravityOf x) (rateOf x) *ᵥ rateOf v) k := by
      intro i k hk
      have e : ∀ j, jacobian 1 x dt i j * rateOnly v j = if h : 6 ≤ j.val ∧ j.val < 9 then
          SixDRates.jacGravityRate dt (gravityOf x) (rateOf x) k ⟨j.val - 6, by omega⟩ * v j else 0 := by
        intro j
        by_cases h6 : 6 ≤ j.val ∧ j.val < 9
        · rw [jacobian_apply, part_rate, part_gravity, dif_neg (by omega), dif_pos ⟨by omega, h6⟩, dif_pos h6]
          unfold rateOnly
          rw [if_pos h6]
          congr 2
          exact Fin.ext (by simp [hk])
        · rw [dif_neg h6]
          unfold rateOnly
          rw [if_neg h6, mul_zero]
      show ∑ j, jacobian 1 x dt i j * rateOnly v j = _
      simp only [e]
      simp [Fin.sum_univ_succ, Matrix.mulVec, dotProduct, rateOf]
    funext k
    fin_cases k
    · exact hz 9 0 rfl
    · exact hz 10 1 rfl
    · exact hz 11 2 rfl

/-- `G()` along any direction. -/
theorem jacobian_any (x v : Fin 18 → ℝ) (dt : ℝ) :
    (∀ i : Fin 18, 3 ≤ i.val → NotGravity i → (jacobian 1 x dt *ᵥ v) i = v i) ∧
    velocityOf (jacobian 1 x dt *ᵥ v) = velocityOf v + dt • accelOf v ∧
    gravityOf (jacobian 1 x dt *ᵥ v) = SixDRates.jacGravityGravity dt (rateOf x) *ᵥ gravityOf v +
      SixDRates.jacGravityRate dt (gravityOf x) (rateOf x) *ᵥ rateOf v := by
  obtain ⟨r1, r2, r3, r4⟩ := rateOnly_rest v
  obtain ⟨a1, a2, a3⟩ := jacobian_change x (v - rateOnly v) dt r1
  obtain ⟨b1, b2⟩ := jacobian_rateOnly x v dt
  have e : jacobian 1 x dt *ᵥ v = jacobian 1 x dt *ᵥ (v - rateOnly v) + jacobian 1 x dt *ᵥ rateOnly v := by
    rw [← Matrix.mulVec_add, sub_add_cancel]
  rw [r2, r3] at a2
  rw [r4] at a3
  rw [e]
  refine ⟨?_, ?_, ?_⟩
  · intro i h3 hi
    rw [Pi.add_apply, a1 i h3 hi, b1 i hi]
    simp
  · rw [← a2]
    funext k
    fin_cases k
    · show _ + (jacobian 1 x dt *ᵥ rateOnly v) 0 = _; rw [b1 0 (Or.inl (by decide))]; simp [velocityOf, rateOnly]
    · show _ + (jacobian 1 x dt *ᵥ rateOnly v) 1 = _; rw [b1 1 (Or.inl (by decide))]; simp [velocityOf, rateOnly]
    · show _ + (jacobian 1 x dt *ᵥ rateOnly v) 2 = _; rw [b1 2 (Or.inl (by decide))]; simp [velocityOf, rateOnly]
  · rw [← a3, ← b2]
    funext k
    fin_cases k <;> rfl

theorem rot_smul (q : Quat) (c : ℝ) (a : V3) : q.rot (c • a) = c • q.rot a := by
  simp only [rot_eq]
  ext i
  fin_cases i <;> simp <;> ring

/-- Derivative when both the rate and the rotated vector move. -/
theorem rot_both_deriv (dt : ℝ) {w : V3} (h : norm3 w > 1e-9) (v g γ : V3) :
    HasDerivAt (fun t : ℝ => (deltaQuaternion dt (w + t • v)).rot (g + t • γ))
      (rotDeriv dt w v g + (deltaQuaternion dt w).rot γ) 0 := by
  have e : (fun t : ℝ => (deltaQuaternion dt (w + t • v)).rot (g + t • γ)) = fun t : ℝ =>
      (deltaQuaternion dt (w + t • v)).rot g + t • (deltaQuaternion dt (w + t • v)).rot γ := by
    funext t
    rw [rot_add, rot_smul]
  rw [e]
  have h0 : w + (0 : ℝ) • v = w := by rw [zero_smul, add_zero]
  have a := (rot_line_deriv dt h v g).add ((hasDerivAt_id (0 : ℝ)).smul (rot_line_deriv dt h v γ))
  refine HasDerivAt.congr_deriv (f := fun t : ℝ =>
      (deltaQuaternion dt (w + t • v)).rot g + t • (deltaQuaternion dt (w + t • v)).rot γ) a ?_
  rw [h0]
  simp

theorem rk4_deriv (dt : ℝ) {w : V3} (h : norm3 w > 1e-9) (v a α : V3) :
    HasDerivAt (fun t : ℝ => integrateVelocityRK4 dt (a + t • α) (w + t • v) 0)
      (integrateVelocityRK4 dt α w 0 + (dt / 6) • ((4 : ℝ) • rotDeriv (0.5 * dt) w v a + rotDeriv dt w v a)) 0 := by
  have e : (fun t : ℝ => integrateVelocityRK4 dt (a + t • α) (w + t • v) 0) = fun t : ℝ => (dt / 6) • ((a + t • α) +
      (4 : ℝ) • (deltaQuaternion (0.5 * dt) (w + t • v)).rot (a + t • α) + (deltaQuaternion dt (w + t • v)).rot (a + t • α)) := by
    funext t
    unfold integrateVelocityRK4
    ext i
    simp only [Pi.add_apply, Pi.smul_apply, smul_eq_mul, Pi.zero_apply]
    ring
  rw [e]
  have ha : HasDerivAt (fun t : ℝ => a + t • α) α 0 := by
    have := ((hasDerivAt_id (0 : ℝ)).smul_const α).const_add a
    simpa using this
  have b := ((ha.add ((rot_both_deriv (0.5 * dt) h v a α).const_smul (4 : ℝ))).add (rot_both_deriv dt h v a α)).const_smul (dt / 6)
  refine HasDerivAt.congr_deriv (f := fun t : ℝ => (dt / 6) • ((a + t • α) +
      (4 : ℝ) • (deltaQuaternion (0.5 * dt) (w + t • v)).rot (a + t • α) + (deltaQuaternion dt (w + t • v)).rot (a + t • α))) b ?_
  unfold integrateVelocityRK4
  ext i
  simp only [Pi.add_apply, Pi.smul_apply, smul_eq_mul, Pi.zero_apply]
  ring

theorem rk4_deriv_error (dt : ℝ) {w : V3} (h : norm3 w > 1e-9) (v a α : V3) :
    norm3 (integrateVelocityRK4 dt α w 0 + (dt / 6) • ((4 : ℝ) • rotDeriv (0.5 * dt) w v a + rotDeriv dt w v a) - dt • α) ≤
      dt ^ 2 / 2 * (norm3 w * norm3 α +
        (1 + |dt| * norm3 w + (|dt| * norm3 w) ^ 2 / 3 + (|dt| * norm3 w) ^ 3 / 12) * norm3 v * norm3 a) := by
  have hp : 0 < norm3 w := lt_trans (by norm_num) h
  have hv := norm3_nonneg v
  have ha := norm3_nonneg a
  have e : integrateVelocityRK4 dt α w 0 + (dt / 6) • ((4 : ℝ) • rotDeriv (0.5 * dt) w v a + rotDeriv dt w v a) - dt • α =
      (integrateVelocityRK4 dt α w 0 - dt • α) + (dt / 6) • ((4 : ℝ) • rotDeriv (0.5 * dt) w v a + rotDeriv dt w v a) := by abel
  rw [e]
  refine (norm3_add _ _).trans ?_
  rw [mul_add]
  refine add_le_add ((rk4_error dt α w).trans_eq (by ring)) ?_
  have k1 := rotDeriv_bound (0.5 * dt) hp v a
  have k2 := rotDeriv_bound dt hp v a
  rw [abs_mul, abs_of_pos (by norm_num : (0:ℝ) < 0.5)] at k1
  set θ := |dt| * norm3 w with hθ
  have hθ0 : 0 ≤ θ := by positivity
  set K := 1 + θ + θ ^ 2 / 3 + θ ^ 3 / 12 with hK
  have eθ : 0.5 * |dt| * norm3 w = θ / 2 := by rw [hθ]; ring
  rw [eθ] at k1
  have hKle : 1 + θ / 2 + (θ / 2) ^ 2 / 3 + (θ / 2) ^ 3 / 12 ≤ K := by
    rw [hK]
    have h2 : 0 ≤ θ ^ 2 := by positivity
    have h3 : 0 ≤ θ ^ 3 := by positivity
    nlinarith
  have k1' : norm3 (rotDeriv (0.5 * dt) w v a) ≤ |dt| / 2 * K * norm3 v * norm3 a := by
    refine k1.trans ?_
    have : 0.5 * |dt| * (1 + θ / 2 + (θ / 2) ^ 2 / 3 + (θ / 2) ^ 3 / 12) ≤ |dt| / 2 * K := by
      have e : (0.5 : ℝ) * |dt| = |dt| / 2 := by ring
      rw [e]
      exact mul_le_mul_of_nonneg_left hKle (by positivity)
    gcongr
  have k3 : norm3 ((4 : ℝ) • rotDeriv (0.5 * dt) w v a) ≤ 4 * (|dt| / 2 * K * norm3 v * norm3 a) :=
    norm3_smul_le (by norm_num) k1'
  have k4 : norm3 ((dt / 6) • ((4 : ℝ) • rotDeriv (0.5 * dt) w v a + rotDeriv dt w v a)) ≤
      |dt| / 6 * (4 * (|dt| / 2 * K * norm3 v * norm3 a) + |dt| * K * norm3 v * norm3 a) := by
    refine norm3_smul_le ?_ ((norm3_add _ _).trans (add_le_add k3 k2))
    rw [abs_div, abs_of_pos (by norm_num : (0:ℝ) < 6)]
  refine k4.trans_eq ?_
  rw [← sq_abs dt]; ring

/-- **C55 for `SixDRates`, all directions.** After construction and any updates, at a state that is turning (the code
ignores rates up to 1e-9), `g()` has a derivative `D` in every direction `v`, and `G() * v` equals it except for velocity and
gravity.  There it is off by at most `dt²/2 (|w| |v_a| + (1 + …) |v_w| |a|)` and
`3/4 θ² |v_g| + dt²/2 |w·v_w| |g| + O(θ² dt |v_w| |g|)` with `θ = |dt| |w|`. Missing from C55: equality (refuted). -/
theorem C55_rates_every_direction_partial (uc : Bool) (l : List ((Fin 18 → ℝ) × ℝ)) (x : Fin 18 → ℝ) (dt : ℝ)
    (hw : norm3 (rateOf x) > 1e-9) :
    ∃ s f G, updates (SixDRates.construct true uc) l = some s ∧ PredictsState s dt f ∧ Linearises s dt x G ∧
    ∀ v, ∃ D, HasDerivAt (fun t : ℝ => f (x + t • v)) D 0 ∧
      (∀ i : Fin 18, 3 ≤ i.val → NotGravity i → D i = (G *ᵥ v) i) ∧
      norm3 (velocityOf D - velocityOf (G *ᵥ v)) ≤
        dt ^ 2 / 2 * (norm3 (rateOf x) * norm3 (accelOf v) +
          (1 + |dt| * norm3 (rateOf x) + (|dt| * norm3 (rateOf x)) ^ 2 / 3 + (|dt| * norm3 (rateOf x)) ^ 3 / 12) *
            norm3 (rateOf v) * norm3 (accelOf x)) ∧
      norm3 (gravityOf D - gravityOf (G *ᵥ v)) ≤
        3 / 4 * (dt * norm3 (rateOf x)) ^ 2 * norm3 (gravityOf v) +
        (dt ^ 2 / 2 * |rateOf x ⬝ᵥ rateOf v| * norm3 (gravityOf x) +
          |dt| * (2 / 3 * (|dt| * norm3 (rateOf x)) ^ 2 + (|dt| * norm3 (rateOf x)) ^ 3 / 6) *
            norm3 (rateOf v) * norm3 (gravityOf x)) := by
  obtain ⟨s, h1, h2⟩ := rates_updates l _ (rates_construct uc)
  refine ⟨s, fun y => SixDRates.predicted s y dt, jacobian 1 x dt, h1, ?_, ?_, ?_⟩
  · intro y
    obtain ⟨s', h3, _, h4, _⟩ := rates_step s h2 y dt
    exact ⟨s', h3, h4⟩
  · obtain ⟨s', h3, _, _, h5⟩ := rates_step s h2 x dt
    exact ⟨s', h3, h5⟩
  intro v
  obtain ⟨b1, b2, b3⟩ := jacobian_any x v dt
  have pr : ∀ t : ℝ, rateOf (x + t • v) = rateOf x + t • rateOf v := fun t => by funext k; fin_cases k <;> rfl
  have pa : ∀ t : ℝ, accelOf (x + t • v) = accelOf x + t • accelOf v := fun t => by funext k; fin_cases k <;> rfl
  have pg : ∀ t : ℝ, gravityOf (x + t • v) = gravityOf x + t • gravityOf v := fun t => by funext k; fin_cases k <;> rfl
  have pv : ∀ t : ℝ, velocityOf (x + t • v) = velocityOf x + t • velocityOf v := fun t => by funext k; fin_cases k <;> rfl
  -- the derivative
  let dV : V3 := velocityOf v + (integrateVelocityRK4 dt (accelOf v) (rateOf x) 0 +
    (dt / 6) • ((4 : ℝ) • rotDeriv (0.5 * dt) (rateOf x) (rateOf v) (accelOf x) + rotDeriv dt (rateOf x) (rateOf v) (accelOf x)))
  let dG : V3 := rotDeriv dt (rateOf x) (rateOf v) (gravityOf x) + (deltaQuaternion dt (rateOf x)).rot (gravityOf v)
  have hV : HasDerivAt (fun t : ℝ => velocityOf (SixDRates.predicted s (x + t • v) dt)) dV 0 := by
    have e : (fun t : ℝ => velocityOf (SixDRates.predicted s (x + t • v) dt)) = fun t : ℝ =>
        (velocityOf x + t • velocityOf v) + integrateVelocityRK4 dt (accelOf x + t • accelOf v) (rateOf x + t • rateOf v) 0 := by
      funext t
      rw [(predicted_parts h2 dt _).2.1, pr, pa, pv]
    rw [e]
    have hl : HasDerivAt (fun t : ℝ => velocityOf x + t • velocityOf v) (velocityOf v) 0 := by
      have := ((hasDerivAt_id (0 : ℝ)).smul_const (velocityOf v)).const_add (velocityOf x)
      simpa using this
    exact hl.add (rk4_deriv dt hw (rateOf v) (accelOf x) (accelOf v))
  have hG : HasDerivAt (fun t : ℝ => gravityOf (SixDRates.predicted s (x + t • v) dt)) dG 0 := by
    have e : (fun t : ℝ => gravityOf (SixDRates.predicted s (x + t • v) dt)) = fun t : ℝ =>
        (deltaQuaternion dt (rateOf x + t • rateOf v)).rot (gravityOf x + t • gravityOf v) := by
      funext t
      rw [(predicted_parts h2 dt _).2.2, pr, pg]
    rw [e]
    exact rot_both_deriv dt hw (rateOf v) (gravityOf x) (gravityOf v)
  let D : Fin 18 → ℝ := fun i => if h : i.val < 3 then dV ⟨i.val, h⟩ else
    if h : 9 ≤ i.val ∧ i.val < 12 then dG ⟨i.val - 9, by omega⟩ else v i
  have dvel : velocityOf D = dV := by funext k; fin_cases k <;> rfl
  have dgrav : gravityOf D = dG := by funext k; fin_cases k <;> rfl
  refine ⟨D, ?_, ?_, ?_, ?_⟩
  · rw [hasDerivAt_pi]
    intro i
    by_cases h3 : i.val < 3
    · have a := (hasDerivAt_pi.mp hV) ⟨i.val, h3⟩
      have e : D i = dV ⟨i.val, h3⟩ := by simp only [D, dif_pos h3]
      rw [e]
      refine a.congr_of_eventuallyEq (Filter.Eventually.of_forall fun t => ?_)
      obtain ⟨i, hi⟩ := i
      have : i = 0 ∨ i = 1 ∨ i = 2 := by simp only at h3; omega
      rcases this with rfl | rfl | rfl <;> rfl
    · by_cases h9 : 9 ≤ i.val ∧ i.val < 12
      · have a := (hasDerivAt_pi.mp hG) ⟨i.val - 9, by omega⟩
        have e : D i = dG ⟨i.val - 9, by omega⟩ := by simp only [D, dif_neg h3, dif_pos h9]
        rw [e]
        refine a.congr_of_eventuallyEq (Filter.Eventually.of_forall fun t => ?_)
        obtain ⟨i, hi⟩ := i
        have : i = 9 ∨ i = 10 ∨ i = 11 := by simp only at h9; omega
        rcases this with rfl | rfl | rfl <;> rfl
      · have e : D i = v i := by simp only [D, dif_neg h3, dif_neg h9]
        rw [e]
        have e2 : (fun t : ℝ => SixDRates.predicted s (x + t • v) dt i) = fun t : ℝ => x i + t * v i := by
          funext t
          rw [(predicted_parts h2 dt _).1 i (by omega) (by unfold NotGravity; omega)]
          rfl
        show HasDerivAt (fun t : ℝ => SixDRates.predicted s (x + t • v) dt i) (v i) 0
        rw [e2]
        simpa using ((hasDerivAt_id (0 : ℝ)).mul_const (v i)).const_add (x i)
  · intro i h3 hi
    have e : D i = v i := by
      simp only [D, dif_neg (by omega : ¬ i.val < 3), dif_neg (by rcases hi with h | h <;> omega : ¬ (9 ≤ i.val ∧ i.val < 12))]
    rw [b1 i h3 hi, e]
  · rw [dvel, b2]
    have e : dV - (velocityOf v + dt • accelOf v) = integrateVelocityRK4 dt (accelOf v) (rateOf x) 0 +
      (dt / 6) • ((4 : ℝ) • rotDeriv (0.5 * dt) (rateOf x) (rateOf v) (accelOf x) + rotDeriv dt (rateOf x) (rateOf v) (accelOf x))
        - dt • accelOf v := by
      simp only [dV]; abel
    rw [e]
    exact rk4_deriv_error dt hw _ _ _
  · rw [dgrav, b3]
    have e : dG - (SixDRates.jacGravityGravity dt (rateOf x) *ᵥ gravityOf v +
      SixDRates.jacGravityRate dt (gravityOf x) (rateOf x) *ᵥ rateOf v) =
      ((deltaQuaternion dt (rateOf x)).rot (gravityOf v) - SixDRates.jacGravityGravity dt (rateOf x) *ᵥ gravityOf v) +
      (rotDeriv dt (rateOf x) (rateOf v) (gravityOf x) - SixDRates.jacGravityRate dt (gravityOf x) (rateOf x) *ᵥ rateOf v) := by
      simp only [dG]; abel
    rw [e]
    exact (norm3_add _ _).trans (add_le_add (gravity_error dt _ _) (gravityRate_error dt hw _ _))

/-- The hypothesis is met: turning about z at one radian per second. -/
example : norm3 (rateOf spinning) > 1e-9 := by
  have hr : rateOf spinning = ![0, 0, 1] := rfl
  rw [hr, (norm3_axis 1 (by norm_num)).2.2.1]
  norm_num

end StateEstimation.Props
