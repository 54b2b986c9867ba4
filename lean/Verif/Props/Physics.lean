import Verif.Props.Integration
import Verif.Props.SixDSystem
import Mathlib.Topology.Algebra.Module.FiniteDimension

/-! # C105: does `SixDRates` predict the motion of a rigid body? -/

namespace StateEstimation.Props

open Matrix StateEstimation Turning

/-! ### Motion on board -/

/-- the quarter turn as a linear map -/
private noncomputable def Jl (w : V3) : V3 →L[ℝ] V3 :=
  LinearMap.toContinuousLinearMap { toFun := J w, map_add' := J_add w, map_smul' := fun r b => J_smul w r b }

private theorem J_deriv {w : V3} {y : ℝ → V3} {y' : V3} {s : ℝ} (h : HasDerivAt y y' s) :
    HasDerivAt (fun s => J w (y s)) (J w y') s := (Jl w).hasFDerivAt.comp_hasDerivAt s h

private theorem turn_deriv {w : V3} {y : ℝ → V3} {y' : V3} {s : ℝ} (h : HasDerivAt y y' s) :
    HasDerivAt (fun s => turn w (norm3 w * s) (y s)) (turn w (norm3 w * s) (y' + crossProduct w (y s))) s := by
  have e : (fun s => turn w (norm3 w * s) (y s)) = fun s =>
      y s + Real.sin (norm3 w * s) • J w (y s) + (1 - Real.cos (norm3 w * s)) • J w (J w (y s)) := by
    funext s; rw [turn_eq]
  rw [e, turn_eq]
  have h1 := (lin w s).sin.smul (J_deriv (w := w) h)
  have h2 := ((lin w s).cos.const_sub 1).smul (J_deriv (w := w) (J_deriv (w := w) h))
  refine ((h.add h1).add h2).congr_deriv ?_
  rw [cross_eq, J_add, J_add, J_smul, J_smul, J_cube]
  module

/-- The two descriptions of a motion agree: seen from the frame of time 0, the velocity of the body changes with the acceleration
felt on board, and gravity does not change. -/
theorem seen_from_body {w a : V3} {v g : ℝ → V3} (h : SeenFromBody w a v g) {R : ℝ → M3} (hR : Turns w R) (s : ℝ) :
    HasDerivAt (fun s => R s *ᵥ v s) (R s *ᵥ a) s ∧ R s *ᵥ g s = g 0 := by
  have e : ∀ y : ℝ → V3, (fun s => R s *ᵥ y s) = fun s => turn w (norm3 w * s) (y s) := fun y => by
    funext s; rw [turns_turn hR]
  refine ⟨?_, ?_⟩
  · rw [e, turns_turn hR]
    refine (turn_deriv (h.velocity s)).congr_deriv ?_
    rw [sub_add_cancel]
  · have hd : ∀ t, HasDerivAt (fun s => turn w (norm3 w * s) (g s)) 0 t := fun t => by
      refine (turn_deriv (h.gravity t)).congr_deriv ?_
      rw [neg_add_cancel, turn_eq]
      simp [J]
    have := eq_of_deriv hd (g := fun _ => g 0) (fun t => hasDerivAt_const t _) (by simp [turn_zero]) s
    rw [turns_turn hR]
    exact this

private theorem gravity_true {w a : V3} {v g : ℝ → V3} (h : SeenFromBody w a v g) (s : ℝ) : g s = turn w (-(norm3 w * s)) (g 0) := by
  have hd : ∀ t, HasDerivAt (fun s => turn w (norm3 w * s) (g s)) 0 t := fun t => by
    refine (turn_deriv (h.gravity t)).congr_deriv ?_
    rw [neg_add_cancel, turn_eq]
    simp [J]
  have := eq_of_deriv hd (g := fun _ => g 0) (fun t => hasDerivAt_const t _) (by simp [turn_zero]) s
  rw [← this, turn_add, neg_add_cancel, turn_zero]

private theorem velocity_seen {w a : V3} {v g : ℝ → V3} (h : SeenFromBody w a v g) (s : ℝ) :
    turn w (norm3 w * s) (v s) = v 0 + gained w a s := by
  refine eq_of_deriv (f := fun s => turn w (norm3 w * s) (v s)) (g := fun s => v 0 + gained w a s)
    (f' := fun s => turn w (norm3 w * s) a) (fun t => ?_) (fun t => (gained_deriv w a t).const_add _) ?_ s
  · refine (turn_deriv (h.velocity t)).congr_deriv ?_
    rw [sub_add_cancel]
  · simp [gained, turn_zero]

/-- what `g()` contains -/
private theorem model_predicts (uc : Bool) (l : List ((Fin 18 → ℝ) × ℝ)) (dt : ℝ) :
    ∃ s f, updates (SixDRates.construct true uc) l = some s ∧ PredictsState s dt f ∧ ∀ x : Fin 18 → ℝ,
      velocityOf (f x) = integrateVelocityRK4 dt (accelOf x) (rateOf x) (velocityOf x) ∧
      gravityOf (f x) = (deltaQuaternion dt (rateOf x)).rot (gravityOf x) ∧
      ∀ i : Fin 18, 3 ≤ i.val → NotGravity i → f x i = x i := by
  obtain ⟨s, h1, h2⟩ := rates_updates l _ (rates_construct uc)
  refine ⟨s, fun y => SixDRates.predicted s y dt, h1, fun y => ?_, fun x => ?_⟩
  · obtain ⟨s', h3, _, h4, _⟩ := rates_step s h2 y dt
    exact ⟨s', h3, h4⟩
  · obtain ⟨hgu, hu⟩ := rates_used h2
    refine ⟨?_, ?_, ?_⟩
    · have e : ∀ v, integrateVelocityRK4 dt (accelOf x) (rateOf x) v = v + integrateVelocityRK4 dt (accelOf x) (rateOf x) 0 := by
        intro v; simp only [integrateVelocityRK4, zero_add]
      rw [e, ← part_accel, ← part_rate]
      funext k
      fin_cases k <;> simp [velocityOf, SixDRates.predicted, hu]
    · rw [← part_rate, ← part_gravity x]
      funext k
      fin_cases k <;> simp [gravityOf, SixDRates.predicted, hgu]
    · intro i h3 hi
      show SixDRates.predicted s x dt i = x i
      unfold SixDRates.predicted
      rw [dif_neg (by omega), dif_neg (by rcases hi with h | h <;> omega)]

private theorem velocity_error (dt : ℝ) {w : V3} (hw : norm3 w > 1e-9) (a v0 : V3) :
    norm3 (integrateVelocityRK4 dt a w v0 - (v0 + gained w a dt)) ≤ |dt| ^ 5 * norm3 w ^ 4 / 2880 * norm3 a := by
  have hn : norm3 w ≠ 0 := by intro e; rw [e] at hw; norm_num at hw
  rcases eq_or_ne dt 0 with rfl | hh
  · simp [integrateVelocityRK4, gained, norm3, sqNorm]
  · rw [velocity_step hw hh]
    exact err_bound w dt _ _ a (simpson_bound hn hh)

/-- **C105 (partial).**  A `SixDRates` object, after construction and any updates; a state `x`; and the true motion that starts with
the velocity and gravity of `x` and goes on with its angular rate and acceleration, as seen on board (`v`, `g`; `R` is the change
of orientation).
* Without rotation the predicted velocity and gravity are the true ones.
* With rotation, the predicted velocity is (up to the error of the RK4 step) the true velocity *in the frame of the body before
  the step*; and the predicted gravity is the true gravity *turned twice by the rotation of the step*.
Missing: what the state means, namely velocity and gravity in the frame of the body after the step, which is false
(`C105_refuted_gravity`, `C105_refuted_velocity`). -/
theorem C105_motion_partial (uc : Bool) (l : List ((Fin 18 → ℝ) × ℝ)) (dt : ℝ) :
    ∃ s f, updates (SixDRates.construct true uc) l = some s ∧ PredictsState s dt f ∧
    ∀ (x : Fin 18 → ℝ) (v g : ℝ → V3) (R : ℝ → M3), SeenFromBody (rateOf x) (accelOf x) v g → Turns (rateOf x) R →
      v 0 = velocityOf x → g 0 = gravityOf x →
      (rateOf x = 0 → velocityOf (f x) = v dt ∧ gravityOf (f x) = g dt) ∧
      (norm3 (rateOf x) > 1e-9 →
        norm3 (velocityOf (f x) - R dt *ᵥ v dt) ≤ |dt| ^ 5 * norm3 (rateOf x) ^ 4 / 2880 * norm3 (accelOf x) ∧
        gravityOf (f x) = R dt *ᵥ (R dt *ᵥ g dt)) ∧
      accelOf (f x) = accelOf x ∧ rateOf (f x) = rateOf x := by
  obtain ⟨s, f, h1, h2, h3⟩ := model_predicts uc l dt
  refine ⟨s, f, h1, h2, fun x v g R hb hR hv hg => ?_⟩
  obtain ⟨e1, e2, e3⟩ := h3 x
  refine ⟨fun h0 => ?_, fun hw => ⟨?_, ?_⟩, ?_, ?_⟩
  · have hn : norm3 (rateOf x) = 0 := by rw [h0]; simp [norm3, sqNorm]
    have ht : ∀ phi b, turn (rateOf x) phi b = b := fun phi b => by
      obtain ⟨z1, z2, z3⟩ := still hn b
      rw [turn_parts, z1, z2, z3, smul_zero, smul_zero, add_zero, add_zero]
    have hsmall : norm3 (rateOf x) ≤ 1e-9 := by rw [hn]; norm_num
    have hvt := velocity_seen hb dt
    obtain ⟨z1, z2, z3⟩ := still hn (accelOf x)
    rw [ht, gained, z1, z2, z3, smul_zero, smul_zero, add_zero, add_zero] at hvt
    constructor
    · rw [e1, C53_velocity dt _ _ _ hsmall, hvt, hv]
    · rw [e2, deltaQuaternion_small (not_lt.mpr hsmall), gravity_true hb dt, ht, hg, rot_eq]
      ext i
      fin_cases i <;> simp [Quat.identity]
  · rw [e1, turns_turn hR, velocity_seen hb dt, hv]
    exact velocity_error dt hw _ _
  · rw [e2, delta_turn hw, (seen_from_body hb hR dt).2, turns_turn hR, hg]
  · funext k; fin_cases k <;> exact e3 _ (by decide) (Or.inl (by decide))
  · funext k; fin_cases k <;> exact e3 _ (by decide) (Or.inl (by decide))

private theorem sqNorm_cross (w b : V3) : norm3 (crossProduct w b) = norm3 w * norm3 (J w b) := by
  rw [cross_eq, norm3_smul, abs_of_nonneg (norm3_nonneg w)]

/-- **C105 fails (gravity).**  `SixDRates` turns gravity with the body instead of against it.  For any state and any motion with
rotation, the predicted gravity is off by exactly `2 |sin(|w| dt)| |w × g| / |w|`, where leaving gravity alone would be off by
`2 |sin(|w| dt / 2)| |w × g| / |w|`; so for turns of up to 2 radians not to turn gravity at all would be more accurate. -/
theorem C105_refuted_gravity (uc : Bool) (l : List ((Fin 18 → ℝ) × ℝ)) (dt : ℝ) :
    ∃ s f, updates (SixDRates.construct true uc) l = some s ∧ PredictsState s dt f ∧
    ∀ (x : Fin 18 → ℝ) (v g : ℝ → V3), SeenFromBody (rateOf x) (accelOf x) v g → g 0 = gravityOf x → norm3 (rateOf x) > 1e-9 →
      norm3 (gravityOf (f x) - g dt) =
        2 * |Real.sin (norm3 (rateOf x) * dt)| * norm3 (crossProduct (rateOf x) (gravityOf x)) / norm3 (rateOf x) ∧
      norm3 (gravityOf x - g dt) =
        2 * |Real.sin (norm3 (rateOf x) * dt / 2)| * norm3 (crossProduct (rateOf x) (gravityOf x)) / norm3 (rateOf x) ∧
      (crossProduct (rateOf x) (gravityOf x) ≠ 0 → dt ≠ 0 → |norm3 (rateOf x) * dt| ≤ 2 →
        norm3 (gravityOf x - g dt) < norm3 (gravityOf (f x) - g dt)) := by
  obtain ⟨s, f, h1, h2, h3⟩ := model_predicts uc l dt
  refine ⟨s, f, h1, h2, fun x v g hb hg hw => ?_⟩
  obtain ⟨-, e2, -⟩ := h3 x
  have hn : norm3 (rateOf x) ≠ 0 := by intro e; rw [e] at hw; norm_num at hw
  rw [e2, delta_turn hw, gravity_true hb dt, hg, sqNorm_cross]
  generalize gravityOf x = b
  have hJ : norm3 (J (rateOf x) b) = norm3 (perp (rateOf x) b) := by
    have := sqNorm_J_perp (rateOf x) b
    rw [J_perp] at this
    unfold norm3; rw [this]
  have e4 : turn (rateOf x) (norm3 (rateOf x) * dt) b - turn (rateOf x) (-(norm3 (rateOf x) * dt)) b =
      (2 * Real.sin (norm3 (rateOf x) * dt)) • J (rateOf x) b := by
    rw [turn_eq, turn_eq, Real.sin_neg, Real.cos_neg]; module
  have e5 : norm3 (b - turn (rateOf x) (-(norm3 (rateOf x) * dt)) b) =
      2 * |Real.sin (norm3 (rateOf x) * dt / 2)| * norm3 (J (rateOf x) b) := by
    have e6 : b - turn (rateOf x) (-(norm3 (rateOf x) * dt)) b =
        act (rateOf x) (1 - Complex.exp ((-(norm3 (rateOf x) * dt) : ℝ) * Complex.I)) (perp (rateOf x) b) := by
      rw [← act_sub, act_one]
      unfold turn
      conv_lhs => lhs; rw [← par_add_perp (rateOf x) b]
      abel
    rw [e6, norm_act, hJ]
    congr 1
    generalize norm3 (rateOf x) * dt = y
    have e7 : ‖1 - Complex.exp ((-y : ℝ) * Complex.I)‖ ^ 2 = (2 * |Real.sin (y / 2)|) ^ 2 := by
      rw [Complex.sq_norm, Complex.normSq_apply, Complex.sub_re, Complex.sub_im, Complex.exp_ofReal_mul_I_re,
        Complex.exp_ofReal_mul_I_im, Complex.one_re, Complex.one_im, Real.sin_neg, Real.cos_neg, mul_pow, sq_abs]
      have e8 : y = 2 * (y / 2) := by ring
      rw [e8, Real.cos_two_mul, Real.sin_two_mul]
      have := Real.sin_sq_add_cos_sq (y / 2)
      have e9 : 2 * (y / 2) / 2 = y / 2 := by ring
      rw [e9]
      have e10 : Real.cos (y / 2) ^ 2 = 1 - Real.sin (y / 2) ^ 2 := by linarith
      generalize Real.sin (y / 2) = S at *
      generalize Real.cos (y / 2) = C at *
      linear_combination (4 * C ^ 2 - 4 + 4 * S ^ 2 - 4 * S ^ 2 + 4) * e10 - 4 * e10
    exact (pow_left_inj₀ (norm_nonneg _) (by positivity) (by norm_num)).mp e7
  rw [e4, e5, norm3_smul, abs_mul, abs_of_pos (by norm_num : (0 : ℝ) < 2)]
  refine ⟨by field_simp, by field_simp, fun hc hdt hsmall => ?_⟩
  have hpos : 0 < norm3 (J (rateOf x) b) := by
    refine lt_of_le_of_ne (norm3_nonneg _) fun h0 => hc ?_
    rw [cross_eq, norm3_zero_iff h0.symm, smul_zero]
  refine mul_lt_mul_of_pos_right ?_ hpos
  have hy0 : norm3 (rateOf x) * dt ≠ 0 := mul_ne_zero hn hdt
  generalize norm3 (rateOf x) * dt = y at *
  have e8 : y = 2 * (y / 2) := by ring
  have hcos : 1 / 2 < Real.cos (y / 2) := by
    rw [← Real.cos_abs, ← Real.cos_pi_div_three]
    have : |y / 2| ≤ 1 := by rw [abs_div, abs_of_pos (by norm_num : (0 : ℝ) < 2)]; linarith
    exact Real.cos_lt_cos_of_nonneg_of_le_pi (abs_nonneg _) (by linarith [Real.pi_pos]) (by linarith [Real.pi_gt_three])
  have hsin : 0 < |Real.sin (y / 2)| := by
    rw [abs_pos]
    intro h0
    have habs : |y / 2| < Real.pi := by
      have : |y / 2| ≤ 1 := by rw [abs_div, abs_of_pos (by norm_num : (0 : ℝ) < 2)]; linarith
      linarith [Real.pi_gt_three]
    have hlt := abs_lt.mp habs
    have := (Real.sin_eq_zero_iff_of_lt_of_lt hlt.1 hlt.2).mp h0
    exact hy0 (by linarith)
  have e9 : |Real.sin y| = 2 * |Real.sin (y / 2)| * Real.cos (y / 2) := by
    conv_lhs => rw [e8]
    rw [Real.sin_two_mul, abs_mul, abs_mul, abs_of_pos (by norm_num : (0 : ℝ) < 2), abs_of_pos (by linarith : 0 < Real.cos (y / 2))]
  rw [e9]
  nlinarith

/-! ### Two motions -/

/-- A body at rest on a turntable that turns about the (horizontal) first axis, a quarter turn per second: gravity as seen on
board. -/
private noncomputable def tipping (s : ℝ) : V3 := ![0, 9.8 * Real.sin (Real.pi / 2 * s), 9.8 * Real.cos (Real.pi / 2 * s)]

private theorem tipping_seen : SeenFromBody ![Real.pi / 2, 0, 0] 0 (fun _ => 0) tipping := by
  refine ⟨fun s => ?_, fun s => ?_⟩
  · simpa using hasDerivAt_const s (0 : V3)
  · rw [hasDerivAt_pi]
    have l2 : HasDerivAt (fun t : ℝ => Real.pi / 2 * t) (Real.pi / 2) s := by simpa using (hasDerivAt_id s).const_mul (Real.pi / 2)
    intro i
    fin_cases i
    · simpa [tipping, cross_apply] using hasDerivAt_const s (0 : ℝ)
    · refine (l2.sin.const_mul 9.8).congr_deriv ?_
      simp [tipping, cross_apply]; ring
    · refine (l2.cos.const_mul 9.8).congr_deriv ?_
      simp [tipping, cross_apply]; ring

/-- its state: angular rate and gravity, the rest is zero -/
private noncomputable def tippingState (i : Fin 18) : ℝ := if i = 6 then Real.pi / 2 else if i = 11 then 9.8 else 0

/-- **C105 fails (gravity), a case.**  The body lies still and is turned by a quarter turn in a second.  The true gravity is then
`(0, 9.8, 0)`, the predicted one `(0, -9.8, 0)`. -/
theorem C105_refuted_quarter_turn (uc : Bool) : ∃ f, PredictsState (SixDRates.construct true uc) 1 f ∧
    SeenFromBody (rateOf tippingState) (accelOf tippingState) (fun _ => velocityOf tippingState) tipping ∧
    tipping 0 = gravityOf tippingState ∧ tipping 1 = ![0, 9.8, 0] ∧ gravityOf (f tippingState) = ![0, -9.8, 0] := by
  obtain ⟨s, f, h1, h2, h3⟩ := model_predicts uc [] 1
  obtain rfl := Option.some.inj h1
  have r1 : rateOf tippingState = ![Real.pi / 2, 0, 0] := by funext k; fin_cases k <;> simp [rateOf, tippingState]
  have r2 : accelOf tippingState = 0 := by funext k; fin_cases k <;> simp [accelOf, tippingState]
  have r3 : velocityOf tippingState = 0 := by funext k; fin_cases k <;> simp [velocityOf, tippingState]
  have r4 : gravityOf tippingState = ![0, 0, 9.8] := by funext k; fin_cases k <;> simp [gravityOf, tippingState]
  have hn : norm3 ![Real.pi / 2, 0, 0] = Real.pi / 2 := by
    have : sqNorm ![Real.pi / 2, 0, 0] = (Real.pi / 2) ^ 2 := by simp [sqNorm]; ring
    rw [norm3, this, Real.sqrt_sq (by positivity)]
  have hbig : norm3 ![Real.pi / 2, 0, 0] > 1e-9 := by rw [hn]; norm_num; linarith [Real.pi_gt_three]
  refine ⟨f, h2, ?_, ?_, ?_, ?_⟩
  · rw [r1, r2, r3]; exact tipping_seen
  · rw [r4]; simp [tipping]
  · simp [tipping]
  · rw [(h3 tippingState).2.1, r1, r4, delta_turn hbig, hn, turn_eq, mul_one, Real.sin_pi_div_two, Real.cos_pi_div_two]
    unfold J
    rw [hn]
    have := Real.pi_ne_zero
    ext i
    fin_cases i <;> simp [cross_apply] <;> field_simp <;> ring

/-- A vehicle driving in a circle with speed 1, half a turn per second: it is always accelerated to its left. -/
private noncomputable def circling (i : Fin 18) : ℝ := if i = 0 then 1 else if i = 4 then Real.pi else if i = 8 then Real.pi else 0

/-- **C105 fails (velocity).**  A vehicle drives in a circle with constant speed 1, half a turn per second.  On board its
velocity is always `(1, 0, 0)`; the velocity predicted for the end of the second is `(1 - 2π/3, 0, 0)`, backwards. -/
theorem C105_refuted_velocity (uc : Bool) : ∃ f, PredictsState (SixDRates.construct true uc) 1 f ∧
    SeenFromBody (rateOf circling) (accelOf circling) (fun _ => velocityOf circling) (fun _ => gravityOf circling) ∧
    velocityOf circling = ![1, 0, 0] ∧ velocityOf (f circling) = ![1 - 2 * Real.pi / 3, 0, 0] := by
  obtain ⟨s, f, h1, h2, h3⟩ := model_predicts uc [] 1
  obtain rfl := Option.some.inj h1
  have r1 : rateOf circling = ![0, 0, Real.pi] := by funext k; fin_cases k <;> simp [rateOf, circling]
  have r2 : accelOf circling = ![0, Real.pi, 0] := by funext k; fin_cases k <;> simp [accelOf, circling]
  have r3 : velocityOf circling = ![1, 0, 0] := by funext k; fin_cases k <;> simp [velocityOf, circling]
  have r4 : gravityOf circling = 0 := by funext k; fin_cases k <;> simp [gravityOf, circling]
  have hn : norm3 ![0, 0, Real.pi] = Real.pi := by
    have : sqNorm ![0, 0, Real.pi] = Real.pi ^ 2 := by simp [sqNorm]; ring
    rw [norm3, this, Real.sqrt_sq (by positivity)]
  have hbig : norm3 ![0, 0, Real.pi] > 1e-9 := by rw [hn]; norm_num; linarith [Real.pi_gt_three]
  refine ⟨f, h2, ?_, r3, ?_⟩
  · rw [r1, r2, r3, r4]
    refine ⟨fun s => (hasDerivAt_const s _).congr_deriv ?_, fun s => (hasDerivAt_const s _).congr_deriv ?_⟩
    · ext i; fin_cases i <;> simp [cross_apply]
    · simp
  · rw [(h3 circling).1, r1, r2, r3]
    unfold integrateVelocityRK4
    simp only [delta_turn hbig]
    rw [hn, mul_one, mul_one, turn_eq, turn_eq, show Real.pi * 0.5 = Real.pi / 2 by ring, Real.sin_pi_div_two, Real.cos_pi_div_two,
      Real.sin_pi, Real.cos_pi]
    unfold J
    rw [hn]
    have := Real.pi_ne_zero
    ext i
    fin_cases i <;> simp [cross_apply] <;> field_simp <;> ring

/-! ### Every state has a motion -/

private theorem turn_neg (w : V3) (phi : ℝ) (b : V3) : turn (-w) phi b = turn w (-phi) b := by
  have hJ : ∀ c, J (-w) c = -J w c := fun c => by unfold J; rw [norm3_neg, map_neg, LinearMap.neg_apply, smul_neg]
  rw [turn_eq, turn_eq, hJ, hJ, J_neg, Real.sin_neg, Real.cos_neg]
  module

/-- The hypotheses of C105 can be met for every state: the motion exists. -/
theorem motion_exists (w a v0 g0 : V3) : (∃ v g, SeenFromBody w a v g ∧ v 0 = v0 ∧ g 0 = g0) ∧ ∃ R, Turns w R := by
  have hback : ∀ (y : ℝ → V3) (y' : V3) (s : ℝ), HasDerivAt y y' s →
      HasDerivAt (fun s => turn w (-(norm3 w * s)) (y s))
        (turn w (-(norm3 w * s)) y' - crossProduct w (turn w (-(norm3 w * s)) (y s))) s := by
    intro y y' s h
    have := turn_deriv (w := -w) h
    simp only [turn_neg, norm3_neg] at this
    refine this.congr_deriv ?_
    have hc : ∀ phi b, J w (turn w phi b) = turn w phi (J w b) := fun phi b => by
      rw [turn_eq, turn_eq, J_add, J_add, J_smul, J_smul]
    rw [map_neg, LinearMap.neg_apply, cross_eq, cross_eq, turn_lin, hc, ← neg_smul, turn_smul, neg_smul, sub_eq_add_neg]
  refine ⟨⟨fun s => turn w (-(norm3 w * s)) (v0 + gained w a s), fun s => turn w (-(norm3 w * s)) g0, ⟨fun s => ?_, fun s => ?_⟩,
    ?_, ?_⟩, fun s => LinearMap.toMatrix' { toFun := turn w (norm3 w * s), map_add' := turn_lin w _, map_smul' := turn_smul w _ },
    ?_, fun b s => ?_⟩
  · refine (hback _ _ s ((gained_deriv w a s).const_add v0)).congr_deriv ?_
    rw [turn_add, neg_add_cancel, turn_zero]
  · refine (hback _ _ s (hasDerivAt_const s g0)).congr_deriv ?_
    have : turn w (-(norm3 w * s)) 0 = 0 := by rw [turn_eq]; simp [J]
    rw [this, zero_sub]
  · simp [gained, turn_zero]
  · simp [turn_zero]
  · have : ({ toFun := turn w (norm3 w * 0), map_add' := turn_lin w _, map_smul' := turn_smul w _ } : V3 →ₗ[ℝ] V3) = LinearMap.id := by
      refine LinearMap.ext fun b => ?_
      simp [turn_zero]
    rw [this, LinearMap.toMatrix'_id]
  · simp only [LinearMap.toMatrix'_mulVec, LinearMap.coe_mk, AddHom.coe_mk]
    refine (turn_deriv (w := w) (hasDerivAt_const s b)).congr_deriv ?_
    rw [zero_add]

end StateEstimation.Props
