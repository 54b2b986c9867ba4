import Verif.Lemmas.RigidBody
import Mathlib.Analysis.Calculus.Deriv.Prod

/-! # C104: the integration functions follow the motion of a rigid body -/

namespace StateEstimation.Props

open Matrix StateEstimation Turning

/-- **C104 (orientation).**  `deltaQuaternion(h, w)` is the true change of orientation of a body that turns with angular velocity
`w` for the time `h`, if `|w| > 1e-9`; otherwise it is the identity, and off by at most `1e-9 |h|` per unit length. -/
theorem C104_orientation {w : V3} {R : ℝ → M3} (hR : Turns w R) (h : ℝ) (b : V3) :
    (norm3 w > 1e-9 → (deltaQuaternion h w).rot b = R h *ᵥ b) ∧
    (norm3 w ≤ 1e-9 → norm3 ((deltaQuaternion h w).rot b - R h *ᵥ b) ≤ 1e-9 * |h| * norm3 b) := by
  refine ⟨fun hw => by rw [delta_turn hw, turns_turn hR], fun hw => ?_⟩
  rw [deltaQuaternion_small (not_lt.mpr hw), turns_turn hR]
  have e : Quat.identity.rot b - turn w (norm3 w * h) b = act w (1 - Complex.exp ((norm3 w * h : ℝ) * Complex.I)) (perp w b) := by
    have e1 : Quat.identity.rot b = b := by
      rw [rot_eq]
      ext i
      fin_cases i <;> simp [Quat.identity]
    rw [e1, ← act_sub, act_one]
    unfold turn
    conv_lhs => lhs; rw [← par_add_perp w b]
    abel
  rw [e, norm_act]
  have h1 : ‖1 - Complex.exp ((norm3 w * h : ℝ) * Complex.I)‖ ≤ 1e-9 * |h| := by
    rw [norm_sub_rev, mul_comm _ Complex.I]
    refine (Real.norm_exp_I_mul_ofReal_sub_one_le).trans ?_
    rw [Real.norm_eq_abs, abs_mul, abs_of_nonneg (norm3_nonneg w)]
    exact mul_le_mul_of_nonneg_right hw (abs_nonneg h)
  exact mul_le_mul h1 (norm_perp w b) (norm3_nonneg _) (by positivity)

/-- **C104 (velocity).**  A body turns with the constant angular velocity `w` and accelerates with the constant acceleration `a`,
both as felt on board.  Whatever the step `h`, the velocity that `integrateVelocityRK4` returns is off by at most
`|h|⁵ |w|⁴ |a| / 2880` (if `|w| ≤ 1e-9`, when the program neglects the rotation, by at most `1e-9 h² |a|`). -/
theorem C104_velocity {w a : V3} {R : ℝ → M3} {v p : ℝ → V3} (hm : Moves w a R v p) (h : ℝ) :
    norm3 (integrateVelocityRK4 h a w (v 0) - v h) ≤
      if norm3 w > 1e-9 then |h| ^ 5 * norm3 w ^ 4 / 2880 * norm3 a else 1e-9 * h ^ 2 * norm3 a := by
  rw [velocity_true hm h]
  split
  next hw =>
    have hn : norm3 w ≠ 0 := by intro e; rw [e] at hw; norm_num at hw
    rcases eq_or_ne h 0 with rfl | hh
    · simp [integrateVelocityRK4, gained, norm3, sqNorm]
    · rw [velocity_step hw hh]
      exact err_bound w h _ _ a (simpson_bound hn hh)
  next hw =>
    rw [C53_velocity h a (v 0) w (not_lt.mp hw), add_sub_add_left_eq_sub]
    refine (gained_small a h).trans ?_
    have := not_lt.mp hw
    exact mul_le_mul_of_nonneg_right (mul_le_mul_of_nonneg_right this (sq_nonneg h)) (norm3_nonneg a)

/-- **C104 (position).**  Likewise the position that `integratePositionRK4` returns is off by at most
`|h|⁵ |w|⁴ (|v| / 2880 + |h| |a| / 1152)` (if `|w| ≤ 1e-9`, by at most `1e-9 (h² |v| + 2 |h|³ |a|)`). -/
theorem C104_position {w a : V3} {R : ℝ → M3} {v p : ℝ → V3} (hm : Moves w a R v p) (h : ℝ) :
    norm3 ((integratePositionRK4 h (v 0) a w (p 0) (v 0)).1 - p h) ≤
      if norm3 w > 1e-9 then |h| ^ 5 * norm3 w ^ 4 / 2880 * norm3 (v 0) + |h| ^ 6 * norm3 w ^ 4 / 1152 * norm3 a
      else 1e-9 * (h ^ 2 * norm3 (v 0) + 2 * |h| ^ 3 * norm3 a) := by
  rw [position_true hm h]
  split
  next hw =>
    have hn : norm3 w ≠ 0 := by intro e; rw [e] at hw; norm_num at hw
    rcases eq_or_ne h 0 with rfl | hh
    · have : (integratePositionRK4 0 (v 0) a w (p 0) (v 0)).1 - (p 0 + gained w (v 0) 0 + covered w a 0) = 0 := by
        simp [integratePositionRK4, gained, covered]; norm_num
      rw [this]
      simp [norm3, sqNorm]
    · rw [position_step hw hh]
      exact (norm3_add _ _).trans (add_le_add (err_bound w h _ _ (v 0) (simpson_bound hn hh))
        (err_bound w h _ _ a (position_bound hn hh)))
  next hw =>
    have hw' := not_lt.mp hw
    rw [C53_position h (v 0) a (p 0) (v 0) w hw']
    have e : p 0 + h • v 0 + (h ^ 2 / 2) • a - (p 0 + gained w (v 0) h + covered w a h) =
        (h • v 0 - gained w (v 0) h) + ((h ^ 2 / 2) • a - covered w a h) := by abel
    rw [e]
    refine (norm3_add _ _).trans ((add_le_add (gained_small (v 0) h) (covered_small a h)).trans ?_)
    have h1 : norm3 w * (h ^ 2 * norm3 (v 0)) ≤ 1e-9 * (h ^ 2 * norm3 (v 0)) :=
      mul_le_mul_of_nonneg_right hw' (mul_nonneg (sq_nonneg h) (norm3_nonneg _))
    have h2 : norm3 w * (2 * |h| ^ 3 * norm3 a) ≤ 1e-9 * (2 * |h| ^ 3 * norm3 a) :=
      mul_le_mul_of_nonneg_right hw' (mul_nonneg (by positivity) (norm3_nonneg _))
    calc _ = norm3 w * (h ^ 2 * norm3 (v 0)) + norm3 w * (2 * |h| ^ 3 * norm3 a) := by ring
      _ ≤ _ := by linarith

/-! ### A case -/

/-- turning about the third axis -/
private noncomputable def wheel (s : ℝ) : M3 :=
  !![Real.cos s, -Real.sin s, 0; Real.sin s, Real.cos s, 0; 0, 0, 1]

private theorem wheel_turns : Turns ![0, 0, 1] wheel := by
  constructor
  · ext i j; fin_cases i <;> fin_cases j <;> simp [wheel]
  · intro b s
    rw [hasDerivAt_pi]
    intro i
    have hc := Real.hasDerivAt_cos s
    have hs := Real.hasDerivAt_sin s
    fin_cases i
    · have := (hc.mul_const (b 0)).sub (hs.mul_const (b 1))
      refine (this.congr_deriv ?_).congr_of_eventuallyEq (Filter.Eventually.of_forall fun t => ?_)
      · simp [wheel, mulVec, dotProduct, Fin.sum_univ_three, cross_apply]; ring
      · simp [wheel, mulVec, dotProduct, Fin.sum_univ_three]; ring
    · have := (hs.mul_const (b 0)).add (hc.mul_const (b 1))
      refine (this.congr_deriv ?_).congr_of_eventuallyEq (Filter.Eventually.of_forall fun t => ?_)
      · simp [wheel, mulVec, dotProduct, Fin.sum_univ_three, cross_apply]; ring
      · simp [wheel, mulVec, dotProduct, Fin.sum_univ_three]
    · refine ((hasDerivAt_const s (b 2)).congr_deriv ?_).congr_of_eventuallyEq (Filter.Eventually.of_forall fun t => ?_)
      · simp [wheel, mulVec, dotProduct, Fin.sum_univ_three, cross_apply]
      · simp [wheel, mulVec, dotProduct, Fin.sum_univ_three]

/-- The hypotheses are met by a body that turns with rate 1 about the third axis while it accelerates with 1 along the first. -/
theorem wheel_moves : Moves ![0, 0, 1] ![1, 0, 0] wheel (fun s => ![Real.sin s, 1 - Real.cos s, 0])
    (fun s => ![Real.cos s - Real.cos (2 * s) / 2, Real.sin s - Real.sin (2 * s) / 2, 0]) := by
  refine ⟨wheel_turns, fun s => ?_, fun s => ?_⟩
  · rw [hasDerivAt_pi]
    intro i
    fin_cases i
    · simpa [wheel, mulVec, dotProduct, Fin.sum_univ_three] using Real.hasDerivAt_sin s
    · simpa [wheel, mulVec, dotProduct, Fin.sum_univ_three] using (Real.hasDerivAt_cos s).const_sub 1
    · simpa [wheel, mulVec, dotProduct, Fin.sum_univ_three] using hasDerivAt_const s (0 : ℝ)
  · rw [hasDerivAt_pi]
    intro i
    have l2 : HasDerivAt (fun t : ℝ => 2 * t) 2 s := by simpa using (hasDerivAt_id s).const_mul 2
    have e := Real.sin_sq_add_cos_sq s
    fin_cases i
    · refine ((Real.hasDerivAt_cos s).sub (l2.cos.div_const 2)).congr_deriv ?_
      simp [wheel, mulVec, dotProduct, Fin.sum_univ_three, Real.sin_two_mul]; ring
    · refine ((Real.hasDerivAt_sin s).sub (l2.sin.div_const 2)).congr_deriv ?_
      simp [wheel, mulVec, dotProduct, Fin.sum_univ_three, Real.cos_two_mul]; linear_combination -e
    · simpa [wheel, mulVec, dotProduct, Fin.sum_univ_three] using hasDerivAt_const s (0 : ℝ)

/-- In a step of one second the velocity is off by less than a two-thousandth. -/
example : norm3 (integrateVelocityRK4 1 ![1, 0, 0] ![0, 0, 1] ![0, 0, 0] - ![Real.sin 1, 1 - Real.cos 1, 0]) ≤ 1 / 2880 := by
  have h := C104_velocity wheel_moves 1
  have n1 : norm3 ![0, 0, 1] = 1 := by simp [norm3, sqNorm]
  have n2 : norm3 ![1, 0, 0] = 1 := by simp [norm3, sqNorm]
  rw [n1, n2, if_pos (by norm_num)] at h
  simpa using h

end StateEstimation.Props
