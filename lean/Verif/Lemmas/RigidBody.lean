import Verif.Lemmas.Turning
import Mathlib.Analysis.SpecialFunctions.Trigonometric.Bounds
import Mathlib.Analysis.Real.Pi.Bounds

/-!
# The motion of a rigid body in closed form, and the error of one RK4 step
-/

namespace StateEstimation
namespace Turning

open Matrix StateEstimation.Props

/-! ### Sines and cosines -/

theorem nonneg_of_deriv {f f' : ℝ → ℝ} {b : ℝ} (h0 : 0 ≤ f 0) (hd : ∀ x, HasDerivAt f (f' x) x)
    (hf : ∀ x, 0 ≤ x → x ≤ b → 0 ≤ f' x) (x : ℝ) (hx : 0 ≤ x) (hb : x ≤ b) : 0 ≤ f x := by
  have h : MonotoneOn f (Set.Icc 0 b) := by
    refine monotoneOn_of_deriv_nonneg (convex_Icc 0 b) (fun y _ => (hd y).continuousAt.continuousWithinAt)
      (fun y _ => (hd y).differentiableAt.differentiableWithinAt) ?_
    intro y hy
    rw [interior_Icc] at hy
    rw [(hd y).deriv]
    exact hf y hy.1.le hy.2.le
  exact h0.trans (h ⟨le_refl 0, hx.trans hb⟩ ⟨hx, hb⟩ hx)

/-- Simpson's rule for sine and cosine: `0 ≤ x (2 + cos x) - 3 sin x ≤ x⁵ / 60`. -/
theorem simpson_upper {x : ℝ} (hx : 0 ≤ x) : x * (2 + Real.cos x) - 3 * Real.sin x ≤ x ^ 5 / 60 := by
  have h3 : ∀ y, 0 ≤ y → y ≤ x → 0 ≤ y ^ 2 - y * Real.sin y := fun y hy _ => by
    nlinarith [Real.sin_le hy]
  have h2 : ∀ y, 0 ≤ y → y ≤ x → 0 ≤ y ^ 3 / 3 - (Real.sin y - y * Real.cos y) := by
    refine nonneg_of_deriv (f := fun y => y ^ 3 / 3 - (Real.sin y - y * Real.cos y)) (by simp) (fun y => ?_) h3
    have := ((hasDerivAt_pow 3 y).div_const 3).sub ((Real.hasDerivAt_sin y).sub ((hasDerivAt_id y).mul (Real.hasDerivAt_cos y)))
    refine this.congr_deriv ?_
    simp
  have h1 : ∀ y, 0 ≤ y → y ≤ x → 0 ≤ y ^ 4 / 12 - (2 - 2 * Real.cos y - y * Real.sin y) := by
    refine nonneg_of_deriv (f := fun y => y ^ 4 / 12 - (2 - 2 * Real.cos y - y * Real.sin y)) (by simp) (fun y => ?_) h2
    have := ((hasDerivAt_pow 4 y).div_const 12).sub
      ((((Real.hasDerivAt_cos y).const_mul 2).const_sub 2).sub ((hasDerivAt_id y).mul (Real.hasDerivAt_sin y)))
    refine this.congr_deriv ?_
    simp; ring
  have h0 : ∀ y, 0 ≤ y → y ≤ x → 0 ≤ y ^ 5 / 60 - (y * (2 + Real.cos y) - 3 * Real.sin y) := by
    refine nonneg_of_deriv (f := fun y => y ^ 5 / 60 - (y * (2 + Real.cos y) - 3 * Real.sin y)) (by simp) (fun y => ?_) h1
    have := ((hasDerivAt_pow 5 y).div_const 60).sub
      (((hasDerivAt_id y).mul ((Real.hasDerivAt_cos y).const_add 2)).sub ((Real.hasDerivAt_sin y).const_mul 3))
    refine this.congr_deriv ?_
    simp; ring
  linarith [h0 x hx le_rfl]

theorem simpson_lower {x : ℝ} (hx : 0 ≤ x) : 0 ≤ x * (2 + Real.cos x) - 3 * Real.sin x := by
  rcases le_or_gt x Real.pi with hp | hp
  · have h3 : ∀ y, 0 ≤ y → y ≤ Real.pi → 0 ≤ y * Real.sin y := fun y hy hy2 =>
      mul_nonneg hy (Real.sin_nonneg_of_nonneg_of_le_pi hy hy2)
    have h2 : ∀ y, 0 ≤ y → y ≤ Real.pi → 0 ≤ Real.sin y - y * Real.cos y := by
      refine nonneg_of_deriv (f := fun y => Real.sin y - y * Real.cos y) (by simp) (fun y => ?_) h3
      have := (Real.hasDerivAt_sin y).sub ((hasDerivAt_id y).mul (Real.hasDerivAt_cos y))
      refine this.congr_deriv ?_
      simp
    have h1 : ∀ y, 0 ≤ y → y ≤ Real.pi → 0 ≤ 2 - 2 * Real.cos y - y * Real.sin y := by
      refine nonneg_of_deriv (f := fun y => 2 - 2 * Real.cos y - y * Real.sin y) (by simp) (fun y => ?_) h2
      have := ((((Real.hasDerivAt_cos y).const_mul 2).const_sub 2).sub ((hasDerivAt_id y).mul (Real.hasDerivAt_sin y)))
      refine this.congr_deriv ?_
      simp; ring
    refine nonneg_of_deriv (f := fun y => y * (2 + Real.cos y) - 3 * Real.sin y) (by simp) (fun y => ?_) h1 x hx hp
    have := (((hasDerivAt_id y).mul ((Real.hasDerivAt_cos y).const_add 2)).sub ((Real.hasDerivAt_sin y).const_mul 3))
    refine this.congr_deriv ?_
    simp; ring
  · nlinarith [Real.neg_one_le_cos x, Real.sin_le_one x, Real.pi_gt_three]

/-- the error of Simpson's rule -/
theorem simpson_err {x : ℝ} (hx : x ≠ 0) :
    0 ≤ (2 + Real.cos x) / 3 - Real.sin x / x ∧ (2 + Real.cos x) / 3 - Real.sin x / x ≤ x ^ 4 / 180 := by
  have key : ∀ y : ℝ, 0 < y →
      0 ≤ (2 + Real.cos y) / 3 - Real.sin y / y ∧ (2 + Real.cos y) / 3 - Real.sin y / y ≤ y ^ 4 / 180 := by
    intro y hy
    have e : (2 + Real.cos y) / 3 - Real.sin y / y = (y * (2 + Real.cos y) - 3 * Real.sin y) / (3 * y) := by
      field_simp
    rw [e]
    refine ⟨div_nonneg (simpson_lower hy.le) (by positivity), ?_⟩
    rw [div_le_iff₀ (by positivity)]
    have := simpson_upper hy.le
    nlinarith
  rcases lt_or_gt_of_ne hx with h | h
  · have := key (-x) (by linarith)
    rwa [Real.cos_neg, Real.sin_neg, neg_div_neg_eq, Even.neg_pow (by decide)] at this
  · exact key x h

theorem sinc_abs {x : ℝ} (hx : x ≠ 0) : |Real.sin x / x| ≤ 1 := by
  rw [abs_div, div_le_one (abs_pos.mpr hx)]
  exact Real.abs_sin_le_abs

theorem sinc_ge {x : ℝ} (hx : x ≠ 0) : -(1 / 3) ≤ Real.sin x / x := by
  have key : ∀ y : ℝ, 0 < y → -(1 / 3) ≤ Real.sin y / y := by
    intro y hy
    rw [le_div_iff₀ hy]
    rcases le_or_gt y Real.pi with h | h
    · nlinarith [Real.sin_nonneg_of_nonneg_of_le_pi hy.le h]
    · nlinarith [Real.neg_one_le_sin y, Real.pi_gt_three]
  rcases lt_or_gt_of_ne hx with h | h
  · have := key (-x) (by linarith)
    rwa [Real.sin_neg, neg_div_neg_eq] at this
  · exact key x h

/-- the error of the position rule -/
theorem position_err {x : ℝ} (hx : x ≠ 0) : |(1 + 2 * Real.cos x) / 6 - (Real.sin x / x) ^ 2 / 2| ≤ x ^ 4 / 72 := by
  obtain ⟨h1, h2⟩ := simpson_err hx
  have h3 := abs_le.mp (sinc_abs hx)
  have h7 := sinc_ge hx
  have h4 := Real.cos_le_one x
  have h5 := Real.one_sub_sq_div_two_le_cos (x := x)
  have h6 := Real.neg_one_le_cos x
  generalize Real.sin x / x = S at *
  generalize Real.cos x = c at *
  have e : (1 + 2 * c) / 6 - S ^ 2 / 2 = (((2 + c) / 3 - S) * ((2 + c) / 3 + S) - (1 - c) ^ 2 / 9) / 2 := by ring
  rw [e]
  have hsum : (2 + c) / 3 + S ≤ 2 := by linarith [h3.2]
  have hc2 : (1 - c) ^ 2 ≤ x ^ 4 / 4 := by
    have : (1 - c) ≤ x ^ 2 / 2 := by linarith
    nlinarith [sq_nonneg x]
  have hx4 : 0 ≤ x ^ 4 := by positivity
  have hA : ((2 + c) / 3 - S) * ((2 + c) / 3 + S) ≤ x ^ 4 / 90 := by nlinarith
  have hB : 0 ≤ (2 + c) / 3 + S ∨ (2 + c) / 3 + S < 0 := le_or_gt _ _
  rw [abs_le]
  constructor
  · rcases hB with hB | hB
    · have := mul_nonneg h1 hB
      nlinarith
    · linarith
  · nlinarith [sq_nonneg (1 - c)]

/-! ### The true motion -/

theorem eq_of_deriv {f g : ℝ → V3} {f' : ℝ → V3} (hf : ∀ s, HasDerivAt f (f' s) s) (hg : ∀ s, HasDerivAt g (f' s) s)
    (h0 : f 0 = g 0) (s : ℝ) : f s = g s := by
  have hd : ∀ t, HasDerivAt (fun t => f t - g t) 0 t := fun t => ((hf t).sub (hg t)).congr_deriv (sub_self _)
  have := is_const_of_deriv_eq_zero (𝕜 := ℝ) (f := fun t => f t - g t) (fun t => (hd t).differentiableAt)
    (fun t => (hd t).deriv) s 0
  simp only [h0, sub_self] at this
  exact sub_eq_zero.mp this

theorem turn_parts (w : V3) (phi : ℝ) (b : V3) :
    turn w phi b = par w b + Real.cos phi • perp w b + Real.sin phi • J w b := by
  unfold turn act
  rw [Complex.exp_ofReal_mul_I_re, Complex.exp_ofReal_mul_I_im, J_perp, add_assoc]

theorem lin (w : V3) (s : ℝ) : HasDerivAt (fun t : ℝ => norm3 w * t) (norm3 w) s := by
  simpa using (hasDerivAt_id s).const_mul (norm3 w)

/-- the velocity gained -/
noncomputable def gained (w a : V3) (s : ℝ) : V3 :=
  s • par w a + (Real.sin (norm3 w * s) / norm3 w) • perp w a + ((1 - Real.cos (norm3 w * s)) / norm3 w) • J w a

theorem still {w : V3} (hw : norm3 w = 0) (b : V3) : J w b = 0 ∧ perp w b = 0 ∧ par w b = b := by
  have h : ∀ c, J w c = 0 := fun c => by unfold J; rw [hw, _root_.inv_zero, zero_smul]
  refine ⟨h b, ?_, ?_⟩
  · unfold perp; rw [h, neg_zero]
  · unfold par; rw [h, add_zero]

theorem gained_deriv (w : V3) (a : V3) (s : ℝ) : HasDerivAt (gained w a) (turn w (norm3 w * s) a) s := by
  by_cases hw : norm3 w = 0
  · obtain ⟨z1, z2, z3⟩ := still hw a
    have e : gained w a = fun s => s • a := by funext s; simp only [gained, z1, z2, z3, smul_zero, add_zero]
    rw [e, turn_parts, z1, z2, z3, smul_zero, smul_zero, add_zero, add_zero]
    simpa using (hasDerivAt_id s).smul_const a
  have h1 := (hasDerivAt_id s).smul_const (par w a)
  have h2 := ((lin w s).sin.div_const (norm3 w)).smul_const (perp w a)
  have h3 := (((lin w s).cos.const_sub 1).div_const (norm3 w)).smul_const (J w a)
  refine ((h1.add h2).add h3).congr_deriv ?_
  rw [turn_parts]
  have e1 : Real.cos (norm3 w * s) * norm3 w / norm3 w = Real.cos (norm3 w * s) := by field_simp
  have e2 : -(-Real.sin (norm3 w * s) * norm3 w) / norm3 w = Real.sin (norm3 w * s) := by field_simp
  rw [e1, e2, one_smul]

theorem velocity_true {w a : V3} {R : ℝ → M3} {v p : ℝ → V3} (h : Moves w a R v p) (s : ℝ) :
    v s = v 0 + gained w a s := by
  refine eq_of_deriv (f' := fun s => R s *ᵥ a) h.velocity (g := fun s => v 0 + gained w a s) (fun s => ?_) ?_ s
  · rw [turns_turn h.turns]
    exact (gained_deriv w a s).const_add _
  · simp [gained]

/-- the distance covered because of the acceleration -/
noncomputable def covered (w a : V3) (s : ℝ) : V3 :=
  (s ^ 2 / 2) • par w a + (-(Real.cos (2 * (norm3 w * s)) - 2 * Real.cos (norm3 w * s) + 1) / (2 * norm3 w ^ 2)) • perp w a +
    (-(Real.sin (2 * (norm3 w * s)) - 2 * Real.sin (norm3 w * s)) / (2 * norm3 w ^ 2)) • J w a

theorem turn_lin (w : V3) (phi : ℝ) (a b : V3) : turn w phi (a + b) = turn w phi a + turn w phi b := by
  rw [turn_eq, turn_eq, turn_eq, J_add, J_add]; module
theorem turn_smul (w : V3) (phi r : ℝ) (b : V3) : turn w phi (r • b) = r • turn w phi b := by
  rw [turn_eq, turn_eq, J_smul, J_smul]; module
theorem turn_par (w : V3) (phi : ℝ) (b : V3) : turn w phi (par w b) = par w b := by
  rw [turn_eq, J_par]; simp [J]
theorem turn_perp (w : V3) (phi : ℝ) (b : V3) :
    turn w phi (perp w b) = Real.cos phi • perp w b + Real.sin phi • J w b := by
  rw [turn_eq, JJ_perp, J_perp]; module
theorem turn_J (w : V3) (phi : ℝ) (b : V3) : turn w phi (J w b) = Real.cos phi • J w b - Real.sin phi • perp w b := by
  rw [turn_eq, J_cube]; unfold perp; module

theorem covered_deriv (w : V3) (a : V3) (s : ℝ) :
    HasDerivAt (covered w a) (turn w (norm3 w * s) (gained w a s)) s := by
  by_cases hw : norm3 w = 0
  · obtain ⟨z1, z2, z3⟩ := still hw a
    have e : covered w a = fun s => (s ^ 2 / 2) • a := by funext s; simp only [covered, z1, z2, z3, smul_zero, add_zero]
    have e2 : gained w a s = s • a := by simp only [gained, z1, z2, z3, smul_zero, add_zero]
    obtain ⟨y1, y2, y3⟩ := still hw (s • a)
    rw [e, turn_parts, e2, y1, y2, y3, smul_zero, smul_zero, add_zero, add_zero]
    have := ((hasDerivAt_pow 2 s).div_const 2).smul_const a
    refine this.congr_deriv ?_
    simp
  have h1 := ((hasDerivAt_pow 2 s).div_const 2).smul_const (par w a)
  have l2 : HasDerivAt (fun t : ℝ => 2 * (norm3 w * t)) (2 * norm3 w) s := (lin w s).const_mul 2
  have h2 := ((((l2.cos.sub ((lin w s).cos.const_mul 2)).add_const 1).neg).div_const (2 * norm3 w ^ 2)).smul_const (perp w a)
  have h3 := (((l2.sin.sub ((lin w s).sin.const_mul 2)).neg).div_const (2 * norm3 w ^ 2)).smul_const (J w a)
  refine ((h1.add h2).add h3).congr_deriv ?_
  unfold gained
  rw [turn_lin, turn_lin, turn_smul, turn_smul, turn_smul, turn_par, turn_perp, turn_J, Real.sin_two_mul, Real.cos_two_mul']
  have e := Real.sin_sq_add_cos_sq (norm3 w * s)
  generalize Real.sin (norm3 w * s) = S at *
  generalize Real.cos (norm3 w * s) = C at *
  generalize norm3 w = n at *
  have e1 : -(-(2 * S * C) * (2 * n) - 2 * (-S * n)) / (2 * n ^ 2) = S / n * C - (1 - C) / n * S := by field_simp; ring
  have e2 : -((C ^ 2 - S ^ 2) * (2 * n) - 2 * (C * n)) / (2 * n ^ 2) = S / n * S + (1 - C) / n * C := by field_simp; ring
  rw [e1, e2]
  have e3 : ((2 : ℕ) : ℝ) * s ^ (2 - 1) / 2 = s := by simp
  rw [e3]
  module

theorem position_true {w a : V3} {R : ℝ → M3} {v p : ℝ → V3} (h : Moves w a R v p) (s : ℝ) :
    p s = p 0 + gained w (v 0) s + covered w a s := by
  refine eq_of_deriv (f' := fun s => R s *ᵥ v s) h.position (g := fun s => p 0 + gained w (v 0) s + covered w a s)
    (fun s => ?_) ?_ s
  · rw [turns_turn h.turns, velocity_true h s, turn_lin]
    exact ((gained_deriv w (v 0) s).const_add _).add (covered_deriv w a s)
  · simp [gained, covered]; norm_num

/-! ### The error of one step -/

theorem velocity_step {w : V3} (hw : norm3 w > 1e-9) {h : ℝ} (hh : h ≠ 0) (a v0 : V3) :
    integrateVelocityRK4 h a w v0 - (v0 + gained w a h) =
      act w ((h * ((2 + Real.cos (norm3 w * h / 2)) / 3 - Real.sin (norm3 w * h / 2) / (norm3 w * h / 2)) : ℝ) *
        Complex.exp ((norm3 w * h / 2 : ℝ) * Complex.I)) (perp w a) := by
  have hn : norm3 w ≠ 0 := by intro e; rw [e] at hw; norm_num at hw
  unfold integrateVelocityRK4 gained act
  simp only [delta_turn hw]
  rw [Complex.re_ofReal_mul, Complex.im_ofReal_mul, Complex.exp_ofReal_mul_I_re, Complex.exp_ofReal_mul_I_im, J_perp]
  have e1 : norm3 w * (0.5 * h) = norm3 w * h / 2 := by ring
  rw [e1]
  generalize hx : norm3 w * h / 2 = x
  have e2 : norm3 w * h = 2 * x := by rw [← hx]; ring
  rw [e2, turn_parts, turn_parts, Real.sin_two_mul, Real.cos_two_mul']
  have e := Real.sin_sq_add_cos_sq x
  generalize Real.sin x = S at *
  generalize Real.cos x = C at *
  have e3 : 1 - (C ^ 2 - S ^ 2) = 2 * S ^ 2 := by linarith
  have e4 : C ^ 2 - S ^ 2 = 2 * C ^ 2 - 1 := by linarith
  rw [e3, e4]
  have hp := par_add_perp w a
  generalize norm3 w = n at *
  generalize par w a = pa at *
  generalize perp w a = pe at *
  generalize J w a = ja at *
  subst hp hx
  ext i
  simp only [Pi.add_apply, Pi.sub_apply, Pi.smul_apply, smul_eq_mul]
  field_simp
  ring

theorem position_step {w : V3} (hw : norm3 w > 1e-9) {h : ℝ} (hh : h ≠ 0) (a v0 p0 v1 : V3) :
    (integratePositionRK4 h v0 a w p0 v1).1 - (p0 + gained w v0 h + covered w a h) =
      act w ((h * ((2 + Real.cos (norm3 w * h / 2)) / 3 - Real.sin (norm3 w * h / 2) / (norm3 w * h / 2)) : ℝ) *
        Complex.exp ((norm3 w * h / 2 : ℝ) * Complex.I)) (perp w v0) +
      act w ((h ^ 2 * ((1 + 2 * Real.cos (norm3 w * h / 2)) / 6 - (Real.sin (norm3 w * h / 2) / (norm3 w * h / 2)) ^ 2 / 2) : ℝ) *
        Complex.exp ((norm3 w * h : ℝ) * Complex.I)) (perp w a) := by
  have hn : norm3 w ≠ 0 := by intro e; rw [e] at hw; norm_num at hw
  rw [← velocity_step hw hh v0 0]
  unfold integratePositionRK4 integrateVelocityRK4 gained covered act
  simp only [delta_turn hw, turn_lin, turn_smul, turn_add]
  rw [Complex.re_ofReal_mul, Complex.im_ofReal_mul, Complex.exp_ofReal_mul_I_re, Complex.exp_ofReal_mul_I_im, J_perp]
  have e1 : norm3 w * (0.5 * h) = norm3 w * h / 2 := by ring
  rw [e1]
  generalize hx : norm3 w * h / 2 = x
  have e2 : norm3 w * h = 2 * x := by rw [← hx]; ring
  have e5 : 2 * x + x = 3 * x := by ring
  have e6 : x + x = 2 * x := by ring
  rw [e2, e5, e6]
  have t1 : Real.cos (3 * x) = 2 * Real.cos (2 * x) * Real.cos x - Real.cos x := by
    rw [Real.cos_three_mul, Real.cos_two_mul]; ring
  have t3 : Real.sin (3 * x) = 2 * Real.sin (2 * x) * Real.cos x - Real.sin x := by
    rw [Real.sin_three_mul, Real.sin_two_mul]
    have := Real.sin_sq_add_cos_sq x
    linear_combination (-4 * Real.sin x) * this
  have t2 : Real.cos (2 * (2 * x)) = 2 * Real.cos (2 * x) - 1 - 4 * Real.sin x ^ 2 * Real.cos (2 * x) := by
    rw [Real.cos_two_mul (2 * x)]
    have := Real.cos_sq' x
    have h2 : Real.cos (2 * x) = 1 - 2 * Real.sin x ^ 2 := by rw [Real.cos_two_mul, this]; ring
    linear_combination 2 * Real.cos (2 * x) * h2
  have t4 : Real.sin (2 * (2 * x)) = 2 * Real.sin (2 * x) - 4 * Real.sin x ^ 2 * Real.sin (2 * x) := by
    rw [Real.sin_two_mul (2 * x)]
    have := Real.cos_sq' x
    have h2 : Real.cos (2 * x) = 1 - 2 * Real.sin x ^ 2 := by rw [Real.cos_two_mul, this]; ring
    linear_combination 2 * Real.sin (2 * x) * h2
  simp only [turn_parts]
  rw [t1, t2, t3, t4]
  generalize Real.sin (2 * x) = S2
  generalize Real.cos (2 * x) = C2
  generalize Real.sin x = S
  generalize Real.cos x = C
  generalize par w v0 + C2 • perp w v0 + S2 • J w v0 = q1
  generalize par w v0 + C • perp w v0 + S • J w v0 = q2
  generalize h • par w v0 + (S2 / norm3 w) • perp w v0 + ((1 - C2) / norm3 w) • J w v0 = q3
  have hp := par_add_perp w a
  generalize norm3 w = n at *
  generalize par w a = pa at *
  generalize perp w a = pe at *
  generalize J w a = ja at *
  subst hx
  clear hp e1 e2 e5 e6 t1 t2 t3 t4
  ext i
  simp only [Pi.add_apply, Pi.sub_apply, Pi.smul_apply, smul_eq_mul, Pi.zero_apply]
  field_simp
  ring

theorem err_bound (w : V3) (h : ℝ) (r : ℝ) (phi : ℝ) (b : V3) {B : ℝ} (hB : |r| ≤ B) :
    norm3 (act w ((r : ℝ) * Complex.exp ((phi : ℝ) * Complex.I)) (perp w b)) ≤ B * norm3 b := by
  rw [norm_act, norm_mul, Complex.norm_exp_ofReal_mul_I, mul_one, Complex.norm_real, Real.norm_eq_abs]
  exact mul_le_mul hB (norm_perp w b) (norm3_nonneg _) ((abs_nonneg _).trans hB)

theorem simpson_bound {w : V3} (hw : norm3 w ≠ 0) {h : ℝ} (hh : h ≠ 0) :
    |h * ((2 + Real.cos (norm3 w * h / 2)) / 3 - Real.sin (norm3 w * h / 2) / (norm3 w * h / 2))| ≤
      |h| ^ 5 * norm3 w ^ 4 / 2880 := by
  have hx : norm3 w * h / 2 ≠ 0 := by positivity
  obtain ⟨h1, h2⟩ := simpson_err hx
  rw [abs_mul, abs_of_nonneg h1]
  have e : |h| ^ 5 * norm3 w ^ 4 / 2880 = |h| * ((norm3 w * h / 2) ^ 4 / 180) := by
    have : |h| ^ 4 = h ^ 4 := Even.pow_abs (by decide) h
    calc |h| ^ 5 * norm3 w ^ 4 / 2880 = |h| * (|h| ^ 4 * norm3 w ^ 4 / 2880) := by ring
      _ = _ := by rw [this]; ring
  rw [e]
  exact mul_le_mul_of_nonneg_left h2 (abs_nonneg _)

theorem position_bound {w : V3} (hw : norm3 w ≠ 0) {h : ℝ} (hh : h ≠ 0) :
    |h ^ 2 * ((1 + 2 * Real.cos (norm3 w * h / 2)) / 6 - (Real.sin (norm3 w * h / 2) / (norm3 w * h / 2)) ^ 2 / 2)| ≤
      |h| ^ 6 * norm3 w ^ 4 / 1152 := by
  have hx : norm3 w * h / 2 ≠ 0 := by positivity
  have h2 := position_err hx
  rw [abs_mul, abs_of_nonneg (sq_nonneg h)]
  have e : |h| ^ 6 * norm3 w ^ 4 / 1152 = h ^ 2 * ((norm3 w * h / 2) ^ 4 / 72) := by
    have : |h| ^ 6 = h ^ 6 := Even.pow_abs (by decide) h
    rw [this]; ring
  rw [e]
  exact mul_le_mul_of_nonneg_left h2 (sq_nonneg _)

/-! ### Without rotation in the program -/

theorem one_sub_cos_le {y : ℝ} (hy : 0 ≤ y) : 1 - Real.cos y ≤ y := by
  have := nonneg_of_deriv (f := fun y => y - (1 - Real.cos y)) (f' := fun y => 1 - Real.sin y) (b := y) (by simp)
    (fun z => (((hasDerivAt_id z).sub ((Real.hasDerivAt_cos z).const_sub 1))).congr_deriv (by simp)) (fun z _ _ => by
      linarith [Real.sin_le_one z]) y hy le_rfl
  linarith

theorem sub_sin_le {y : ℝ} (hy : 0 ≤ y) : y - Real.sin y ≤ y ^ 2 / 2 := by
  have := nonneg_of_deriv (f := fun y => y ^ 2 / 2 - (y - Real.sin y)) (f' := fun y => y - (1 - Real.cos y)) (b := y) (by simp)
    (fun z => ((((hasDerivAt_pow 2 z).div_const 2).sub ((hasDerivAt_id z).sub (Real.hasDerivAt_sin z)))).congr_deriv (by simp))
    (fun z hz _ => by linarith [one_sub_cos_le hz]) y hy le_rfl
  linarith

theorem cos_second {y : ℝ} (hy : 0 ≤ y) : y ^ 2 / 2 - (1 - Real.cos y) ≤ y ^ 3 / 6 := by
  have := nonneg_of_deriv (f := fun y => y ^ 3 / 6 - (y ^ 2 / 2 - (1 - Real.cos y)))
    (f' := fun y => y ^ 2 / 2 - (y - Real.sin y)) (b := y) (by simp)
    (fun z => ((((hasDerivAt_pow 3 z).div_const 6).sub (((hasDerivAt_pow 2 z).div_const 2).sub
      ((Real.hasDerivAt_cos z).const_sub 1)))).congr_deriv (by simp; ring))
    (fun z hz _ => by linarith [sub_sin_le hz]) y hy le_rfl
  linarith

/-- without rotation the program's velocity is off by this -/
theorem gained_small {w : V3} (a : V3) (h : ℝ) : norm3 (h • a - gained w a h) ≤ norm3 w * h ^ 2 * norm3 a := by
  by_cases hw : norm3 w = 0
  · obtain ⟨z1, z2, z3⟩ := still hw a
    simp only [gained, z1, z2, z3, smul_zero, add_zero, sub_self, hw, zero_mul]
    simp [norm3, sqNorm]
  · have hpos : 0 < norm3 w := lt_of_le_of_ne (norm3_nonneg w) (Ne.symm hw)
    have e : h • a - gained w a h =
        act w ⟨h - Real.sin (norm3 w * h) / norm3 w, -((1 - Real.cos (norm3 w * h)) / norm3 w)⟩ (perp w a) := by
      have hp := par_add_perp w a
      unfold gained act
      rw [J_perp]
      conv_lhs => rw [← hp]
      have e2 : J w (par w a + perp w a) = J w a := by rw [hp]
      have e3 : perp w (par w a + perp w a) = perp w a := by rw [hp]
      have e4 : par w (par w a + perp w a) = par w a := by rw [hp]
      rw [e2, e3, e4]
      module
    rw [e, norm_act]
    refine mul_le_mul ?_ (norm_perp w a) (norm3_nonneg _) (by positivity)
    refine (Complex.norm_le_abs_re_add_abs_im _).trans ?_
    simp only
    have key : ∀ y : ℝ, |y - Real.sin y| ≤ y ^ 2 / 2 := by
      intro y
      rcases le_total 0 y with hy | hy
      · rw [abs_of_nonneg (by linarith [Real.sin_le hy])]; exact sub_sin_le hy
      · have h1 := sub_sin_le (y := -y) (by linarith)
        have h2 := Real.sin_le (x := -y) (by linarith)
        rw [Real.sin_neg] at h1 h2
        rw [abs_of_nonpos (by linarith)]
        nlinarith
    have k1 := key (norm3 w * h)
    have k2 : |1 - Real.cos (norm3 w * h)| ≤ (norm3 w * h) ^ 2 / 2 := by
      rw [abs_of_nonneg (by linarith [Real.cos_le_one (norm3 w * h)])]
      linarith [Real.one_sub_sq_div_two_le_cos (x := norm3 w * h)]
    have e1 : h - Real.sin (norm3 w * h) / norm3 w = (norm3 w * h - Real.sin (norm3 w * h)) / norm3 w := by field_simp
    rw [e1, abs_neg, abs_div, abs_div, abs_of_pos hpos, ← add_div, div_le_iff₀ hpos]
    calc _ ≤ (norm3 w * h) ^ 2 / 2 + (norm3 w * h) ^ 2 / 2 := add_le_add k1 k2
      _ = _ := by ring

theorem covered_small {w : V3} (a : V3) (h : ℝ) :
    norm3 ((h ^ 2 / 2) • a - covered w a h) ≤ 2 * norm3 w * |h| ^ 3 * norm3 a := by
  by_cases hw : norm3 w = 0
  · obtain ⟨z1, z2, z3⟩ := still hw a
    simp only [covered, z1, z2, z3, smul_zero, add_zero, sub_self, hw, mul_zero, zero_mul]
    simp [norm3, sqNorm]
  · have hpos : 0 < norm3 w := lt_of_le_of_ne (norm3_nonneg w) (Ne.symm hw)
    have e : (h ^ 2 / 2) • a - covered w a h =
        act w ⟨h ^ 2 / 2 - (-(Real.cos (2 * (norm3 w * h)) - 2 * Real.cos (norm3 w * h) + 1) / (2 * norm3 w ^ 2)),
          -(-(Real.sin (2 * (norm3 w * h)) - 2 * Real.sin (norm3 w * h)) / (2 * norm3 w ^ 2))⟩ (perp w a) := by
      have hp := par_add_perp w a
      unfold covered act
      rw [J_perp]
      conv_lhs => rw [← hp]
      have e2 : J w (par w a + perp w a) = J w a := by rw [hp]
      have e3 : perp w (par w a + perp w a) = perp w a := by rw [hp]
      have e4 : par w (par w a + perp w a) = par w a := by rw [hp]
      rw [e2, e3, e4]
      module
    rw [e, norm_act]
    refine mul_le_mul ?_ (norm_perp w a) (norm3_nonneg _) (by positivity)
    refine (Complex.norm_le_abs_re_add_abs_im _).trans ?_
    simp only
    have hy : |norm3 w * h| = norm3 w * |h| := by rw [abs_mul, abs_of_pos hpos]
    generalize hY : norm3 w * h = y at *
    have hh : h = y / norm3 w := by rw [← hY]; field_simp
    rw [Real.sin_two_mul, Real.cos_two_mul]
    have e1 : h ^ 2 / 2 - (-(2 * Real.cos y ^ 2 - 1 - 2 * Real.cos y + 1) / (2 * norm3 w ^ 2)) =
        ((y ^ 2 / 2 - (1 - Real.cos y)) + (1 - Real.cos y) ^ 2) / norm3 w ^ 2 := by rw [hh]; field_simp; ring
    have e2 : -(-(2 * Real.sin y * Real.cos y - 2 * Real.sin y) / (2 * norm3 w ^ 2)) =
        -(Real.sin y * (1 - Real.cos y)) / norm3 w ^ 2 := by field_simp; ring
    have c0 := Real.cos_le_one y
    have c1 : y ^ 2 / 2 - (1 - Real.cos y) ≤ |y| ^ 3 / 6 := by
      have := cos_second (abs_nonneg y); rwa [Real.cos_abs, sq_abs] at this
    have c2 : 1 - Real.cos y ≤ |y| := by have := one_sub_cos_le (abs_nonneg y); rwa [Real.cos_abs] at this
    have c3 : 1 - Real.cos y ≤ |y| ^ 2 / 2 := by rw [sq_abs]; linarith [Real.one_sub_sq_div_two_le_cos (x := y)]
    have c4 : |Real.sin y| ≤ |y| := Real.abs_sin_le_abs
    have c5 := Real.one_sub_sq_div_two_le_cos (x := y)
    rw [e1, e2, abs_div, abs_div, abs_of_nonneg (sq_nonneg (norm3 w)), ← add_div, div_le_iff₀ (by positivity), abs_neg, abs_mul,
      abs_of_nonneg (by linarith : 0 ≤ 1 - Real.cos y), abs_of_nonneg (by nlinarith [sq_nonneg (1 - Real.cos y)])]
    have e3 : 2 * norm3 w * |h| ^ 3 * norm3 w ^ 2 = 2 * |y| ^ 3 := by rw [hy]; ring
    rw [e3]
    have d1 : (1 - Real.cos y) ^ 2 ≤ |y| ^ 3 / 2 := by
      calc (1 - Real.cos y) ^ 2 = (1 - Real.cos y) * (1 - Real.cos y) := by ring
        _ ≤ |y| * (|y| ^ 2 / 2) := mul_le_mul c2 c3 (by linarith) (abs_nonneg _)
        _ = _ := by ring
    have d2 : |Real.sin y| * (1 - Real.cos y) ≤ |y| ^ 3 / 2 := by
      calc |Real.sin y| * (1 - Real.cos y) ≤ |y| * (|y| ^ 2 / 2) := mul_le_mul c4 c3 (by linarith) (abs_nonneg _)
        _ = _ := by ring
    have d3 : 0 ≤ |y| ^ 3 := by positivity
    linarith

end Turning
end StateEstimation
