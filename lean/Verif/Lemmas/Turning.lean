import Verif.Spec.Motion
import Verif.Props.Rotations
import Mathlib.Analysis.SpecialFunctions.Trigonometric.Deriv
import Mathlib.Analysis.SpecialFunctions.Complex.Arg
import Mathlib.Analysis.Calculus.MeanValue
import Mathlib.Tactic.Module

/-!
# Turning about an axis

`J w b = (w × b) / |w|` is a quarter turn of the part of `b` perpendicular to `w`; complex numbers act on that part.
-/

namespace StateEstimation
namespace Turning

open Matrix StateEstimation.Props

/-- a quarter turn (0 if `w = 0`) -/
noncomputable def J (w b : V3) : V3 := (norm3 w)⁻¹ • crossProduct w b
/-- the part of `b` perpendicular to `w` -/
noncomputable def perp (w b : V3) : V3 := -J w (J w b)
/-- the part of `b` along `w` -/
noncomputable def par (w b : V3) : V3 := b + J w (J w b)
/-- a complex number stretches and turns -/
noncomputable def act (w : V3) (z : ℂ) (b : V3) : V3 := z.re • b + z.im • J w b

theorem par_add_perp (w b : V3) : par w b + perp w b = b := by unfold par perp; module

theorem cross0 (w b : V3) : crossProduct w b = ![w 1 * b 2 - w 2 * b 1, w 2 * b 0 - w 0 * b 2, w 0 * b 1 - w 1 * b 0] := by
  rw [cross_apply]

theorem norm3_zero_iff {w : V3} (h : norm3 w = 0) : w = 0 := by
  have e := norm3_sq w
  rw [h, sqNorm] at e
  ext i
  fin_cases i <;> simp <;> nlinarith [sq_nonneg (w 0), sq_nonneg (w 1), sq_nonneg (w 2)]

theorem cross3 (w b : V3) : crossProduct w (crossProduct w (crossProduct w b)) = -(sqNorm w • crossProduct w b) := by
  ext i
  fin_cases i <;> simp [cross_apply, sqNorm] <;> ring

theorem cross_eq (w b : V3) : crossProduct w b = norm3 w • J w b := by
  by_cases h : norm3 w = 0
  · rw [h, norm3_zero_iff h, zero_smul, map_zero, LinearMap.zero_apply]
  · rw [J, smul_smul, mul_inv_cancel₀ h, one_smul]

theorem J_add (w a b : V3) : J w (a + b) = J w a + J w b := by unfold J; rw [map_add, smul_add]
theorem J_smul (w : V3) (c : ℝ) (b : V3) : J w (c • b) = c • J w b := by unfold J; rw [map_smul, smul_comm]
theorem J_neg (w b : V3) : J w (-b) = -J w b := by unfold J; rw [map_neg, smul_neg]

theorem J_cube (w b : V3) : J w (J w (J w b)) = -J w b := by
  by_cases h : norm3 w = 0
  · simp only [J, h, _root_.inv_zero, zero_smul, neg_zero]
  · unfold J
    rw [map_smul, map_smul, map_smul, cross3, ← norm3_sq, smul_neg, smul_neg, smul_neg, smul_smul, smul_smul, smul_smul]
    congr 2
    field_simp

theorem J_par (w b : V3) : J w (par w b) = 0 := by rw [par, J_add, J_cube, add_neg_cancel]
theorem J_perp (w b : V3) : J w (perp w b) = J w b := by rw [perp, J_neg, J_cube, neg_neg]
theorem JJ_perp (w b : V3) : J w (J w (perp w b)) = -perp w b := by rw [J_perp, perp, neg_neg]

theorem act_act (w : V3) (z z' : ℂ) (b : V3) : act w z (act w z' (perp w b)) = act w (z * z') (perp w b) := by
  unfold act
  rw [J_add, J_smul, J_smul, JJ_perp, Complex.mul_re, Complex.mul_im]
  module

theorem act_par (w : V3) (z : ℂ) (b : V3) : act w z (par w b) = z.re • par w b := by
  unfold act; rw [J_par, smul_zero, add_zero]

theorem act_one (w b : V3) : act w 1 b = b := by unfold act; simp

theorem act_sub (w : V3) (z z' : ℂ) (b : V3) : act w z b - act w z' b = act w (z - z') b := by
  unfold act; rw [Complex.sub_re, Complex.sub_im]; module
theorem act_add (w : V3) (z z' : ℂ) (b : V3) : act w z b + act w z' b = act w (z + z') b := by
  unfold act; rw [Complex.add_re, Complex.add_im]; module
theorem act_smul (w : V3) (z : ℂ) (r : ℝ) (b : V3) : r • act w z b = act w (r * z) b := by
  unfold act; rw [Complex.re_ofReal_mul, Complex.im_ofReal_mul]; module
theorem act_neg (w : V3) (z : ℂ) (b : V3) : act w (-z) b = -act w z b := by
  unfold act; rw [Complex.neg_re, Complex.neg_im]; module

/-- dot product -/
def dot (a b : V3) : ℝ := a 0 * b 0 + a 1 * b 1 + a 2 * b 2

theorem dot_cross (w b : V3) : dot b (crossProduct w b) = 0 := by
  simp only [dot, cross_apply, Matrix.cons_val_zero, Matrix.cons_val_one, Matrix.cons_val]; ring
theorem dot_J (w b : V3) : dot b (J w b) = 0 := by
  have h := dot_cross w b
  unfold J
  simp only [dot, Pi.smul_apply, smul_eq_mul] at *
  linear_combination (norm3 w)⁻¹ * h
theorem sqNorm_add (a b : V3) : sqNorm (a + b) = sqNorm a + sqNorm b + 2 * dot a b := by
  simp only [sqNorm, dot, Pi.add_apply]; ring
theorem dot_smul (r s : ℝ) (a b : V3) : dot (r • a) (s • b) = r * s * dot a b := by
  simp only [dot, Pi.smul_apply, smul_eq_mul]; ring

/-- `b` and its quarter turn are as long if `b` is perpendicular to `w` -/
theorem sqNorm_J_perp (w b : V3) : sqNorm (J w (perp w b)) = sqNorm (perp w b) := by
  -- `0 = (c, J d)' ` : move J to the other side
  have key : ∀ c d : V3, dot c (J w d) = -dot (J w c) d := by
    intro c d
    unfold J
    simp only [dot, Pi.smul_apply, smul_eq_mul, cross_apply, Matrix.cons_val_zero, Matrix.cons_val_one, Matrix.cons_val]
    ring
  have e : ∀ c : V3, sqNorm c = dot c c := fun c => rfl
  rw [e, e, key, JJ_perp]
  simp only [dot, Pi.neg_apply]; ring

theorem norm_act (w : V3) (z : ℂ) (b : V3) : norm3 (act w z (perp w b)) = ‖z‖ * norm3 (perp w b) := by
  have h : sqNorm (act w z (perp w b)) = ‖z‖ ^ 2 * sqNorm (perp w b) := by
    rw [act, sqNorm_add, sqNorm_smul, sqNorm_smul, sqNorm_J_perp, dot_smul, dot_J, ← Complex.normSq_eq_norm_sq, Complex.normSq_apply]
    ring
  rw [norm3, h, Real.sqrt_mul (sq_nonneg _), Real.sqrt_sq (norm_nonneg _)]; rfl

theorem norm_perp (w b : V3) : norm3 (perp w b) ≤ norm3 b := by
  refine Real.sqrt_le_sqrt ?_
  have h : sqNorm b = sqNorm (par w b) + sqNorm (perp w b) := by
    conv_lhs => rw [← par_add_perp w b]
    rw [sqNorm_add]
    have : dot (par w b) (perp w b) = 0 := by
      have key : ∀ c d : V3, dot c (J w d) = -dot (J w c) d := by
        intro c d
        unfold J
        simp only [dot, Pi.smul_apply, smul_eq_mul, cross_apply, Matrix.cons_val_zero, Matrix.cons_val_one, Matrix.cons_val]
        ring
      have e : dot (par w b) (perp w b) = -dot (par w b) (J w (J w b)) := by
        simp only [perp, dot, Pi.neg_apply]; ring
      rw [e, key, J_par]
      simp [dot]
    rw [this]; ring
  rw [h]
  have := sqNorm_nonneg (par w b)
  linarith

/-! ### Turning -/

/-- turn by the angle `phi` -/
noncomputable def turn (w : V3) (phi : ℝ) (b : V3) : V3 := par w b + act w (Complex.exp (phi * Complex.I)) (perp w b)

theorem turn_eq (w : V3) (phi : ℝ) (b : V3) : turn w phi b = b + Real.sin phi • J w b + (1 - Real.cos phi) • J w (J w b) := by
  unfold turn act
  rw [Complex.exp_ofReal_mul_I_re, Complex.exp_ofReal_mul_I_im, J_perp]
  unfold par perp
  module

theorem turn_add (w : V3) (p q : ℝ) (b : V3) : turn w p (turn w q b) = turn w (p + q) b := by
  have hp : par w (turn w q b) = par w b := by
    unfold turn
    have e : ∀ a c, par w (a + c) = par w a + par w c := by intro a c; unfold par; rw [J_add, J_add]; module
    have e2 : par w (par w b) = par w b := by
      rw [par.eq_1 w (par w b), J_par]; simp [J]
    have e3 : ∀ z : ℂ, par w (act w z (perp w b)) = 0 := by
      intro z
      unfold par act
      rw [J_add, J_smul, J_smul, JJ_perp, J_add, J_smul, J_smul, J_neg, JJ_perp]
      module
    rw [e, e2, e3, add_zero]
  have hq : perp w (turn w q b) = act w (Complex.exp (q * Complex.I)) (perp w b) := by
    have h := par_add_perp w (turn w q b)
    rw [hp] at h
    exact add_left_cancel (h.trans (turn.eq_1 w q b))
  rw [turn, hp, hq, act_act, ← Complex.exp_add, turn]
  congr 3
  push_cast
  ring

theorem turn_zero (w b : V3) : turn w 0 b = b := by
  unfold turn; simp [act_one, par_add_perp]

/-- the quaternion of the program turns by the angle `|w| dt` -/
theorem delta_turn {w : V3} (h : norm3 w > 1e-9) (dt : ℝ) (b : V3) :
    (deltaQuaternion dt w).rot b = turn w (norm3 w * dt) b := by
  have hn : norm3 w ≠ 0 := by intro e; rw [e] at h; norm_num at h
  rw [turn_eq, deltaQuaternion_big h]
  have e : norm3 w * dt = 2 * (0.5 * dt * norm3 w) := by ring
  rw [e, Real.sin_two_mul, Real.cos_two_mul']
  have h1 := Real.sin_sq_add_cos_sq (0.5 * dt * norm3 w)
  generalize Real.sin (0.5 * dt * norm3 w) = s at *
  generalize Real.cos (0.5 * dt * norm3 w) = c at *
  have ec : c ^ 2 = 1 - s ^ 2 := by linarith
  rw [ec]
  unfold Quat.rot Quat.vec J
  generalize norm3 w = n at *
  ext i
  fin_cases i <;> simp [cross_apply] <;> field_simp <;> ring

/-- there is only one way to turn with a given rate -/
theorem turns_turn {w : V3} {R : ℝ → M3} (h : Turns w R) (s : ℝ) (b : V3) : R s *ᵥ b = turn w (norm3 w * s) b := by
  have key : ∀ b : V3, R s *ᵥ turn w (-(norm3 w * s)) b = b := by
    intro b
    have hd : ∀ t : ℝ, HasDerivAt (fun t => R t *ᵥ turn w (-(norm3 w * t)) b) 0 t := by
      intro t
      have e : (fun t => R t *ᵥ turn w (-(norm3 w * t)) b) = fun t =>
          R t *ᵥ b + (-Real.sin (norm3 w * t)) • (R t *ᵥ J w b) + (1 - Real.cos (norm3 w * t)) • (R t *ᵥ J w (J w b)) := by
        funext t
        rw [turn_eq, mulVec_add, mulVec_add, mulVec_smul, mulVec_smul, Real.sin_neg, Real.cos_neg]
      rw [e]
      have hl : HasDerivAt (fun t : ℝ => norm3 w * t) (norm3 w) t := by
        simpa using (hasDerivAt_id t).const_mul (norm3 w)
      have h1 := h.rate b t
      have h2 := (hl.sin.neg).smul (h.rate (J w b) t)
      have h3 := (hl.cos.const_sub 1).smul (h.rate (J w (J w b)) t)
      have := (h1.add h2).add h3
      refine this.congr_deriv ?_
      rw [cross_eq, cross_eq, cross_eq, J_cube, mulVec_smul, mulVec_smul, mulVec_smul, mulVec_neg, Pi.neg_apply]
      module
    have hc := is_const_of_deriv_eq_zero (𝕜 := ℝ) (f := fun t => R t *ᵥ turn w (-(norm3 w * t)) b)
      (fun t => (hd t).differentiableAt) (fun t => (hd t).deriv) s 0
    refine hc.trans ?_
    rw [h.start, mul_zero, neg_zero, turn_zero, one_mulVec]
  have := key (turn w (norm3 w * s) b)
  rwa [turn_add, neg_add_cancel, turn_zero] at this

end Turning
end StateEstimation
