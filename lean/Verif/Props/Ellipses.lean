import Verif.Lemmas.Eigensolver
import Verif.Props.Rotations
import Mathlib.Analysis.SpecialFunctions.Complex.Arg
import Mathlib.LinearAlgebra.Matrix.PosDef
import Mathlib.Algebra.Order.Star.Real

/-!
# C63: ellipse points
-/

namespace StateEstimation.Props

open Matrix Real StateEstimation

/-- Specification: `p` is on the ellipse with centre `c`, radius `a` along the direction at `angle` and radius `b`
perpendicular to it. -/
def OnEllipse (a b : ℝ) (c : V2) (angle : ℝ) (p : V2) : Prop :=
  ((cos angle * (p 0 - c 0) + sin angle * (p 1 - c 1)) / a) ^ 2 +
    ((-sin angle * (p 0 - c 0) + cos angle * (p 1 - c 1)) / b) ^ 2 = 1

/-- **C63.** `getEllipsePoints` returns exactly `num_pts` points. -/
theorem C63_count (a b : ℝ) (c : V2) (angle : ℝ) (k : Nat) : (getEllipsePoints a b c angle k).length = k := by
  simp [getEllipsePoints]

/-- **C63.** Every returned point is on the requested ellipse. -/
theorem C63_on_ellipse (a b : ℝ) (ha : a ≠ 0) (hb : b ≠ 0) (c : V2) (angle : ℝ) (k : Nat) :
    ∀ p ∈ getEllipsePoints a b c angle k, OnEllipse a b c angle p := by
  intro p hp
  simp only [getEllipsePoints, List.mem_map] at hp
  obtain ⟨i, -, rfl⟩ := hp
  have h := sin_sq_add_cos_sq angle
  simp only [OnEllipse, ellipsePoint, rotate2]
  generalize (i : ℝ) * 2 * π / k = t
  have h2 := sin_sq_add_cos_sq t
  simp only [Pi.add_apply, Matrix.cons_val_zero, Matrix.cons_val_one, add_sub_cancel_right]
  have e1 : cos angle * (cos angle * (a * cos t) - sin angle * (b * sin t)) +
      sin angle * (sin angle * (a * cos t) + cos angle * (b * sin t)) = a * cos t := by
    linear_combination (a * cos t) * h
  have e2 : -sin angle * (cos angle * (a * cos t) - sin angle * (b * sin t)) +
      cos angle * (sin angle * (a * cos t) + cos angle * (b * sin t)) = b * sin t := by
    linear_combination (b * sin t) * h
  rw [e1, e2, mul_div_cancel_left₀ _ ha, mul_div_cancel_left₀ _ hb]
  linarith

/-- **C63.** The points are pairwise different: they go round the ellipse once. -/
theorem C63_distinct (a b : ℝ) (ha : a ≠ 0) (hb : b ≠ 0) (c : V2) (angle : ℝ) (k : Nat) :
    (getEllipsePoints a b c angle k).Nodup := by
  simp only [getEllipsePoints]
  rw [List.nodup_map_iff_inj_on List.nodup_range]
  intro i hi j hj h
  rw [List.mem_range] at hi hj
  have hk : (0 : ℝ) < k := by exact_mod_cast Nat.lt_of_le_of_lt (Nat.zero_le _) hi
  have hs := sin_sq_add_cos_sq angle
  have h0 := congrFun h 0
  have h1 := congrFun h 1
  simp only [ellipsePoint, rotate2, Pi.add_apply, Matrix.cons_val_zero, Matrix.cons_val_one, add_left_inj] at h0 h1
  have ec : a * cos (i * 2 * π / k) = a * cos (j * 2 * π / k) := by
    linear_combination (cos angle) * h0 + (sin angle) * h1
      - (a * cos (i * 2 * π / k) - a * cos (j * 2 * π / k)) * hs
  have es : b * sin (i * 2 * π / k) = b * sin (j * 2 * π / k) := by
    linear_combination (-sin angle) * h0 + (cos angle) * h1
      - (b * sin (i * 2 * π / k) - b * sin (j * 2 * π / k)) * hs
  have ec := mul_left_cancel₀ ha ec
  have es := mul_left_cancel₀ hb es
  have d : cos (i * 2 * π / k - j * 2 * π / k) = 1 := by
    rw [cos_sub, ← ec, ← es]
    have := sin_sq_add_cos_sq (i * 2 * π / k)
    linarith
  have rng : ∀ m : Nat, m < k → 0 ≤ (m : ℝ) * 2 * π / k ∧ (m : ℝ) * 2 * π / k < 2 * π := by
    intro m hm
    have hm' : (m : ℝ) < k := by exact_mod_cast hm
    refine ⟨by positivity, ?_⟩
    rw [div_lt_iff₀ hk]
    have := pi_pos
    nlinarith
  obtain ⟨i0, i1⟩ := rng i hi
  obtain ⟨j0, j1⟩ := rng j hj
  have := (cos_eq_one_iff_of_lt_of_lt (by linarith) (by linarith)).mp d
  have hpi := pi_pos
  have e : (i : ℝ) * 2 * π = j * 2 * π := by
    have := sub_eq_zero.mp this
    rwa [div_left_inj' hk.ne'] at this
  have : (i : ℝ) = j := by
    have h2 : (2 * π) ≠ 0 := by positivity
    apply mul_right_cancel₀ h2
    linarith
  exact_mod_cast this

/-- Non-vacuity: a circle around (1, 2). -/
example : getEllipsePoints 3 3 ![1, 2] 0 1 = [![4, 2]] := by
  simp [getEllipsePoints, ellipsePoint, rotate2, List.range_succ]
  norm_num

/-- Specification: squared Mahalanobis distance of `p` from `c`. -/
noncomputable def mahalanobisSq (cov : Matrix (Fin 2) (Fin 2) ℝ) (c p : V2) : ℝ := (p - c) ⬝ᵥ (cov⁻¹ *ᵥ (p - c))

/-- **C63, what `get2DCovarianceEllipsePoints` returns.** Point `i` is `offset + cov u_i` for unit vectors `u_i` evenly
spaced around the circle, starting along the first eigenvector.  (A constant Mahalanobis distance would need the square
root of `cov`.) -/
theorem C63_covariance_partial {solver : Matrix (Fin 2) (Fin 2) ℝ → EigenResult 2} (hs : EigenSpec solver)
    {cov : Matrix (Fin 2) (Fin 2) ℝ} (hc : covᵀ = cov) (c : V2) (k : Nat) :
    ∃ u0 u1 : V2, u0 ⬝ᵥ u0 = 1 ∧ u1 ⬝ᵥ u1 = 1 ∧ u0 ⬝ᵥ u1 = 0 ∧
      cov *ᵥ u0 = (solver cov).values 0 • u0 ∧ cov *ᵥ u1 = (solver cov).values 1 • u1 ∧
      get2DCovarianceEllipsePoints solver cov c k = (List.range k).map fun i : Nat =>
        cov *ᵥ (cos (i * 2 * π / k) • u0 + sin (i * 2 * π / k) • u1) + c := by
  set V := (solver cov).vectors with hV
  have ho := hs.orthonormal cov hc
  rw [← hV] at ho
  have o00 := congrFun (congrFun ho 0) 0
  have o01 := congrFun (congrFun ho 0) 1
  have o11 := congrFun (congrFun ho 1) 1
  simp only [Matrix.mul_apply, Fin.sum_univ_two, transpose_apply, Matrix.one_apply_eq] at o00 o11
  rw [Matrix.mul_apply] at o01
  simp [Fin.sum_univ_two] at o01
  have hne : (⟨V 0 0, V 1 0⟩ : ℂ) ≠ 0 := by
    intro h
    have h1 := congrArg Complex.re h
    have h2 := congrArg Complex.im h
    simp at h1 h2
    rw [h1, h2] at o00
    norm_num at o00
  have hnorm : ‖(⟨V 0 0, V 1 0⟩ : ℂ)‖ = 1 := by
    rw [Complex.norm_def, Complex.normSq_mk, o00, sqrt_one]
  have hcos : cos (atan2 (V 1 0) (V 0 0)) = V 0 0 := by
    rw [atan2, Complex.cos_arg hne, hnorm, div_one]
  have hsin : sin (atan2 (V 1 0) (V 0 0)) = V 1 0 := by
    rw [atan2, Complex.sin_arg, hnorm, div_one]
  have e0 : cov *ᵥ ![V 0 0, V 1 0] = (solver cov).values 0 • ![V 0 0, V 1 0] := by
    have := hs.eigen cov hc 0
    have c0 : (solver cov).vectors.col 0 = ![V 0 0, V 1 0] := by ext i; fin_cases i <;> rfl
    rwa [c0] at this
  -- the second eigenvector is the perpendicular of the first, up to sign
  have hsign : ∃ s : ℝ, s * s = 1 ∧ V 0 1 = -s * V 1 0 ∧ V 1 1 = s * V 0 0 := by
    refine ⟨V 0 0 * V 1 1 - V 1 0 * V 0 1, ?_, ?_, ?_⟩
    · linear_combination o11 + (V 0 1 * V 0 1 + V 1 1 * V 1 1) * o00 - (V 0 0 * V 0 1 + V 1 0 * V 1 1) * o01
    · linear_combination (-V 0 1) * o00 + (V 0 0) * o01
    · linear_combination (-V 1 1) * o00 + (V 1 0) * o01
  obtain ⟨s, hss, hv0, hv1⟩ := hsign
  have e1 : cov *ᵥ ![-V 1 0, V 0 0] = (solver cov).values 1 • ![-V 1 0, V 0 0] := by
    have := hs.eigen cov hc 1
    have c1 : (solver cov).vectors.col 1 = s • ![-V 1 0, V 0 0] := by
      ext i; fin_cases i
      · simp [Matrix.col, ← hV, hv0]
      · simp [Matrix.col, ← hV, hv1]
    rw [c1, mulVec_smul, smul_comm] at this
    have hs0 : s ≠ 0 := by rintro rfl; norm_num at hss
    exact smul_right_injective _ hs0 this
  refine ⟨![V 0 0, V 1 0], ![-V 1 0, V 0 0], ?_, ?_, ?_, e0, e1, ?_⟩
  · simp [dotProduct, Fin.sum_univ_two]; linarith
  · simp [dotProduct, Fin.sum_univ_two]; linarith
  · simp [dotProduct, Fin.sum_univ_two]; ring
  · simp only [get2DCovarianceEllipsePoints, getEllipsePoints]
    refine List.map_congr_left fun i _ => ?_
    simp only [ellipsePoint, ← hV]
    rw [rotate2, hcos, hsin, mulVec_add, mulVec_smul, mulVec_smul, e0, e1]
    ext j
    fin_cases j <;> simp <;> ring

/-- **C63, refuted.** `get2DCovarianceEllipsePoints` does not return points of constant Mahalanobis distance: with
variances 4 and 1, whatever the eigensolver returns within its specification, there is no such distance. -/
theorem C63_refuted {solver : Matrix (Fin 2) (Fin 2) ℝ → EigenResult 2} (hs : EigenSpec solver) (c : V2) :
    Matrix.PosDef (diagonal ![4, 1] : Matrix (Fin 2) (Fin 2) ℝ) ∧
    ¬ ∃ d : ℝ, ∀ p ∈ get2DCovarianceEllipsePoints solver (diagonal ![4, 1]) c 4, mahalanobisSq (diagonal ![4, 1]) c p = d := by
  refine ⟨Matrix.posDef_diagonal_iff.mpr (by intro i; fin_cases i <;> simp), ?_⟩
  have hc : (diagonal ![4, 1] : Matrix (Fin 2) (Fin 2) ℝ)ᵀ = diagonal ![4, 1] := diagonal_transpose _
  obtain ⟨u0, u1, n0, n1, h01, e0, e1, hpts⟩ := C63_covariance_partial hs hc c 4
  rintro ⟨d, hd⟩
  rw [hpts] at hd
  have hinv : (diagonal ![4, 1] : Matrix (Fin 2) (Fin 2) ℝ)⁻¹ * diagonal ![4, 1] = 1 := by
    refine nonsing_inv_mul _ ?_
    simp [det_diagonal, Fin.prod_univ_two]
  have maha : ∀ u : V2, mahalanobisSq (diagonal ![4, 1]) c ((diagonal ![4, 1] : Matrix (Fin 2) (Fin 2) ℝ) *ᵥ u + c)
      = u ⬝ᵥ ((diagonal ![4, 1] : Matrix (Fin 2) (Fin 2) ℝ) *ᵥ u) := by
    intro u
    rw [mahalanobisSq, add_sub_cancel_right, mulVec_mulVec, hinv, one_mulVec, dotProduct_comm]
  have h0 := hd _ (List.mem_map.mpr ⟨0, by simp, rfl⟩)
  have h1 := hd _ (List.mem_map.mpr ⟨1, by simp, rfl⟩)
  have t1 : ((1 : Nat) : ℝ) * 2 * π / ((4 : Nat) : ℝ) = π / 2 := by push_cast; ring
  rw [maha] at h0 h1
  rw [t1] at h1
  simp only [Nat.cast_zero, zero_mul, zero_div, cos_zero, sin_zero, one_smul, zero_smul, add_zero] at h0
  simp only [cos_pi_div_two, sin_pi_div_two, one_smul, zero_smul, zero_add] at h1
  rw [e0, dotProduct_smul, n0, smul_eq_mul, mul_one] at h0
  rw [e1, dotProduct_smul, n1, smul_eq_mul, mul_one] at h1
  rw [h0] at e0
  rw [h1] at e1
  have a0 := congrFun e0 0
  have a1 := congrFun e0 1
  have b0 := congrFun e1 0
  have b1 := congrFun e1 1
  simp [mulVec_diagonal] at a0 a1 b0 b1
  simp only [dotProduct, Fin.sum_univ_two] at n0 n1 h01
  -- both directions have eigenvalue `d`, but the matrix is not a multiple of the identity
  have four : ∀ x y : V2, 4 = d → x 1 = d * x 1 → y 1 = d * y 1 → x 0 * x 0 + x 1 * x 1 = 1 →
      y 0 * y 0 + y 1 * y 1 = 1 → x 0 * y 0 + x 1 * y 1 = 0 → False := by
    intro x y hd hx hy nx ny hxy
    have zx : x 1 = 0 := by rw [← hd] at hx; linarith
    have zy : y 1 = 0 := by rw [← hd] at hy; linarith
    rw [zx] at nx hxy
    rw [zy] at ny
    have : (x 0 * y 0) ^ 2 = 1 := by nlinarith
    nlinarith
  rcases a0 with a0 | a0
  · exact four u0 u1 a0 a1 b1 n0 n1 h01
  rcases b0 with b0 | b0
  · exact four u0 u1 b0 a1 b1 n0 n1 h01
  rw [a0] at n0 h01
  rw [b0] at n1
  have : (u0 1 * u1 1) ^ 2 = 1 := by nlinarith
  nlinarith

end StateEstimation.Props
