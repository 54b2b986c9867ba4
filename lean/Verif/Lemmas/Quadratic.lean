import Verif.Spec.Quadratic
import Verif.Lemmas.Sigma

/-! # The unscented transform of quadratic functions, and the moments of quadratic functions of random vectors -/

set_option linter.unusedSectionVars false

namespace StateEstimation
namespace Quadratic

open Matrix MeasureTheory ProbabilityTheory Sigma

variable {n : Nat} {ι : Type} [Fintype ι] [DecidableEq ι] (c : ι → ℝ) (B : Matrix ι (Fin n) ℝ) (Q : ι → Matrix (Fin n) (Fin n) ℝ)

/-- the Jacobian at `x` -/
noncomputable def jac (x : Fin n → ℝ) : Matrix ι (Fin n) ℝ := fun i a => B i a + ∑ b, (Q i a b + Q i b a) * x b

/-- the quadratic part -/
noncomputable def form (d : Fin n → ℝ) : ι → ℝ := fun i => ∑ a, ∑ b, Q i a b * (d a * d b)

theorem expand (x d : Fin n → ℝ) :
    quadratic c B Q (x + d) = quadratic c B Q x + jac B Q x *ᵥ d + form Q d := by
  funext i
  have e1 : (∑ a, ∑ b, Q i a b * ((x a + d a) * (x b + d b))) = (∑ a, ∑ b, Q i a b * (x a * x b)) +
      (∑ a, ∑ b, Q i a b * (d a * x b)) + (∑ a, ∑ b, Q i b a * (x b * d a)) + ∑ a, ∑ b, Q i a b * (d a * d b) := by
    rw [Finset.sum_comm (f := fun a b => Q i b a * (x b * d a))]
    simp only [← Finset.sum_add_distrib]
    exact Finset.sum_congr rfl fun a _ => Finset.sum_congr rfl fun b _ => by ring
  have e2 : (jac B Q x *ᵥ d) i = (∑ a, B i a * d a) + (∑ a, ∑ b, Q i a b * (d a * x b)) +
      (∑ a, ∑ b, Q i b a * (x b * d a)) := by
    simp only [mulVec, dotProduct, jac, add_mul, Finset.sum_mul, Finset.sum_add_distrib, ← add_assoc]
    congr 1
    · congr 1
      exact Finset.sum_congr rfl fun a _ => Finset.sum_congr rfl fun b _ => by ring
    · exact Finset.sum_congr rfl fun a _ => Finset.sum_congr rfl fun b _ => by ring
  have e3 : (∑ a, B i a * (x a + d a)) = (∑ a, B i a * x a) + ∑ a, B i a * d a := by
    simp only [mul_add, Finset.sum_add_distrib]
  simp only [quadratic, form, Pi.add_apply]
  rw [e1, e2, e3]
  ring

theorem form_neg (d : Fin n → ℝ) : form Q (-d) = form Q d := by
  funext i; simp [form]

/-- trace of the quadratic part with `P` -/
noncomputable def trace (P : Matrix (Fin n) (Fin n) ℝ) : ι → ℝ := fun i => ∑ a, ∑ b, Q i a b * P a b

theorem sum_form (L : Matrix (Fin n) (Fin n) ℝ) :
    ∑ l ∈ Finset.range n, form Q (colsOf L l) = trace Q (L * Lᵀ) := by
  funext i
  rw [Finset.sum_apply, Finset.sum_range]
  simp only [form, trace, Matrix.mul_apply, Finset.mul_sum, Matrix.transpose_apply]
  rw [Finset.sum_comm]
  refine Finset.sum_congr rfl fun a _ => ?_
  rw [Finset.sum_comm]
  refine Finset.sum_congr rfl fun b _ => Finset.sum_congr rfl fun l _ => ?_
  simp [colsOf]

theorem trace_smul (r : ℝ) (P : Matrix (Fin n) (Fin n) ℝ) : trace Q (r • P) = r • trace Q P := by
  funext i
  simp only [trace, Matrix.smul_apply, smul_eq_mul, Pi.smul_apply, Finset.mul_sum]
  exact Finset.sum_congr rfl fun a _ => Finset.sum_congr rfl fun b _ => by ring

/-- `y` are the images of the sigma points `x`, `x ± Lᵢ`. -/
def Images (L : Matrix (Fin n) (Fin n) ℝ) (x : Fin n → ℝ) (y : Nat → ι → ℝ) : Prop :=
  y 0 = quadratic c B Q x ∧ ∀ i < n, y (i + 1) = quadratic c B Q (x + colsOf L i) ∧
    y (i + 1 + n) = quadratic c B Q (x - colsOf L i)

variable {c B Q} {L P : Matrix (Fin n) (Fin n) ℝ} {x : Fin n → ℝ} {y : Nat → ι → ℝ} {lam : ℝ}

theorem Images.diff (h : Images c B Q L x y) (i : Nat) (hi : i < n) :
    y (i + 1) - y 0 = jac B Q x *ᵥ colsOf L i + form Q (colsOf L i) ∧
    y (i + 1 + n) - y 0 = - (jac B Q x *ᵥ colsOf L i) + form Q (colsOf L i) := by
  obtain ⟨h1, h2⟩ := h.2 i hi
  rw [h1, h2, h.1, sub_eq_add_neg x, expand, expand, form_neg, mulVec_neg]
  constructor <;> abel

theorem Images.dev (h : Images c B Q L x y) (hl : (n : ℝ) + lam ≠ 0) (hL : L * Lᵀ = ((n : ℝ) + lam) • P) :
    dev n lam y = trace Q P := by
  unfold Sigma.dev
  rw [sum_two, Finset.sum_congr rfl (g := fun i => (1 / ((n : ℝ) + lam)) • form Q (colsOf L i)),
    ← Finset.smul_sum, sum_form, hL, trace_smul, smul_smul, one_div, inv_mul_cancel₀ hl, one_smul]
  intro i hi
  obtain ⟨h1, h2⟩ := h.diff i (Finset.mem_range.mp hi)
  rw [show i + n + 1 = i + 1 + n by omega, h1, h2]
  module

theorem Images.mean (h : Images c B Q L x y) (hl : (n : ℝ) + lam ≠ 0) (hL : L * Lᵀ = ((n : ℝ) + lam) • P) :
    mean n lam y = quadratic c B Q x + trace Q P := by
  rw [mean_eq hl, h.1, h.dev hl hL]

theorem Images.moment {q : Nat → Fin n → ℝ} (h : Images c B Q L x y) (hl : (n : ℝ) + lam ≠ 0)
    (hL : L * Lᵀ = ((n : ℝ) + lam) • P) (hq0 : q 0 = x)
    (hq : ∀ i < n, q (i + 1) = x + colsOf L i ∧ q (i + 1 + n) = x - colsOf L i) :
    moment n lam q y = P * (jac B Q x)ᵀ := by
  unfold Sigma.moment
  rw [sum_two, Finset.sum_congr rfl (g := fun i => (1 / ((n : ℝ) + lam)) • (vecMulVec (colsOf L i) (colsOf L i) * (jac B Q x)ᵀ)),
    ← Finset.smul_sum, ← Matrix.sum_mul, sum_cols, hL, Matrix.smul_mul, smul_smul, one_div, inv_mul_cancel₀ hl, one_smul]
  intro i hi
  obtain ⟨h1, h2⟩ := h.diff i (Finset.mem_range.mp hi)
  obtain ⟨h3, h4⟩ := hq i (Finset.mem_range.mp hi)
  rw [show i + n + 1 = i + 1 + n by omega, h1, h2, h3, h4, hq0, add_sub_cancel_left, sub_sub_cancel_left]
  ext a b
  simp only [Matrix.smul_apply, Matrix.add_apply, vecMulVec_apply, Matrix.mul_apply, Matrix.transpose_apply, Pi.add_apply,
    Pi.neg_apply, smul_eq_mul, mul_assoc, ← Finset.mul_sum]
  rw [show ∑ j, colsOf L i j * jac B Q x b j = (jac B Q x *ᵥ colsOf L i) b from
    Finset.sum_congr rfl fun j _ => mul_comm _ _]
  ring

end Quadratic

namespace Quadratic1
open Matrix Sigma Quadratic

variable {ι : Type} [Fintype ι] [DecidableEq ι] {c : ι → ℝ} {B : Matrix ι (Fin 1) ℝ} {Q : ι → Matrix (Fin 1) (Fin 1) ℝ} {L P : Matrix (Fin 1) (Fin 1) ℝ} {x : Fin 1 → ℝ}
  {y : Nat → ι → ℝ} {lam : ℝ}

theorem cross_self (h : Images c B Q L x y) (hl : ((1 : ℕ) : ℝ) + lam ≠ 0) (hL : L * Lᵀ = (((1 : ℕ) : ℝ) + lam) • P) (d : ℝ) :
    cross 1 lam d y y (mean 1 lam y) (mean 1 lam y) = Matrix.of fun i j =>
      jac B Q x i 0 * jac B Q x j 0 * P 0 0 + Q i 0 0 * Q j 0 0 * P 0 0 ^ 2 * ((1 : ℝ) + lam + d) := by
  rw [cross_eq hl, h.dev hl hL]
  have hL' : L 0 0 ^ 2 = (1 + lam) * P 0 0 := by
    have := congrFun (congrFun hL 0) 0
    simp [Matrix.mul_apply] at this
    rw [sq, this]
  obtain ⟨h1, h2⟩ := h.diff 0 (by norm_num)
  simp only [Nat.cast_one] at hl
  ext i j
  unfold moment
  rw [sum_two, Finset.sum_range_one]
  rw [show 0 + 1 + 1 = 0 + 1 + 1 from rfl, h1, h2]
  have e : ∀ i, (jac B Q x *ᵥ colsOf L 0) i = jac B Q x i 0 * L 0 0 := by
    intro i; simp [mulVec, dotProduct, colsOf]
  have e' : ∀ i, form Q (colsOf L 0) i = Q i 0 0 * L 0 0 ^ 2 := by
    intro i; simp [form, colsOf, sq]
  have e3 : ∀ i, Quadratic.trace Q P i = Q i 0 0 * P 0 0 := by intro i; simp [Quadratic.trace]
  simp only [Matrix.smul_apply, Matrix.add_apply, vecMulVec_apply, Pi.add_apply, Pi.neg_apply, smul_eq_mul, Matrix.of_apply, e, e', e3,
    Nat.cast_one]
  have : 0.5 / (1 + lam) * ((jac B Q x i 0 * L 0 0 + Q i 0 0 * L 0 0 ^ 2) * (jac B Q x j 0 * L 0 0 + Q j 0 0 * L 0 0 ^ 2)) +
      0.5 / (1 + lam) * ((-(jac B Q x i 0 * L 0 0) + Q i 0 0 * L 0 0 ^ 2) * (-(jac B Q x j 0 * L 0 0) + Q j 0 0 * L 0 0 ^ 2))
      = 1 / (1 + lam) * (jac B Q x i 0 * jac B Q x j 0 * L 0 0 ^ 2 + Q i 0 0 * Q j 0 0 * (L 0 0 ^ 2) ^ 2) := by ring
  rw [this, hL']
  field_simp
  ring

end Quadratic1

/-! ### Random vectors -/

namespace Quadratic
open Matrix MeasureTheory ProbabilityTheory

variable {Ω : Type} [MeasurableSpace Ω] {μ : Measure Ω} [IsProbabilityMeasure μ] {n : Nat} {x : Fin n → ℝ}
  {P : Matrix (Fin n) (Fin n) ℝ} {X : Ω → Fin n → ℝ}

omit [IsProbabilityMeasure μ] in
theorem iadd {f g : Ω → ℝ} (hf : Integrable f μ) (hg : Integrable g μ) : Integrable (fun ω => f ω + g ω) μ := hf.add hg

omit [IsProbabilityMeasure μ] in
theorem isum1 {f : Fin n → Ω → ℝ} (hf : ∀ a, Integrable (f a) μ) (r : Fin n → ℝ) :
    ∫ ω, ∑ a, r a * f a ω ∂μ = ∑ a, r a * ∫ ω, f a ω ∂μ := by
  rw [integral_finsetSum _ fun a _ => (hf a).const_mul _]
  exact Finset.sum_congr rfl fun a _ => integral_const_mul _ _

omit [IsProbabilityMeasure μ] in
theorem isum2 {f : Fin n → Fin n → Ω → ℝ} (hf : ∀ a b, Integrable (f a b) μ) (r : Fin n → Fin n → ℝ) :
    ∫ ω, ∑ a, ∑ b, r a b * f a b ω ∂μ = ∑ a, ∑ b, r a b * ∫ ω, f a b ω ∂μ := by
  rw [integral_finsetSum _ fun a _ => integrable_finsetSum Finset.univ fun b _ => (hf a b).const_mul (r a b)]
  exact Finset.sum_congr rfl fun a _ => isum1 (hf a) _

theorem four_four_two : ENNReal.HolderTriple 4 4 2 := by
  refine ⟨?_⟩
  have h2 : (2 : ENNReal) ≠ 0 := by norm_num
  have h2' : (2 : ENNReal) ≠ ⊤ := by norm_num
  rw [show (4 : ENNReal) = 2 * 2 by norm_num, ENNReal.mul_inv (Or.inl h2) (Or.inl h2'), ← mul_add, ENNReal.inv_two_add_inv_two, mul_one]

theorem lin_eq {ι : Type} (M : Matrix ι (Fin n) ℝ) (v : Fin n → ℝ) (i : ι) : (M *ᵥ (v - x)) i = ∑ a, M i a * (v a - x a) := rfl

theorem form_eq {ι : Type} (Q : ι → Matrix (Fin n) (Fin n) ℝ) (v : Fin n → ℝ) (i : ι) :
    form Q (v - x) i = ∑ a, ∑ b, Q i a b * ((v a - x a) * (v b - x b)) := rfl

section
variable (h : HasMoments μ x P X)
include h

theorem central_two (a : Fin n) : MemLp (fun ω => X ω a - x a) 2 μ := (h.finite a).sub (memLp_const _)

theorem central_int (a : Fin n) : Integrable (fun ω => X ω a - x a) μ := (central_two h a).integrable (by norm_num)

theorem central_mul (a b : Fin n) : Integrable (fun ω => (X ω a - x a) * (X ω b - x b)) μ :=
  (central_two h a).integrable_mul (central_two h b)

theorem central_mean (a : Fin n) : ∫ ω, (X ω a - x a) ∂μ = 0 := by
  rw [integral_sub ((h.finite a).integrable (by norm_num)) (integrable_const _), h.mean]
  simp

theorem central_cov (a b : Fin n) : ∫ ω, (X ω a - x a) * (X ω b - x b) ∂μ = P a b := by
  rw [← h.cov a b]
  unfold covariance
  simp only [h.mean]

variable {ι : Type} [Fintype ι] [DecidableEq ι] (c : ι → ℝ) (B : Matrix ι (Fin n) ℝ) (Q : ι → Matrix (Fin n) (Fin n) ℝ)

theorem form_int (i : ι) : Integrable (fun ω => form Q (X ω - x) i) μ := by
  simp only [form_eq]
  exact integrable_finsetSum _ fun a _ => integrable_finsetSum _ fun b _ => (central_mul h a b).const_mul _

theorem form_mean (i : ι) : ∫ ω, form Q (X ω - x) i ∂μ = trace Q P i := by
  simp only [form_eq]
  rw [isum2 (central_mul h) (Q i)]
  exact Finset.sum_congr rfl fun a _ => Finset.sum_congr rfl fun b _ => by rw [central_cov h]

theorem lin_int (M : Matrix ι (Fin n) ℝ) (i : ι) : Integrable (fun ω => (M *ᵥ (X ω - x)) i) μ := by
  simp only [lin_eq]
  exact integrable_finsetSum _ fun a _ => (central_int h a).const_mul _

theorem lin_mean (M : Matrix ι (Fin n) ℝ) (i : ι) : ∫ ω, (M *ᵥ (X ω - x)) i ∂μ = 0 := by
  simp only [lin_eq]
  rw [integral_finsetSum _ fun a _ => (central_int h a).const_mul _]
  refine Finset.sum_eq_zero fun a _ => ?_
  rw [integral_const_mul]
  rw [central_mean h a, mul_zero]

theorem quad_split (ω : Ω) (i : ι) : quadratic c B Q (X ω) i =
    quadratic c B Q x i + (jac B Q x *ᵥ (X ω - x)) i + form Q (X ω - x) i := by
  have := congrFun (expand c B Q x (X ω - x)) i
  rwa [add_sub_cancel] at this

theorem quad_int (i : ι) : Integrable (fun ω => quadratic c B Q (X ω) i) μ := by
  simp only [quad_split h c B Q]
  exact ((integrable_const _).add (lin_int h _ i)).add (form_int h Q i)

theorem quad_mean (i : ι) : ∫ ω, quadratic c B Q (X ω) i ∂μ = quadratic c B Q x i + trace Q P i := by
  simp only [quad_split h c B Q]
  rw [integral_add (iadd (integrable_const _) (lin_int h _ i)) (form_int h Q i),
    integral_add (integrable_const _) (lin_int h _ i), lin_mean h, form_mean h]
  simp

variable (hs : NotSkewed μ x X)
include hs

theorem central_four (a : Fin n) : MemLp (fun ω => X ω a - x a) 4 μ := (hs.finite a).sub (memLp_const _)

theorem central_sq (a b : Fin n) : MemLp (fun ω => (X ω a - x a) * (X ω b - x b)) 2 μ := by
  have := four_four_two
  exact (central_four h hs b).mul (central_four h hs a)

theorem central_three (a b d : Fin n) : Integrable (fun ω => (X ω a - x a) * (X ω b - x b) * (X ω d - x d)) μ :=
  (central_sq h hs a b).integrable_mul (central_two h d)

theorem form_two (i : ι) : MemLp (fun ω => form Q (X ω - x) i) 2 μ := by
  simp only [form_eq]
  exact memLp_finsetSum _ fun a _ => memLp_finsetSum _ fun b _ => (central_sq h hs a b).const_mul _

omit hs in
theorem lin_two (M : Matrix ι (Fin n) ℝ) (i : ι) : MemLp (fun ω => (M *ᵥ (X ω - x)) i) 2 μ := by
  simp only [lin_eq]
  exact memLp_finsetSum _ fun a _ => (central_two h a).const_mul _

theorem quad_two (i : ι) : MemLp (fun ω => quadratic c B Q (X ω) i) 2 μ := by
  have e : (fun ω => quadratic c B Q (X ω) i) = (fun ω => quadratic c B Q x i) + (fun ω => (jac B Q x *ᵥ (X ω - x)) i) +
      fun ω => form Q (X ω - x) i := by funext ω; exact quad_split h c B Q ω i
  rw [e]
  exact ((memLp_const (quadratic c B Q x i)).add (lin_two h (jac B Q x) i)).add (form_two h Q hs i)

theorem quad_cov (a : Fin n) (i : ι) :
    cov[fun ω => X ω a, fun ω => quadratic c B Q (X ω) i; μ] = (P * (jac B Q x)ᵀ) a i := by
  unfold covariance
  rw [h.mean, quad_mean h]
  have e : ∀ ω, (X ω a - x a) * (quadratic c B Q (X ω) i - (quadratic c B Q x i + trace Q P i)) =
      (∑ b, jac B Q x i b * ((X ω a - x a) * (X ω b - x b))) +
      (∑ b, ∑ d, Q i b d * ((X ω a - x a) * (X ω b - x b) * (X ω d - x d))) - trace Q P i * (X ω a - x a) := by
    intro ω
    rw [quad_split h c B Q]
    have e1 : ∑ b, jac B Q x i b * ((X ω a - x a) * (X ω b - x b)) = (X ω a - x a) * (jac B Q x *ᵥ (X ω - x)) i := by
      simp only [mulVec, dotProduct, Finset.mul_sum, Pi.sub_apply]
      exact Finset.sum_congr rfl fun b _ => by ring
    have e2 : (∑ b, ∑ d, Q i b d * ((X ω a - x a) * (X ω b - x b) * (X ω d - x d))) = (X ω a - x a) * form Q (X ω - x) i := by
      simp only [form, Finset.mul_sum, Pi.sub_apply]
      exact Finset.sum_congr rfl fun b _ => Finset.sum_congr rfl fun d _ => by ring
    rw [e1, e2]
    ring
  simp only [e]
  have i1 : Integrable (fun ω => ∑ b, jac B Q x i b * ((X ω a - x a) * (X ω b - x b))) μ :=
    integrable_finsetSum _ fun b _ => (central_mul h a b).const_mul _
  have i2 : Integrable (fun ω => ∑ b, ∑ d, Q i b d * ((X ω a - x a) * (X ω b - x b) * (X ω d - x d))) μ :=
    integrable_finsetSum _ fun b _ => integrable_finsetSum _ fun d _ => (central_three h hs a b d).const_mul _
  rw [integral_sub (iadd i1 i2) ((central_int h a).const_mul _), integral_add i1 i2, integral_const_mul, central_mean h,
    isum1 (central_mul h a) (jac B Q x i), isum2 (central_three h hs a) (Q i)]
  simp only [hs.third, central_cov h, mul_zero, Finset.sum_const_zero, add_zero, sub_zero, Matrix.mul_apply, Matrix.transpose_apply]
  exact Finset.sum_congr rfl fun b _ => mul_comm _ _

end

section One
variable {ι : Type} [Fintype ι] [DecidableEq ι] {c : ι → ℝ} {B : Matrix ι (Fin 1) ℝ} {Q : ι → Matrix (Fin 1) (Fin 1) ℝ}
  {x : Fin 1 → ℝ} {P : Matrix (Fin 1) (Fin 1) ℝ} {X : Ω → Fin 1 → ℝ}

theorem quad_cov_self (h : HasMoments μ x P X) (hs : NotSkewed μ x X) (h4 : NormalTails μ (x 0) (P 0 0) fun ω => X ω 0) (i j : ι) :
    cov[fun ω => quadratic c B Q (X ω) i, fun ω => quadratic c B Q (X ω) j; μ] =
      jac B Q x i 0 * jac B Q x j 0 * P 0 0 + Q i 0 0 * Q j 0 0 * P 0 0 ^ 2 * 2 := by
  unfold covariance
  rw [quad_mean h, quad_mean h]
  have e3 : ∀ i, Quadratic.trace Q P i = Q i 0 0 * P 0 0 := by intro i; simp [Quadratic.trace]
  have e : ∀ ω, (quadratic c B Q (X ω) i - (quadratic c B Q x i + Quadratic.trace Q P i)) *
      (quadratic c B Q (X ω) j - (quadratic c B Q x j + Quadratic.trace Q P j)) =
      (jac B Q x i 0 * jac B Q x j 0 - 2 * P 0 0 * (Q i 0 0 * Q j 0 0)) * ((X ω 0 - x 0) * (X ω 0 - x 0)) +
      (jac B Q x i 0 * Q j 0 0 + Q i 0 0 * jac B Q x j 0) * ((X ω 0 - x 0) * (X ω 0 - x 0) * (X ω 0 - x 0)) +
      (-((jac B Q x i 0 * Q j 0 0 + Q i 0 0 * jac B Q x j 0) * P 0 0)) * (X ω 0 - x 0) +
      (Q i 0 0 * Q j 0 0) * (X ω 0 - x 0) ^ 4 + (Q i 0 0 * Q j 0 0) * P 0 0 ^ 2 := by
    intro ω
    rw [quad_split h c B Q, quad_split h c B Q, e3, e3]
    have e1 : ∀ i, (jac B Q x *ᵥ (X ω - x)) i = jac B Q x i 0 * (X ω 0 - x 0) := by
      intro i; simp [mulVec, dotProduct]
    have e2 : ∀ i, form Q (X ω - x) i = Q i 0 0 * ((X ω 0 - x 0) * (X ω 0 - x 0)) := by
      intro i; simp [form]
    rw [e1, e1, e2, e2]
    ring
  simp only [e]
  have i4 : Integrable (fun ω => (X ω 0 - x 0) ^ 4) μ := by
    have := (central_sq h hs 0 0).integrable_mul (central_sq h hs 0 0)
    refine this.congr (Filter.Eventually.of_forall fun ω => ?_)
    simp only [Pi.mul_apply]
    ring
  have j1 := (central_mul h 0 0).const_mul (jac B Q x i 0 * jac B Q x j 0 - 2 * P 0 0 * (Q i 0 0 * Q j 0 0))
  have j2 := (central_three h hs 0 0 0).const_mul (jac B Q x i 0 * Q j 0 0 + Q i 0 0 * jac B Q x j 0)
  have j3 := (central_int h 0).const_mul (-((jac B Q x i 0 * Q j 0 0 + Q i 0 0 * jac B Q x j 0) * P 0 0))
  have j4 := i4.const_mul (Q i 0 0 * Q j 0 0)
  rw [integral_add (iadd (iadd (iadd j1 j2) j3) j4) (integrable_const _), integral_add (iadd (iadd j1 j2) j3) j4,
    integral_add (iadd j1 j2) j3, integral_add j1 j2, integral_const_mul, integral_const_mul, integral_const_mul, integral_const_mul,
    central_cov h, hs.third, central_mean h, show ∫ ω, (X ω 0 - x 0) ^ 4 ∂μ = 3 * P 0 0 ^ 2 from h4]
  simp
  ring

end One
end Quadratic
end StateEstimation
