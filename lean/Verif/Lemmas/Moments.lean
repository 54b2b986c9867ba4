import Verif.Spec.Experiment
import Mathlib.Analysis.Matrix.Order
import Mathlib.MeasureTheory.Integral.Bochner.Set
import Mathlib.Algebra.Order.Star.Real

/-! # Second moments of random vectors -/

set_option linter.unusedSectionVars false

namespace StateEstimation
namespace Moments

open Matrix MeasureTheory

variable {Ω : Type} [MeasurableSpace Ω] {μ : Measure Ω}

/-! ### Second moments -/

/-- finite second moments -/
def Fin2 (μ : Measure Ω) {a : Nat} (x : Ω → Fin a → ℝ) : Prop := ∀ i, MemLp (fun ω => x ω i) 2 μ

/-- matrix of second moments -/
noncomputable def mom (μ : Measure Ω) {a b : Nat} (x : Ω → Fin a → ℝ) (y : Ω → Fin b → ℝ) : Matrix (Fin a) (Fin b) ℝ :=
  Matrix.of fun i j => ∫ ω, x ω i * y ω j ∂μ

theorem int_mul {s t : Ω → ℝ} (hs : MemLp s 2 μ) (ht : MemLp t 2 μ) : Integrable (fun ω => s ω * t ω) μ :=
  hs.integrable_mul ht

theorem mom_transpose {a b : Nat} (x : Ω → Fin a → ℝ) (y : Ω → Fin b → ℝ) : (mom μ x y)ᵀ = mom μ y x := by
  ext i j
  simp only [mom, Matrix.transpose_apply, Matrix.of_apply, mul_comm]

theorem mom_add {a b : Nat} {x y : Ω → Fin a → ℝ} {z : Ω → Fin b → ℝ} (hx : Fin2 μ x) (hy : Fin2 μ y) (hz : Fin2 μ z) :
    mom μ (fun ω => x ω + y ω) z = mom μ x z + mom μ y z := by
  ext i j
  simp only [mom, Matrix.of_apply, Matrix.add_apply, Pi.add_apply, add_mul]
  exact integral_add (int_mul (hx i) (hz j)) (int_mul (hy i) (hz j))

theorem mom_mulVec {a b c : Nat} (F : Matrix (Fin c) (Fin a) ℝ) {x : Ω → Fin a → ℝ} {z : Ω → Fin b → ℝ} (hx : Fin2 μ x)
    (hz : Fin2 μ z) : mom μ (fun ω => F *ᵥ x ω) z = F * mom μ x z := by
  ext i j
  simp only [mom, Matrix.of_apply, Matrix.mul_apply, Matrix.mulVec, dotProduct, Finset.sum_mul]
  rw [integral_finsetSum]
  · refine Finset.sum_congr rfl (fun l _ => ?_)
    rw [← integral_const_mul]
    congr 1; funext ω; ring
  · intro l _
    have := (int_mul (hx l) (hz j)).const_mul (F i l)
    simpa only [mul_assoc] using this

theorem fin2_mulVec {a c : Nat} (F : Matrix (Fin c) (Fin a) ℝ) {x : Ω → Fin a → ℝ} (hx : Fin2 μ x) :
    Fin2 μ (fun ω => F *ᵥ x ω) := by
  intro i
  simp only [Matrix.mulVec, dotProduct]
  exact memLp_finsetSum _ (fun l _ => (hx l).const_mul (F i l))

theorem fin2_add {a : Nat} {x y : Ω → Fin a → ℝ} (hx : Fin2 μ x) (hy : Fin2 μ y) : Fin2 μ (fun ω => x ω + y ω) :=
  fun i => (hx i).add (hy i)

theorem mom_quad {a c : Nat} (F : Matrix (Fin c) (Fin a) ℝ) {x : Ω → Fin a → ℝ} (hx : Fin2 μ x) :
    mom μ (fun ω => F *ᵥ x ω) (fun ω => F *ᵥ x ω) = F * mom μ x x * Fᵀ := by
  rw [mom_mulVec F hx (fin2_mulVec F hx), ← mom_transpose, mom_mulVec F hx hx, Matrix.transpose_mul, mom_transpose,
    Matrix.mul_assoc]

theorem mom_psd {a : Nat} {x : Ω → Fin a → ℝ} (hx : Fin2 μ x) : (mom μ x x).PosSemidef := by
  refine Matrix.PosSemidef.of_dotProduct_mulVec_nonneg ?_ ?_
  · rw [Matrix.IsHermitian, Matrix.conjTranspose_eq_transpose_of_trivial, mom_transpose]
  · intro v
    have h := mom_quad (μ := μ) (Matrix.of fun (_ : Fin 1) j => v j) hx
    have h2 := congrFun (congrFun h 0) 0
    have e : ((Matrix.of fun (_ : Fin 1) j => v j) * mom μ x x * (Matrix.of fun (_ : Fin 1) j => v j)ᵀ) 0 0
        = star v ⬝ᵥ (mom μ x x *ᵥ v) := by
      rw [Matrix.mul_assoc]
      simp only [Matrix.mul_apply, Matrix.transpose_apply, Matrix.of_apply, dotProduct, Matrix.mulVec]
      rfl
    rw [← e, ← h2]
    simp only [mom, Matrix.of_apply]
    exact integral_nonneg (fun ω => mul_self_nonneg _)

theorem mom_add_right {a b : Nat} {x y : Ω → Fin a → ℝ} {z : Ω → Fin b → ℝ} (hx : Fin2 μ x) (hy : Fin2 μ y)
    (hz : Fin2 μ z) : mom μ z (fun ω => x ω + y ω) = mom μ z x + mom μ z y := by
  rw [← mom_transpose, mom_add hx hy hz, Matrix.transpose_add, mom_transpose, mom_transpose]

/-- sum of a linear image of the past and fresh noise -/
theorem mom_step {a c q : Nat} (F : Matrix (Fin c) (Fin a) ℝ) (G : Matrix (Fin c) (Fin q) ℝ) {x : Ω → Fin a → ℝ}
    {w : Ω → Fin q → ℝ} (hx : Fin2 μ x) (hw : Fin2 μ w) (h0 : mom μ w x = 0) :
    mom μ (fun ω => F *ᵥ x ω + G *ᵥ w ω) (fun ω => F *ᵥ x ω + G *ᵥ w ω) = F * mom μ x x * Fᵀ + G * mom μ w w * Gᵀ := by
  have h1 := fin2_mulVec F hx
  have h2 := fin2_mulVec G hw
  have c2 : mom μ (fun ω => G *ᵥ w ω) (fun ω => F *ᵥ x ω) = 0 := by
    rw [mom_mulVec G hw h1, ← mom_transpose, mom_mulVec F hx hw, ← mom_transpose, h0]; simp
  have c1 : mom μ (fun ω => F *ᵥ x ω) (fun ω => G *ᵥ w ω) = 0 := by
    rw [← mom_transpose, c2, Matrix.transpose_zero]
  have hs := fin2_add h1 h2
  rw [mom_add h1 h2 hs, mom_add_right h1 h2 h1, mom_add_right h1 h2 h2, c1, c2, mom_quad F hx, mom_quad G hw, add_zero, zero_add]

/-! ### Linear combinations of the noises that have occurred -/

/-- `e`'s components are linear combinations of the elements of `past` -/
def InSpan (past : Set (Ω → ℝ)) {a : Nat} (e : Ω → Fin a → ℝ) : Prop := ∀ i, (fun ω => e ω i) ∈ Submodule.span ℝ past

theorem span_mono {past past' : Set (Ω → ℝ)} (h : past ⊆ past') {a : Nat} {e : Ω → Fin a → ℝ} (he : InSpan past e) :
    InSpan past' e := fun i => Submodule.span_mono h (he i)

theorem inSpan_mulVec {past : Set (Ω → ℝ)} {a c : Nat} (F : Matrix (Fin c) (Fin a) ℝ) {e : Ω → Fin a → ℝ}
    (he : InSpan past e) : InSpan past (fun ω => F *ᵥ e ω) := by
  intro i
  have : (fun ω => (F *ᵥ e ω) i) = ∑ l, F i l • (fun ω => e ω l) := by
    funext ω
    simp only [Matrix.mulVec, dotProduct, Finset.sum_apply, Pi.smul_apply, smul_eq_mul]
  rw [this]
  exact Submodule.sum_mem _ (fun l _ => Submodule.smul_mem _ _ (he l))

theorem inSpan_add {past : Set (Ω → ℝ)} {a : Nat} {e e' : Ω → Fin a → ℝ} (he : InSpan past e) (he' : InSpan past e') :
    InSpan past (fun ω => e ω + e' ω) := fun i => Submodule.add_mem _ (he i) (he' i)

theorem inSpan_new {past : Set (Ω → ℝ)} {a : Nat} (w : Ω → Fin a → ℝ) : InSpan (addNoise past w) w :=
  fun i => Submodule.subset_span (Or.inr ⟨i, rfl⟩)

theorem past_sub {past : Set (Ω → ℝ)} {a : Nat} (w : Ω → Fin a → ℝ) : past ⊆ addNoise past w := fun _ h => Or.inl h

/-- every variable of the past has finite second moment and mean zero -/
def Centered (μ : Measure Ω) (past : Set (Ω → ℝ)) : Prop := ∀ s ∈ past, MemLp s 2 μ ∧ ∫ ω, s ω ∂μ = 0

theorem centered_add {past : Set (Ω → ℝ)} {a : Nat} {Q : Matrix (Fin a) (Fin a) ℝ} {w : Ω → Fin a → ℝ} {past' : Set (Ω → ℝ)}
    (h : Centered μ past) (hw : IsNoise μ past' Q w) : Centered μ (addNoise past w) := by
  rintro s (hs | ⟨i, rfl⟩)
  · exact h s hs
  · exact ⟨hw.finite i, hw.mean i⟩

theorem span_centered [IsFiniteMeasure μ] {past : Set (Ω → ℝ)} (h : Centered μ past) {s : Ω → ℝ}
    (hs : s ∈ Submodule.span ℝ past) : MemLp s 2 μ ∧ ∫ ω, s ω ∂μ = 0 := by
  induction hs using Submodule.span_induction with
  | mem s hs => exact h s hs
  | zero => exact ⟨MemLp.zero', by simp⟩
  | add a b _ _ ha hb =>
    refine ⟨ha.1.add hb.1, ?_⟩
    have := integral_add (ha.1.integrable (by norm_num)) (hb.1.integrable (by norm_num))
    simp only [Pi.add_apply]
    rw [this, ha.2, hb.2, add_zero]
  | smul r a _ ha =>
    refine ⟨ha.1.const_smul r, ?_⟩
    simp only [Pi.smul_apply, smul_eq_mul]
    rw [integral_const_mul, ha.2, mul_zero]

theorem span_white {past : Set (Ω → ℝ)} (h : Centered μ past) [IsFiniteMeasure μ] {t : Ω → ℝ} (ht : MemLp t 2 μ)
    (hw : ∀ s ∈ past, ∫ ω, t ω * s ω ∂μ = 0) {s : Ω → ℝ} (hs : s ∈ Submodule.span ℝ past) : ∫ ω, t ω * s ω ∂μ = 0 := by
  induction hs using Submodule.span_induction with
  | mem s hs => exact hw s hs
  | zero => simp
  | add a b ha' hb' ha hb =>
    have := integral_add (int_mul ht (span_centered h ha').1) (int_mul ht (span_centered h hb').1)
    simp only [Pi.add_apply, mul_add]
    rw [this, ha, hb, add_zero]
  | smul r a _ ha =>
    simp only [Pi.smul_apply, smul_eq_mul]
    have : (fun ω => t ω * (r * a ω)) = fun ω => r * (t ω * a ω) := by funext ω; ring
    rw [this, integral_const_mul, ha, mul_zero]

theorem inSpan_fin2 [IsFiniteMeasure μ] {past : Set (Ω → ℝ)} (h : Centered μ past) {a : Nat} {e : Ω → Fin a → ℝ}
    (he : InSpan past e) : Fin2 μ e := fun i => (span_centered h (he i)).1

theorem mom_white [IsFiniteMeasure μ] {past : Set (Ω → ℝ)} (h : Centered μ past) {a b : Nat} {Q : Matrix (Fin b) (Fin b) ℝ}
    {w : Ω → Fin b → ℝ} (hw : IsNoise μ past Q w) {e : Ω → Fin a → ℝ} (he : InSpan past e) : mom μ w e = 0 := by
  ext i j
  exact span_white h (hw.finite i) (fun s hs => hw.white s hs i) (he j)

theorem mom_cov {past : Set (Ω → ℝ)} {b : Nat} {Q : Matrix (Fin b) (Fin b) ℝ}
    {w : Ω → Fin b → ℝ} (hw : IsNoise μ past Q w) : mom μ w w = Q := by
  ext i j; exact hw.cov i j

end Moments
end StateEstimation
