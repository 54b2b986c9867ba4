import Verif.Spec.Bias
import Verif.Props.Quadratic
import Verif.Props.Follows

/-!
# C134: how far a nonlinear filter's prediction is from the mean of the true state

For every nonlinear model and every distribution of the state with the reported mean and covariance: the EKF's and the UKF's predicted
means are off by at most a constant times the total variance, the constant being the curvature of `g`; where `g` is quadratic up to
third order, the UKF's is off by a third-order quantity only.
-/

set_option linter.unusedSectionVars false

namespace StateEstimation

namespace Bias

open Matrix MeasureTheory ProbabilityTheory Sigma Quadratic

variable {n a : Nat} {Ω : Type} [MeasurableSpace Ω] {μ : Measure Ω} [IsProbabilityMeasure μ] {x : Fin n → ℝ} {P : Matrix (Fin n) (Fin n) ℝ}
  {S : Ω → Fin n → ℝ}

theorem sq_eq (d : Fin n → ℝ) : len d ^ 2 = ∑ i, d i * d i := len_sq d

theorem dist_int (h : HasMoments μ x P S) : Integrable (fun ω => len (S ω - x) ^ 2) μ := by
  simp only [sq_eq]
  exact integrable_finsetSum _ fun i _ => central_mul h i i

theorem dist_mean (h : HasMoments μ x P S) : ∫ ω, len (S ω - x) ^ 2 ∂μ = ∑ i, P i i := by
  simp only [sq_eq]
  rw [integral_finsetSum _ fun i _ => by exact central_mul h i i]
  exact Finset.sum_congr rfl fun i _ => central_cov h i i

/-- the mean of the function of a random state -/
theorem bend_mean (h : HasMoments μ x P S) {γ : (Fin n → ℝ) → (Fin a → ℝ)} {bend : ℝ} (hb : BendsAt bend x γ) (i : Fin a)
    (hm : AEStronglyMeasurable (fun ω => γ (S ω) i) μ) :
    Integrable (fun ω => γ (S ω) i) μ ∧ |∫ ω, γ (S ω) i ∂μ - γ x i| ≤ bend * ∑ i, P i i := by
  obtain ⟨J, hJ⟩ := hb
  have hl := lin_int h J i
  have hr : Integrable (fun ω => γ (S ω) i - γ x i - (J *ᵥ (S ω - x)) i) μ := by
    refine ((dist_int h).const_mul bend).mono' ((hm.sub aestronglyMeasurable_const).sub hl.aestronglyMeasurable) ?_
    exact Filter.Eventually.of_forall fun ω => hJ (S ω) i
  have e : (fun ω => γ (S ω) i) = fun ω => (γ (S ω) i - γ x i - (J *ᵥ (S ω - x)) i) + (γ x i + (J *ᵥ (S ω - x)) i) := by
    funext ω; ring
  have hc : Integrable (fun ω => γ x i + (J *ᵥ (S ω - x)) i) μ := iadd (integrable_const _) hl
  have hi : Integrable (fun ω => γ (S ω) i) μ := by rw [e]; exact iadd hr hc
  refine ⟨hi, ?_⟩
  have e2 : ∫ ω, γ (S ω) i ∂μ - γ x i = ∫ ω, (γ (S ω) i - γ x i - (J *ᵥ (S ω - x)) i) ∂μ := by
    rw [integral_sub (by exact hi.sub (integrable_const _)) hl, integral_sub hi (integrable_const _), lin_mean h]
    simp
  rw [e2, ← dist_mean h, ← integral_const_mul]
  refine (abs_integral_le_integral_abs).trans ?_
  exact integral_mono hr.abs ((dist_int h).const_mul bend) fun ω => hJ (S ω) i

theorem twist_mean (h : HasMoments μ x P S) {γ : (Fin n → ℝ) → (Fin a → ℝ)} {bend : ℝ} {c : Fin a → ℝ} {B : Matrix (Fin a) (Fin n) ℝ}
    {Q : Fin a → Matrix (Fin n) (Fin n) ℝ} (hb : ∀ q i, |γ q i - quadratic c B Q q i| ≤ bend * len (q - x) ^ 3) (i : Fin a)
    (hm : AEStronglyMeasurable (fun ω => γ (S ω) i) μ) (h3 : Integrable (fun ω => len (S ω - x) ^ 3) μ) :
    Integrable (fun ω => γ (S ω) i) μ ∧
      |∫ ω, γ (S ω) i ∂μ - (quadratic c B Q x i + trace Q P i)| ≤ bend * ∫ ω, len (S ω - x) ^ 3 ∂μ := by
  have hq := quad_int h c B Q i
  have hr : Integrable (fun ω => γ (S ω) i - quadratic c B Q (S ω) i) μ := by
    refine (h3.const_mul bend).mono' (hm.sub hq.aestronglyMeasurable) ?_
    exact Filter.Eventually.of_forall fun ω => hb (S ω) i
  have e : (fun ω => γ (S ω) i) = fun ω => (γ (S ω) i - quadratic c B Q (S ω) i) + quadratic c B Q (S ω) i := by
    funext ω; ring
  have hi : Integrable (fun ω => γ (S ω) i) μ := by rw [e]; exact iadd hr hq
  refine ⟨hi, ?_⟩
  rw [← quad_mean h, ← integral_sub hi hq, ← integral_const_mul]
  refine (abs_integral_le_integral_abs).trans ?_
  exact integral_mono hr.abs (h3.const_mul bend) fun ω => hb (S ω) i

variable {L : Matrix (Fin n) (Fin n) ℝ} {lam : ℝ}

theorem cols_sq (hL : L * Lᵀ = ((n : ℝ) + lam) • P) : ∑ j ∈ Finset.range n, len (colsOf L j) ^ 2 = (n + lam) * ∑ i, P i i := by
  have e : ∀ i, (L * Lᵀ) i i = ∑ j ∈ Finset.range n, colsOf L j i * colsOf L j i := by
    intro i
    rw [Matrix.mul_apply, Finset.sum_range]
    refine Finset.sum_congr rfl fun j _ => ?_
    simp [colsOf]
  simp only [sq_eq]
  rw [Finset.sum_comm, Finset.mul_sum]
  refine Finset.sum_congr rfl fun i _ => ?_
  rw [← e, hL]; rfl

/-- the weighted mean of values that are small in terms of the columns -/
theorem dev_le (hl : 0 < (n : ℝ) + lam) {y : Nat → Fin a → ℝ} (i : Fin a) {b : Nat → ℝ} {J : Nat → ℝ}
    (hy : ∀ j < n, |y (j + 1) i - y 0 i - J j| ≤ b j ∧ |y (j + 1 + n) i - y 0 i + J j| ≤ b j) :
    |mean n lam y i - y 0 i| ≤ (∑ j ∈ Finset.range n, b j) / (n + lam) := by
  rw [mean_eq hl.ne', Pi.add_apply, add_sub_cancel_left]
  unfold Sigma.dev
  rw [sum_two, Finset.sum_apply, Finset.sum_div]
  refine (Finset.abs_sum_le_sum_abs _ _).trans (Finset.sum_le_sum fun j hj => ?_)
  obtain ⟨h1, h2⟩ := hy j (Finset.mem_range.mp hj)
  simp only [Pi.add_apply, Pi.smul_apply, Pi.sub_apply, smul_eq_mul]
  rw [show j + n + 1 = j + 1 + n by omega, ← mul_add, abs_mul, abs_of_pos (show (0 : ℝ) < 0.5 / (n + lam) by positivity)]
  have h3 := abs_add_le (y (j + 1) i - y 0 i - J j) (y (j + 1 + n) i - y 0 i + J j)
  have e : y (j + 1) i - y 0 i - J j + (y (j + 1 + n) i - y 0 i + J j) = y (j + 1) i - y 0 i + (y (j + 1 + n) i - y 0 i) := by ring
  rw [e] at h3
  have h4 : |y (j + 1) i - y 0 i + (y (j + 1 + n) i - y 0 i)| ≤ 2 * b j := by linarith
  refine (mul_le_mul_of_nonneg_left h4 (by positivity)).trans (le_of_eq ?_)
  ring

theorem len_neg {a : Nat} (v : Fin a → ℝ) : len (-v) = len v := by unfold len; simp

/-- the UKF's mean, to first order -/
theorem bend_sigma (hl : 0 < (n : ℝ) + lam) (hL : L * Lᵀ = ((n : ℝ) + lam) • P) {γ : (Fin n → ℝ) → (Fin a → ℝ)} {bend : ℝ}
    (hb : BendsAt bend x γ) {y : Nat → Fin a → ℝ} (h0 : y 0 = γ x)
    (hy : ∀ j < n, y (j + 1) = γ (x + colsOf L j) ∧ y (j + 1 + n) = γ (x - colsOf L j)) (i : Fin a) :
    |mean n lam y i - γ x i| ≤ bend * ∑ i, P i i := by
  obtain ⟨J, hJ⟩ := hb
  rw [← h0]
  refine (dev_le hl i (b := fun j => bend * len (colsOf L j) ^ 2) (J := fun j => (J *ᵥ colsOf L j) i) ?_).trans (le_of_eq ?_)
  · intro j hj
    obtain ⟨e1, e2⟩ := hy j hj
    have a1 := hJ (x + colsOf L j) i
    have a2 := hJ (x - colsOf L j) i
    rw [add_sub_cancel_left] at a1
    rw [sub_sub_cancel_left, Matrix.mulVec_neg, len_neg, Pi.neg_apply, sub_neg_eq_add] at a2
    rw [e1, e2, h0]
    exact ⟨a1, a2⟩
  · rw [← Finset.mul_sum, cols_sq hL]
    field_simp

/-- the UKF's mean, to second order -/
theorem twist_sigma (hl : 0 < (n : ℝ) + lam) (hL : L * Lᵀ = ((n : ℝ) + lam) • P) {γ : (Fin n → ℝ) → (Fin a → ℝ)} {bend : ℝ} (hbn : 0 ≤ bend)
    {c : Fin a → ℝ} {B : Matrix (Fin a) (Fin n) ℝ}
    {Q : Fin a → Matrix (Fin n) (Fin n) ℝ} (hb : ∀ q i, |γ q i - quadratic c B Q q i| ≤ bend * len (q - x) ^ 3)
    {y : Nat → Fin a → ℝ} (h0 : y 0 = γ x)
    (hy : ∀ j < n, y (j + 1) = γ (x + colsOf L j) ∧ y (j + 1 + n) = γ (x - colsOf L j)) (i : Fin a) :
    |mean n lam y i - (quadratic c B Q x i + trace Q P i)| ≤ bend * (√((n + lam) * ∑ i, P i i) * ∑ i, P i i) := by
  -- the values of the quadratic and of the remainder
  let yq : Nat → Fin a → ℝ := fun j => if j = 0 then quadratic c B Q x else if j ≤ n then quadratic c B Q (x + colsOf L (j - 1))
    else quadratic c B Q (x - colsOf L (j - 1 - n))
  have him : Images c B Q L x yq := by
    refine ⟨rfl, fun j hj => ⟨?_, ?_⟩⟩
    · show (if j + 1 = 0 then _ else if j + 1 ≤ n then _ else _) = _
      rw [if_neg (by omega), if_pos (by omega)]; rfl
    · show (if j + 1 + n = 0 then _ else if j + 1 + n ≤ n then _ else _) = _
      rw [if_neg (by omega), if_neg (by omega), show j + 1 + n - 1 - n = j by omega]
  have hq := congrFun (him.mean hl.ne' hL) i
  have e0 : y 0 i = yq 0 i := by
    have := hb x i
    rw [sub_self] at this
    have hz : len (0 : Fin n → ℝ) = 0 := by unfold len; simp
    rw [hz] at this
    have h1 : γ x i - quadratic c B Q x i = 0 := abs_eq_zero.mp (le_antisymm (by simpa using this) (abs_nonneg _))
    rw [h0, him.1]; linarith
  have split : mean n lam y i - mean n lam yq i = mean n lam (y - yq) i - (y - yq) 0 i := by
    have : mean n lam (y - yq) = mean n lam y - mean n lam yq := by
      unfold Sigma.mean
      rw [← Finset.sum_sub_distrib]
      exact Finset.sum_congr rfl fun j _ => smul_sub _ _ _
    rw [this]
    simp [e0]
  have hs : mean n lam y i - (quadratic c B Q x i + trace Q P i) = mean n lam (y - yq) i - (y - yq) 0 i := by
    rw [← split, hq]; rfl
  rw [hs]
  have htot := cols_sq hL
  refine (dev_le hl i (b := fun j => bend * len (colsOf L j) ^ 3) (J := fun _ => 0) ?_).trans ?_
  · intro j hj
    obtain ⟨e1, e2⟩ := hy j hj
    obtain ⟨e3, e4⟩ := him.2 j hj
    have a1 := hb (x + colsOf L j) i
    have a2 := hb (x - colsOf L j) i
    rw [add_sub_cancel_left] at a1
    rw [sub_sub_cancel_left, len_neg] at a2
    simp only [Pi.sub_apply, e0, sub_self, sub_zero, add_zero, e1, e2, e3, e4]
    exact ⟨a1, a2⟩
  · have hcol : ∀ j ∈ Finset.range n, len (colsOf L j) ^ 3 ≤ √((n + lam) * ∑ i, P i i) * len (colsOf L j) ^ 2 := by
      intro j hj
      have h1 : len (colsOf L j) ^ 2 ≤ (n + lam) * ∑ i, P i i := by
        rw [← htot]
        exact Finset.single_le_sum (f := fun j => len (colsOf L j) ^ 2) (fun j _ => sq_nonneg _) hj
      have h2 : len (colsOf L j) ≤ √((n + lam) * ∑ i, P i i) := Real.le_sqrt_of_sq_le h1
      rw [pow_succ, mul_comm]
      exact mul_le_mul_of_nonneg_right h2 (sq_nonneg _)
    rw [← Finset.mul_sum, div_le_iff₀ hl]
    have h3 : ∑ j ∈ Finset.range n, len (colsOf L j) ^ 3 ≤ √((n + lam) * ∑ i, P i i) * ((n + lam) * ∑ i, P i i) := by
      rw [← htot, Finset.mul_sum, htot]
      exact Finset.sum_le_sum hcol
    refine (mul_le_mul_of_nonneg_left h3 hbn).trans (le_of_eq ?_)
    ring

end Bias

namespace Props

open Matrix Kalman Sigma Examples MeasureTheory ProbabilityTheory Quadratic Bias

variable {T K X Y : Type} [DecidableEq K] {n m k : Nat} {Ω : Type} [MeasurableSpace Ω]
variable [LinearOrder T] [ExactTime T]

private theorem fun_images {sc : SysClass T NonlinSysData X} {s0 : Sys NonlinSysData X} {u : DVec} {dt : T} {γ : (Fin n → ℝ) → (Fin n → ℝ)}
    (hq : SysIs sc n m s0 u dt γ) (q v : Fin n → ℝ) (h : SysImage sc n m s0 (.of q) u dt v) : v = γ q := by
  obtain ⟨t, k1, k2⟩ := h
  exact DVec.of_inj.mp (k2.symm.trans (hq q t k1))

/-- **C134 (EKF).**  The model's `g()` is any function `γ` of the state that is linear about the estimate up to `bend` times the
squared distance.  An in-order `predict(u, t)` of the EKF moves the estimate to `x'`; for every random state with mean `getState()` and
covariance `getCovariance()` beforehand, the mean of `γ` of it differs from `x'` by at most `bend` times the sum of the reported variances,
in every component. -/
theorem C134_ekf_predict {sc : SysClass T NonlinSysData X} {mc : K → MeasClass T NonlinMeasData Y}
    (hsc : SysContract NonlinSysData.Sized sc) (f : Filter T DVec DMat K (Env K NonlinSysData X NonlinMeasData Y))
    (hs : f.env.sys.Sized NonlinSysData.Sized n m)
    {x : Fin n → ℝ} {P : Matrix (Fin n) (Fin n) ℝ} (hx : f.getState = .of x) (hP : f.getCovariance = .of P)
    (u : Fin m → ℝ) (hm : 0 < m) (t : T) (ht : f.getStateTime ≤ t)
    (hst : (f.env.sys.fm.checkStationary && f.env.sys.fm.isStationary (.of x) (.of u)) = false)
    {γ : (Fin n → ℝ) → (Fin n → ℝ)} (hq : SysIs sc n m f.env.sys (.of u) (TimeOps.sub t f.getStateTime) γ) {bend : ℝ} (hb : BendsAt bend x γ)
    {μ : Measure Ω} [IsProbabilityMeasure μ] {S : Ω → Fin n → ℝ} (hS : HasMoments μ x P S)
    (hmeas : ∀ i, AEStronglyMeasurable (fun ω => γ (S ω) i) μ) :
    (∀ i, Integrable (fun ω => γ (S ω) i) μ) ∧
    ∃ g, ∃ x' : Fin n → ℝ, f.predictControl (ekfPlant sc mc) (.of u) t = some g ∧ g.getState = .of x' ∧
      ∀ i, |∫ ω, γ (S ω) i ∂μ - x' i| ≤ bend * ∑ i, P i i := by
  obtain ⟨g, p, A, W, V, Rp, Rc, h1, h2, h3, h4, h5, h6, h7, h8, h9, h10, h11⟩ := C27_ekf_predict (mc := mc) hsc f hs hx hP u hm t ht hst
  refine ⟨fun i => (bend_mean hS hb i (hmeas i)).1, g, γ x, h1, ?_, fun i => (bend_mean hS hb i (hmeas i)).2⟩
  rw [h9]
  exact hq x g.env.sys ⟨_, hs, Sys.SameConfig.refl _, h3⟩

/-- **C134 (UKF).**  The same for the UKF, with any sigma point parameters for which the covariance can be decomposed: the difference is
at most `2 bend` times the sum of the reported variances. -/
theorem C134_ukf_predict {llt : DMat → Option DMat} (hllt : LltSpec llt) (junk : Nat → Nat → ℝ)
    {sc : SysClass T NonlinSysData X} {mc : K → MeasClass T NonlinMeasData Y}
    (hsc : SysContract NonlinSysData.Sized sc) (hso : sc.PlainOps)
    (f : Filter T DVec DMat K (Env K NonlinSysData X NonlinMeasData Y × SigmaParams))
    (hs : f.env.1.sys.Sized NonlinSysData.Sized n m) {al ka be : ℝ} (hsp : setSigma n n al ka be = some f.env.2)
    (hal : 0 < al ^ 2 * (n + ka)) (hbe : al ^ 2 ≤ be)
    {x : Fin n → ℝ} {P : Matrix (Fin n) (Fin n) ℝ} (hx : f.getState = .of x) (hP : f.getCovariance = .of P)
    (hPd : P.PosDef) (u : Fin m → ℝ) (hm : 0 < m) (hn : 0 < n) (t : T) (ht : f.getStateTime ≤ t)
    (hst : (f.env.1.sys.fm.checkStationary && f.env.1.sys.fm.isStationary (.of x) (.of u)) = false)
    {γ : (Fin n → ℝ) → (Fin n → ℝ)} (hq : SysIs sc n m f.env.1.sys (.of u) (TimeOps.sub t f.getStateTime) γ) {bend : ℝ}
    (hb : BendsAt bend x γ)
    {μ : Measure Ω} [IsProbabilityMeasure μ] {S : Ω → Fin n → ℝ} (hS : HasMoments μ x P S)
    (hmeas : ∀ i, AEStronglyMeasurable (fun ω => γ (S ω) i) μ) :
    ∃ g, ∃ x' : Fin n → ℝ, f.predictControl (ukfPlant llt junk sc mc) (.of u) t = some g ∧ g.getState = .of x' ∧
      ∀ i, |∫ ω, γ (S ω) i ∂μ - x' i| ≤ 2 * bend * ∑ i, P i i := by
  obtain ⟨g, p, L, y, W, V, Rp, Rc, h1, h2, h3, h4, h5, h6, h7, h8, h9, h10, h11, h12, h13, h14⟩ :=
    C36_ukf_predict hllt junk (mc := mc) hsc hso f hs hsp hal hbe hx hP hPd u hm hn t ht hst
  have e : (n : ℝ) + (al ^ 2 * (n + ka) - n) = al ^ 2 * (n + ka) := by ring
  refine ⟨g, _, h1, h12, fun i => ?_⟩
  have a := (bend_mean hS hb i (hmeas i)).2
  have b := bend_sigma (by rw [e]; exact hal) (by rw [e]; exact h4) hb (fun_images hq _ _ h5)
    (fun j hj => ⟨fun_images hq _ _ (h6 j hj).1, fun_images hq _ _ (h6 j hj).2⟩) i
  rw [abs_le] at *
  constructor <;> linarith [a.1, a.2, b.1, b.2]

/-- **C134 (UKF, third order).**  If `γ` is quadratic about the estimate up to `bend` times the third power of the distance, the UKF's
predicted mean differs from the mean of `γ` by at most `bend` times `E|S - x|³ + √(alpha² (n + kappa) v) v`, where `v` is the sum of
the reported variances: second-order effects, which the EKF ignores, are accounted for whatever the distribution. -/
theorem C134_ukf_third_order {llt : DMat → Option DMat} (hllt : LltSpec llt) (junk : Nat → Nat → ℝ)
    {sc : SysClass T NonlinSysData X} {mc : K → MeasClass T NonlinMeasData Y}
    (hsc : SysContract NonlinSysData.Sized sc) (hso : sc.PlainOps)
    (f : Filter T DVec DMat K (Env K NonlinSysData X NonlinMeasData Y × SigmaParams))
    (hs : f.env.1.sys.Sized NonlinSysData.Sized n m) {al ka be : ℝ} (hsp : setSigma n n al ka be = some f.env.2)
    (hal : 0 < al ^ 2 * (n + ka)) (hbe : al ^ 2 ≤ be)
    {x : Fin n → ℝ} {P : Matrix (Fin n) (Fin n) ℝ} (hx : f.getState = .of x) (hP : f.getCovariance = .of P)
    (hPd : P.PosDef) (u : Fin m → ℝ) (hm : 0 < m) (hn : 0 < n) (t : T) (ht : f.getStateTime ≤ t)
    (hst : (f.env.1.sys.fm.checkStationary && f.env.1.sys.fm.isStationary (.of x) (.of u)) = false)
    {γ : (Fin n → ℝ) → (Fin n → ℝ)} (hq : SysIs sc n m f.env.1.sys (.of u) (TimeOps.sub t f.getStateTime) γ) {bend : ℝ} (hbn : 0 ≤ bend)
    (hb : TwistsAt bend x γ)
    {μ : Measure Ω} [IsProbabilityMeasure μ] {S : Ω → Fin n → ℝ} (hS : HasMoments μ x P S) (hS3 : Integrable (fun ω => len (S ω - x) ^ 3) μ)
    (hmeas : ∀ i, AEStronglyMeasurable (fun ω => γ (S ω) i) μ) :
    ∃ g, ∃ x' : Fin n → ℝ, f.predictControl (ukfPlant llt junk sc mc) (.of u) t = some g ∧ g.getState = .of x' ∧
      ∀ i, |∫ ω, γ (S ω) i ∂μ - x' i| ≤ bend * (∫ ω, len (S ω - x) ^ 3 ∂μ + √(al ^ 2 * (n + ka) * ∑ i, P i i) * ∑ i, P i i) := by
  obtain ⟨g, p, L, y, W, V, Rp, Rc, h1, h2, h3, h4, h5, h6, h7, h8, h9, h10, h11, h12, h13, h14⟩ :=
    C36_ukf_predict hllt junk (mc := mc) hsc hso f hs hsp hal hbe hx hP hPd u hm hn t ht hst
  have e : (n : ℝ) + (al ^ 2 * (n + ka) - n) = al ^ 2 * (n + ka) := by ring
  obtain ⟨c, B, Q, hb⟩ := hb
  refine ⟨g, _, h1, h12, fun i => ?_⟩
  have a := (twist_mean hS hb i (hmeas i) hS3).2
  have b := twist_sigma (by rw [e]; exact hal) (by rw [e]; exact h4) hbn hb (fun_images hq _ _ h5)
    (fun j hj => ⟨fun_images hq _ _ (h6 j hj).1, fun_images hq _ _ (h6 j hj).2⟩) i
  rw [e] at b
  rw [abs_le] at *
  constructor <;> linarith [a.1, a.2, b.1, b.2]

/-! ## Witnesses -/

section
open Dice

private theorem quad_bends_one : BendsAt 1 ![1] (quadratic (n := 1) (![1 * 0] : Fin 1 → ℝ) !![1] (fun _ => !![1])) := by
  refine ⟨!![3], fun q i => ?_⟩
  rw [len_sq]
  fin_cases i
  have e : q 0 + q 0 * q 0 - (1 + 1) - 3 * (q 0 - 1) = (q 0 - 1) * (q 0 - 1) := by ring
  simp [quadratic, Matrix.mulVec, dotProduct]
  rw [e, abs_mul_self]

/-- **C134 (the bound is attained).**  The model of C130, `g = x + x² + u` after one second, bends by 1; an EKF at 1 with
variance 4/3 has the theorem's hypotheses, and its prediction is off by exactly `1 · 4/3`. -/
theorem C134_attained (params : Params ℝ) :
    BendsAt 1 ![1] (quadratic (n := 1) (![1 * 0] : Fin 1 → ℝ) !![1] (fun _ => !![1])) ∧
    ∃ g, ∃ x' : Fin 1 → ℝ, (Filter.construct (ekfPlant quadClass fun _ : Unit => squareClass) params quadEnv (vec1 1) (mat1 (4 / 3)) 0).predictControl
        (ekfPlant quadClass fun _ : Unit => squareClass) (vec1 0) 1 = some g ∧ g.getState = .of x' ∧
      |∫ ω, quadratic ![1 * 0] !![1] (fun _ => !![1]) (truth ω) 0 ∂throws - x' 0| = 1 * ∑ i, (!![4 / 3] : Matrix (Fin 1) (Fin 1) ℝ) i i := by
  refine ⟨quad_bends_one, ?_⟩
  obtain ⟨sp, hsp⟩ : ∃ sp, ukfInitSigma quadEnv = some sp := by
    show ∃ sp, setSigma 1 1 0.001 0 2 = some sp
    unfold setSigma
    rw [if_neg (by norm_num)]
    exact ⟨_, rfl⟩
  obtain ⟨h0, _, g, h1, h2⟩ := C130_beside_ekf someLlt_spec (fun _ _ => 0) sp hsp params
  refine ⟨g, ![2], h1, h2, ?_⟩
  have : ∀ ω, quadratic (n := 1) (![1 * 0] : Fin 1 → ℝ) !![1] (fun _ => !![1]) (truth ω) 0 = truth ω 0 + truth ω 0 ^ 2 := by
    intro ω; simp [quadratic]; ring
  simp only [this]
  rw [h0]
  simp
  norm_num

/-- The EKF theorem applies there … -/
example (params : Params ℝ) :=
  C134_ekf_predict (mc := fun _ : Unit => squareClass) quad_contract
    (Filter.construct (ekfPlant quadClass fun _ : Unit => squareClass) params quadEnv (vec1 1) (mat1 (4 / 3)) 0)
    (n := 1) (m := 1) (x := ![1]) (P := !![4 / 3]) (quadEnv_ok (Q := fun _ _ => True)).sys rfl rfl ![0] (by norm_num) 1
    (show (0 : ℝ) ≤ 1 by norm_num) rfl (γ := quadratic (![1 * 0] : Fin 1 → ℝ) !![1] (fun _ => !![1]))
    (by have := quad_quadratic 0 (TimeOps.sub (1 : ℝ) (0 : ℝ))
        rw [show TimeOps.sub (1 : ℝ) (0 : ℝ) = 1 by show (1 : ℝ) - 0 = 1; norm_num] at this
        intro q t h
        refine this q t ?_
        rw [← show TimeOps.sub (1 : ℝ) (0 : ℝ) = 1 by show (1 : ℝ) - 0 = 1; norm_num]
        exact h)
    quad_bends_one truth_moments (fun _ => AEStronglyMeasurable.of_discrete)

/-- `g = x³`. -/
noncomputable def cubeClass : SysClass ℝ NonlinSysData Unit :=
  SysClass.plain fun s x _ _ =>
    if s.stateSize = 1 ∧ s.controlDims = 1 ∧ s.Rp.rows = 1 then
      some { s with der := ⟨vec1 (head x ^ 3), mat1 (3 * head x ^ 2)⟩
                    P := mat1 1
                    V := mat1 1 }
    else some s

theorem cube_contract : SysContract NonlinSysData.Sized cubeClass := by
  apply plain_contract
  intro n m s x u dt hs hx hu
  split
  next h =>
    obtain ⟨h1, h2, h3⟩ := h
    have hn : n = 1 := by rw [← hs.states]; exact h1
    have hm : m = 1 := by rw [← hs.controls]; exact h2
    subst hn hm
    exact ⟨_, rfl, ⟨hs.states, hs.controls, ⟨rfl, rfl, rfl⟩, ⟨rfl, h3.symm⟩, hs.Rp, ⟨rfl, rfl⟩, hs.Rc⟩,
      ⟨rfl, rfl, rfl, rfl, rfl⟩⟩
  next => exact ⟨s, rfl, hs, Sys.SameConfig.refl s⟩

private theorem cube_is (u : DVec) (dt : ℝ) : SysIs cubeClass 1 1 quadEnv.sys u dt (fun q => ![q 0 ^ 3]) := by
  rintro q t ⟨s, h1, h2, h3⟩
  change (if _ then _ else _) = _ at h3
  rw [if_pos ⟨h1.states, h1.controls, by rw [h2.Rp]; rfl⟩] at h3
  injection h3 with h3
  subst h3
  show vec1 _ = _
  rw [head_of]

private theorem cube_twists : TwistsAt 1 ![1] (fun q : Fin 1 → ℝ => (![q 0 ^ 3] : Fin 1 → ℝ)) := by
  refine ⟨![1], !![-3], fun _ => !![3], fun q i => ?_⟩
  have hl : len (q - ![1]) = |q 0 - 1| := by
    have := len_sq (q - ![1])
    rw [dotProduct, Fin.sum_univ_one] at this
    rw [← Real.sqrt_sq (len_nonneg _), this, Real.sqrt_mul_self_eq_abs]
    rfl
  rw [hl, ← abs_pow]
  fin_cases i
  have e : q 0 ^ 3 - (1 + -(3 * q 0) + 3 * (q 0 * q 0)) = (q 0 - 1) ^ 3 := by ring
  have e2 : |q 0 ^ 3 - (1 + -(3 * q 0) + 3 * (q 0 * q 0))| ≤ |(q 0 - 1) ^ 3| := by rw [e]
  simpa [quadratic] using e2

/-- … and the third-order theorem applies to `g = x³`. -/
example {llt : DMat → Option DMat} (hllt : LltSpec llt) (junk : Nat → Nat → ℝ) (sp : SigmaParams)
    (hsp : ukfInitSigma quadEnv = some sp) (params : Params ℝ) :=
  C134_ukf_third_order hllt junk (mc := fun _ : Unit => squareClass) cube_contract (plain_ops _)
    (Filter.construct (ukfPlant llt junk cubeClass fun _ : Unit => squareClass) params (quadEnv, sp) (vec1 1) (mat1 (4 / 3)) 0)
    (n := 1) (m := 1) (x := ![1]) (P := !![4 / 3]) (quadEnv_ok (Q := fun _ _ => True)).sys (al := 0.001) (ka := 0) (be := 2) hsp
    (by norm_num) (by norm_num) rfl rfl four_thirds_pd ![0]
    (by norm_num) (by norm_num) 1 (show (0 : ℝ) ≤ 1 by norm_num) rfl (cube_is _ _) zero_le_one cube_twists truth_moments
    Integrable.of_finite (fun _ => AEStronglyMeasurable.of_discrete)

end

end Props
end StateEstimation
