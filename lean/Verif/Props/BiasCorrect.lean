import Verif.Props.Bias

/-!
# C135: the mean error after a correction with a nonlinear sensor

The sensor reads `h(S) + ν` of the true state `S`, with noise of mean zero.  The error of the corrected estimate has a mean of at
most the gain times the curvature of `h` times the total variance.
-/

set_option linter.unusedSectionVars false

namespace StateEstimation
namespace Props

open Matrix Kalman Sigma Examples MeasureTheory ProbabilityTheory Quadratic Bias

variable {T K X Y : Type} [DecidableEq K] {n m k : Nat} {Ω : Type} [MeasurableSpace Ω]
variable [LinearOrder T] [ExactTime T]

private theorem meas_fun {mc : MeasClass T NonlinMeasData Y} {s0 : Meas NonlinMeasData Y} {dt : T} {η : (Fin n → ℝ) → (Fin k → ℝ)}
    (hq : MeasIs mc n k s0 dt η) (q : Fin n → ℝ) (v : Fin k → ℝ) (h : MeasImage mc n k s0 (.of q) dt v) : v = η q := by
  obtain ⟨t, k1, k2⟩ := h
  exact DVec.of_inj.mp (k2.symm.trans (hq q t k1))

/-- the mean of the error, for any gain -/
private theorem error_mean {μ : Measure Ω} [IsProbabilityMeasure μ] {S : Ω → Fin n → ℝ} {x : Fin n → ℝ} {P : Matrix (Fin n) (Fin n) ℝ}
    (hS : HasMoments μ x P S) {ν y : Ω → Fin k → ℝ} (hν : ∀ i, Integrable (fun ω => ν ω i) μ) (hν0 : ∀ i, ∫ ω, ν ω i ∂μ = 0)
    (hy : ∀ i, Integrable (fun ω => y ω i) μ) {zHat : Fin k → ℝ} {b : ℝ} (hb : ∀ i, |∫ ω, y ω i ∂μ - zHat i| ≤ b)
    (L : Matrix (Fin n) (Fin k) ℝ) (i : Fin n) :
    Integrable (fun ω => S ω i - (x + L *ᵥ (y ω + ν ω - zHat)) i) μ ∧
      |∫ ω, (S ω i - (x + L *ᵥ (y ω + ν ω - zHat)) i) ∂μ| ≤ (∑ j, |L i j|) * b := by
  have hSi : Integrable (fun ω => S ω i) μ := (hS.finite i).integrable (by norm_num)
  have hj : ∀ j, Integrable (fun ω => y ω j + ν ω j - zHat j) μ := fun j => ((hy j).add (hν j)).sub (integrable_const _)
  have hjm : ∀ j, ∫ ω, (y ω j + ν ω j - zHat j) ∂μ = ∫ ω, y ω j ∂μ - zHat j := by
    intro j
    rw [integral_sub (by exact iadd (hy j) (hν j)) (integrable_const _), integral_add (hy j) (hν j), hν0]
    simp
  have e : ∀ ω, S ω i - (x + L *ᵥ (y ω + ν ω - zHat)) i = S ω i - (x i + ∑ j, L i j * (y ω j + ν ω j - zHat j)) := fun ω => rfl
  simp only [e]
  have hsum : Integrable (fun ω => ∑ j, L i j * (y ω j + ν ω j - zHat j)) μ := integrable_finsetSum _ fun j _ => (hj j).const_mul _
  have hc : Integrable (fun ω => x i + ∑ j, L i j * (y ω j + ν ω j - zHat j)) μ := iadd (integrable_const _) hsum
  refine ⟨hSi.sub hc, ?_⟩
  have h1 : ∫ ω, (S ω i - (x i + ∑ j, L i j * (y ω j + ν ω j - zHat j))) ∂μ = -∑ j, L i j * (∫ ω, y ω j ∂μ - zHat j) := by
    rw [integral_sub hSi hc, integral_add (integrable_const _) hsum, hS.mean,
      integral_finsetSum _ fun j _ => (hj j).const_mul _]
    simp only [integral_const_mul, hjm]
    simp
  rw [h1, abs_neg, Finset.sum_mul]
  refine (Finset.abs_sum_le_sum_abs _ _).trans (Finset.sum_le_sum fun j _ => ?_)
  rw [abs_mul]
  exact mul_le_mul_of_nonneg_left (hb j) (abs_nonneg _)

/-- **C135 (EKF).**  The sensor's `h()` is any function `η` of the state that is linear about the estimate up to `bend` times the
squared distance.  The true state `S` is random with the reported mean and covariance, the sensor reads `η(S) + ν` with noise `ν` of
mean zero.  With `L` the gain `P Hᵀ (H P Hᵀ + R)⁻¹` of the reported Jacobian `H`, the error after `correct(z, R, t, sensor)` at the current time has
in component `i` a mean of at most `(∑ⱼ |L i j|) bend (∑ᵢ P i i)`. -/
theorem C135_ekf_correct {sc : SysClass T NonlinSysData X} {mc : K → MeasClass T NonlinMeasData Y}
    (hso : sc.PlainOps) (hsc : SysContract NonlinSysData.Sized sc) (hmc : ∀ j, MeasContract NonlinMeasData.Sized (mc j))
    (hmo : ∀ j, (mc j).PlainOps)
    (f : Filter T DVec DMat K (Env K NonlinSysData X NonlinMeasData Y)) (j : K)
    (hs : f.env.sys.Sized NonlinSysData.Sized n m) (hm : (f.env.meas j).Sized NonlinMeasData.Sized n k)
    {x : Fin n → ℝ} {P : Matrix (Fin n) (Fin n) ℝ} (hx : f.getState = .of x) (hP : f.getCovariance = .of P)
    (hPsd : P.PosSemidef) (R : Matrix (Fin k) (Fin k) ℝ) (hR : R.PosDef) (hst : (f.env.meas j).fm.checkStationary = false)
    {η : (Fin n → ℝ) → (Fin k → ℝ)}
    (hq : MeasIs (mc j) n k ((f.env.meas j).withCov (.of R)) (TimeOps.sub f.getStateTime f.getStateTime) η) {bend : ℝ}
    (hb : BendsAt bend x η)
    {μ : Measure Ω} [IsProbabilityMeasure μ] {S : Ω → Fin n → ℝ} (hS : HasMoments μ x P S)
    (hmeas : ∀ i, AEStronglyMeasurable (fun ω => η (S ω) i) μ)
    {ν : Ω → Fin k → ℝ} (hν : ∀ i, Integrable (fun ω => ν ω i) μ) (hν0 : ∀ i, ∫ ω, ν ω i ∂μ = 0) :
    ∃ (H : Matrix (Fin k) (Fin n) ℝ) (g : Ω → Filter T DVec DMat K (Env K NonlinSysData X NonlinMeasData Y)) (x' : Ω → Fin n → ℝ),
      (∀ ω, f.correct (ekfPlant sc mc) (.of (η (S ω) + ν ω)) (.of R) f.getStateTime (some j) = some (g ω) ∧
        (g ω).getState = .of (x' ω) ∧ ((g ω).env.meas j).der.H = .of H) ∧
      ∀ i, Integrable (fun ω => S ω i - x' ω i) μ ∧
        |∫ ω, (S ω i - x' ω i) ∂μ| ≤ (∑ j, |(P * Hᵀ * (H * P * Hᵀ + R)⁻¹) i j|) * (bend * ∑ i, P i i) := by
  have hms : ((f.env.meas j).withCov (.of R)).Sized NonlinMeasData.Sized n k := ⟨hm.states, hm.meas, hm.der, rfl, rfl⟩
  obtain ⟨ms, hup, hms', -⟩ := (hmc j).update _ (.of x) (TimeOps.sub f.getStateTime f.getStateTime) hms rfl
  obtain ⟨H, hH⟩ := hms'.der.2.exists_of
  have hh : ms.der.h = .of (η x) := hq x ms ⟨_, hms, Meas.SameConfig.refl _, hup⟩
  have hSu := pd_isUnit_det (innov_pd hPsd H hR)
  have run : ∀ z : Fin k → ℝ, ∃ g, f.correct (ekfPlant sc mc) (.of z) (.of R) f.getStateTime (some j) = some g ∧
      g.getState = .of (x + (P * Hᵀ * (H * P * Hᵀ + R)⁻¹) *ᵥ (z - η x)) ∧ (g.env.meas j).der.H = .of H := by
    intro z
    obtain ⟨g, dz, x', h1, h2, h3, h4, h5, h6, h7, _⟩ := ekf_correct_now hsc hmc f j hs hm hx hP z R hup hH hSu (by rw [hst]; rfl)
    refine ⟨g, h1, ?_, by rw [h7, Env.setMeas_meas, hH]⟩
    rw [(hmo j).sub, hh, DVec.sub_of] at h2
    injection h2 with h2
    rw [← DVec.of_inj.mp h2, hso.add, DVec.add_of] at h3
    injection h3 with h3
    rw [h4, ← h3]
    unfold gain innov
    rw [Matrix.mul_assoc H P]
  choose g g1 g2 g3 using fun ω => run (η (S ω) + ν ω)
  refine ⟨H, g, _, fun ω => ⟨g1 ω, g2 ω, g3 ω⟩, fun i => ?_⟩
  exact error_mean hS hν hν0 (fun i => (bend_mean hS hb i (hmeas i)).1) (fun i => (bend_mean hS hb i (hmeas i)).2) _ i

/-- **C135 (UKF).**  The same for the UKF, with any sigma point parameters for which the covariance can be decomposed: there is a gain
`L`, with which every measurement changes the estimate (`x + L (z - zHat)`), and the mean error is at most
`(∑ⱼ |L i j|) 2 bend (∑ᵢ P i i)`. -/
theorem C135_ukf_correct {llt : DMat → Option DMat} (hllt : LltSpec llt) (junk : Nat → Nat → ℝ)
    {sc : SysClass T NonlinSysData X} {mc : K → MeasClass T NonlinMeasData Y}
    (hso : sc.PlainOps) (hmc : ∀ j, MeasContract NonlinMeasData.Sized (mc j)) (hmo : ∀ j, (mc j).PlainOps)
    (f : Filter T DVec DMat K (Env K NonlinSysData X NonlinMeasData Y × SigmaParams)) (j : K)
    (hs : f.env.1.sys.Sized NonlinSysData.Sized n m) (hm : (f.env.1.meas j).Sized NonlinMeasData.Sized n k)
    {al ka be : ℝ} (hsp : setSigma n n al ka be = some f.env.2)
    (hal : 0 < al ^ 2 * (n + ka)) (hbe : al ^ 2 ≤ be)
    {x : Fin n → ℝ} {P : Matrix (Fin n) (Fin n) ℝ} (hx : f.getState = .of x) (hP : f.getCovariance = .of P)
    (hPd : P.PosDef) (R : Matrix (Fin k) (Fin k) ℝ) (hR : R.PosDef)
    (hst : (f.env.1.meas j).fm.checkStationary = false)
    {η : (Fin n → ℝ) → (Fin k → ℝ)}
    (hq : MeasIs (mc j) n k ((f.env.1.meas j).withCov (.of R)) (TimeOps.sub f.getStateTime f.getStateTime) η) {bend : ℝ}
    (hb : BendsAt bend x η)
    {μ : Measure Ω} [IsProbabilityMeasure μ] {S : Ω → Fin n → ℝ} (hS : HasMoments μ x P S)
    (hmeas : ∀ i, AEStronglyMeasurable (fun ω => η (S ω) i) μ)
    {ν : Ω → Fin k → ℝ} (hν : ∀ i, Integrable (fun ω => ν ω i) μ) (hν0 : ∀ i, ∫ ω, ν ω i ∂μ = 0) :
    ∃ (L : Matrix (Fin n) (Fin k) ℝ) (zHat : Fin k → ℝ)
      (g : Ω → Filter T DVec DMat K (Env K NonlinSysData X NonlinMeasData Y × SigmaParams)) (x' : Ω → Fin n → ℝ),
      (∀ z : Fin k → ℝ, ∃ g, f.correct (ukfPlant llt junk sc mc) (.of z) (.of R) f.getStateTime (some j) = some g ∧
        g.getState = .of (x + L *ᵥ (z - zHat))) ∧
      (∀ ω, f.correct (ukfPlant llt junk sc mc) (.of (η (S ω) + ν ω)) (.of R) f.getStateTime (some j) = some (g ω) ∧
        (g ω).getState = .of (x' ω)) ∧
      ∀ i, Integrable (fun ω => S ω i - x' ω i) μ ∧
        |∫ ω, (S ω i - x' ω i) ∂μ| ≤ (∑ j, |L i j|) * (2 * bend * ∑ i, P i i) := by
  have e : (n : ℝ) + (al ^ 2 * (n + ka) - n) = al ^ 2 * (n + ka) := by ring
  have run := fun z => ukf_correct_factor hllt junk hso hmc hmo f j hs hm hsp hal hbe hx hP hPd z R hR (by rw [hst]; rfl)
  obtain ⟨g0, L, q, y, zHat, N, D, G, P', -, -, -, hL, hLL, h5, h6, h7, h8, h9, h10, h11, -, -, -, -, -⟩ := run 0
  have hyq : ∀ i < 2 * n + 1, y i = η (q i) := fun i hi => meas_fun hq _ _ (h7 i hi)
  have all : ∀ z : Fin k → ℝ, ∃ g, f.correct (ukfPlant llt junk sc mc) (.of z) (.of R) f.getStateTime (some j) = some g ∧
      g.getState = .of (x + G *ᵥ (z - zHat)) := by
    intro z
    obtain ⟨g, L', q', y', zHat', N', D', G', P'', k1, -, -, kL, kLL, k5, k6, k7, k8, k9, k10, k11, k12, -, -, -, -⟩ := run z
    have eL : L' = L := DMat.of_inj.mp (Option.some.inj (kL.symm.trans hL))
    subst eL
    have eq : ∀ i < 2 * n + 1, q' i = q i := by
      intro i hi
      rcases Nat.eq_zero_or_pos i with rfl | h0
      · rw [k5, h5]
      · by_cases hin : i ≤ n
        · obtain ⟨i, rfl⟩ := Nat.exists_eq_add_of_le' h0
          rw [(k6 i (by omega)).1, (h6 i (by omega)).1]
        · obtain ⟨i, rfl⟩ := Nat.exists_eq_add_of_le' (show n + 1 ≤ i by omega)
          rw [show i + (n + 1) = i + 1 + n by omega, (k6 i (by omega)).2, (h6 i (by omega)).2]
    have ey : ∀ i < 2 * n + 1, y' i = y i := fun i hi => by rw [meas_fun hq _ _ (k7 i hi), hyq i hi, eq i hi]
    have ez : zHat' = zHat := by
      rw [k8, h8]; unfold Sigma.mean
      exact Finset.sum_congr rfl fun i hi => by rw [ey i (Finset.mem_range.mp hi)]
    have eN : N' = N := by
      rw [k9, h9, ez]; unfold Sigma.cross
      congr 1
      exact Finset.sum_congr rfl fun i hi => by rw [ey i (Finset.mem_range.mp hi)]
    have eD : D' = D := by
      rw [k10, h10, ez]; unfold Sigma.cross
      exact Finset.sum_congr rfl fun i hi => by rw [ey i (Finset.mem_range.mp hi), eq i (Finset.mem_range.mp hi)]
    exact ⟨g, k1, by rw [k12, k11, h11, eN, eD, ez]⟩
  choose g g1 g2 using fun ω => all (η (S ω) + ν ω)
  refine ⟨G, zHat, g, _, all, fun ω => ⟨g1 ω, g2 ω⟩, fun i => ?_⟩
  refine error_mean hS hν hν0 (fun i => (bend_mean hS hb i (hmeas i)).1) (fun i => ?_) _ i
  have a := (bend_mean hS hb i (hmeas i)).2
  have b := bend_sigma (by rw [e]; exact hal) (by rw [e]; exact hLL) hb (y := y) (by rw [hyq 0 (by omega), h5])
    (fun j hj => ⟨by rw [hyq _ (by omega), (h6 j hj).1], by rw [hyq _ (by omega), (h6 j hj).2]⟩) i
  rw [← h8] at b
  rw [abs_le] at *
  constructor <;> linarith [a.1, a.2, b.1, b.2]

/-! ## Witnesses -/

section
open Dice

private theorem square_is (dt : ℝ) (R : DMat) : MeasIs squareClass 1 1 ((quadEnv.meas ()).withCov R) dt (quadratic ![0] !![0] (fun _ => !![1])) :=
  square_quadratic dt R

private theorem square_bends_one : BendsAt 1 ![1] (quadratic (n := 1) (![0] : Fin 1 → ℝ) !![0] (fun _ => !![1])) := by
  refine ⟨!![2], fun q i => ?_⟩
  rw [len_sq]
  fin_cases i
  have e : q 0 * q 0 - 1 - 2 * (q 0 - 1) = (q 0 - 1) * (q 0 - 1) := by ring
  simp [quadratic, Matrix.mulVec, dotProduct]
  rw [e, abs_mul_self]

private theorem one_pd : (!![(1 : ℝ)] : Matrix (Fin 1) (Fin 1) ℝ).PosDef := by
  have : (1 : Matrix (Fin 1) (Fin 1) ℝ) = !![1] := by ext i j; fin_cases i; fin_cases j; rfl
  rw [← this]; exact PosDef.one

/-- Both theorems apply to the sensor `h = x²` at 1 with variance 4/3 and the noisy sensor of C130. -/
example (params : Params ℝ) :=
  C135_ekf_correct (mc := fun _ : Unit => squareClass) (plain_ops _) quad_contract (fun _ => square_contract) (fun _ => plain_mops _)
    (Filter.construct (ekfPlant quadClass fun _ : Unit => squareClass) params quadEnv (vec1 1) (mat1 (4 / 3)) 0) ()
    (n := 1) (m := 1) (k := 1) (x := ![1]) (P := !![4 / 3]) (quadEnv_ok (Q := fun _ _ => True)).sys ((quadEnv_ok (Q := fun _ _ => True)).meas ())
    rfl rfl four_thirds_pd.posSemidef !![1] one_pd rfl (square_is _ _) square_bends_one truth_moments
    (fun _ => AEStronglyMeasurable.of_discrete) (ν := sensorError) (fun _ => Integrable.of_finite) error_noise.mean

example {llt : DMat → Option DMat} (hllt : LltSpec llt) (junk : Nat → Nat → ℝ) (sp : SigmaParams)
    (hsp : ukfInitSigma quadEnv = some sp) (params : Params ℝ) :=
  C135_ukf_correct hllt junk (mc := fun _ : Unit => squareClass) (plain_ops quadClass.myUpdate) (fun _ => square_contract) (fun _ => plain_mops _)
    (Filter.construct (ukfPlant llt junk quadClass fun _ : Unit => squareClass) params (quadEnv, sp) (vec1 1) (mat1 (4 / 3)) 0) ()
    (n := 1) (m := 1) (k := 1) (x := ![1]) (P := !![4 / 3]) (quadEnv_ok (Q := fun _ _ => True)).sys ((quadEnv_ok (Q := fun _ _ => True)).meas ())
    (al := 0.001) (ka := 0) (be := 2) hsp (by norm_num) (by norm_num)
    rfl rfl four_thirds_pd !![1] one_pd rfl (square_is _ _) square_bends_one truth_moments
    (fun _ => AEStronglyMeasurable.of_discrete) (ν := sensorError) (fun _ => Integrable.of_finite) error_noise.mean

end

end Props
end StateEstimation
