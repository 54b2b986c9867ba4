import Verif.Lemmas.Quadratic
import Verif.Lemmas.Moments
import Verif.Props.Unscented
import Mathlib.Probability.ProbabilityMassFunction.Integrals
import Mathlib.Probability.Distributions.Uniform

/-!
# C130: the unscented filter and quadratic models

A nonlinear filter replaces the distribution of the state by its mean `x` and covariance `P`.  If the models are quadratic
functions of the state, the UKF's mean is exact for *every* distribution with these two moments.  `HasMoments`,
`NotSkewed`, `NormalTails`, `quadratic` and `covMat` are defined in `Spec/Quadratic.lean` with Mathlib's integral and
covariance.
-/

set_option linter.unusedSectionVars false

namespace StateEstimation
namespace Props

open Matrix Kalman Sigma Examples MeasureTheory ProbabilityTheory Quadratic

variable {T K X Y : Type} [DecidableEq K] {n m k : Nat} {Ω : Type} [MeasurableSpace Ω]

section Step

variable [LinearOrder T] [ExactTime T]

/-- The sigma points' images under a quadratic `g()`. -/
theorem sys_images {sc : SysClass T NonlinSysData X} {s0 : Sys NonlinSysData X} {u : DVec} {dt : T} {c : Fin n → ℝ}
    {B : Matrix (Fin n) (Fin n) ℝ} {Q : Fin n → Matrix (Fin n) (Fin n) ℝ} (hq : SysQuadratic sc n m s0 u dt c B Q)
    {x : Fin n → ℝ} {L : Matrix (Fin n) (Fin n) ℝ} {y : Nat → Fin n → ℝ} (h0 : SysImage sc n m s0 (.of x) u dt (y 0))
    (h : ∀ i < n, SysImage sc n m s0 (.of (x + colsOf L i)) u dt (y (i + 1)) ∧
      SysImage sc n m s0 (.of (x - colsOf L i)) u dt (y (i + 1 + n))) : Images c B Q L x y := by
  have img : ∀ (q v : Fin n → ℝ), SysImage sc n m s0 (.of q) u dt v → v = quadratic c B Q q := by
    rintro q v ⟨t, k1, k2⟩
    exact DVec.of_inj.mp (k2.symm.trans (hq q t k1))
  exact ⟨img _ _ h0, fun i hi => ⟨img _ _ (h i hi).1, img _ _ (h i hi).2⟩⟩

/-- **C130 (prediction).**  If, with the control passed and the time elapsed, the model's `g()` is a quadratic function of
the state, then an in-order `predict(u, t)` of the UKF moves the estimate to the expected value of `g` at a random state:
any random state with mean `getState()` and covariance `getCovariance()`, whatever its distribution, and whatever the
sigma point parameters. -/
theorem C130_predict_mean {llt : DMat → Option DMat} (hllt : LltSpec llt) (junk : Nat → Nat → ℝ)
    {sc : SysClass T NonlinSysData X} {mc : K → MeasClass T NonlinMeasData Y}
    (hsc : SysContract NonlinSysData.Sized sc) (hso : sc.PlainOps)
    (f : Filter T DVec DMat K (Env K NonlinSysData X NonlinMeasData Y × SigmaParams))
    (hs : f.env.1.sys.Sized NonlinSysData.Sized n m) {al ka be : ℝ} (hsp : setSigma n n al ka be = some f.env.2)
    (hal : 0 < al ^ 2 * (n + ka)) (hbe : al ^ 2 ≤ be)
    {x : Fin n → ℝ} {P : Matrix (Fin n) (Fin n) ℝ} (hx : f.getState = .of x) (hP : f.getCovariance = .of P)
    (hPd : P.PosDef) (u : Fin m → ℝ) (hm : 0 < m) (hn : 0 < n) (t : T) (ht : f.getStateTime ≤ t)
    (hst : (f.env.1.sys.fm.checkStationary && f.env.1.sys.fm.isStationary (.of x) (.of u)) = false)
    {c : Fin n → ℝ} {B : Matrix (Fin n) (Fin n) ℝ} {Q : Fin n → Matrix (Fin n) (Fin n) ℝ}
    (hq : SysQuadratic sc n m f.env.1.sys (.of u) (TimeOps.sub t f.getStateTime) c B Q)
    {μ : Measure Ω} [IsProbabilityMeasure μ] {S : Ω → Fin n → ℝ} (hS : HasMoments μ x P S) :
    (∀ i, Integrable (fun ω => quadratic c B Q (S ω) i) μ) ∧
    ∃ g, f.predictControl (ukfPlant llt junk sc mc) (.of u) t = some g ∧
      g.getState = .of (fun i => ∫ ω, quadratic c B Q (S ω) i ∂μ) := by
  obtain ⟨g, p, L, y, W, V, Rp, Rc, h1, h2, h3, h4, h5, h6, h7, h8, h9, h10, h11, h12, h13, h14⟩ :=
    C36_ukf_predict hllt junk (mc := mc) hsc hso f hs hsp hal hbe hx hP hPd u hm hn t ht hst
  have e : (n : ℝ) + (al ^ 2 * (n + ka) - n) = al ^ 2 * (n + ka) := by ring
  refine ⟨fun i => quad_int hS c B Q i, g, h1, ?_⟩
  rw [h12, (sys_images hq h5 h6).mean (by rw [e]; exact hal.ne') (by rw [e]; exact h4)]
  congr 1
  funext i
  exact (quad_mean hS c B Q i).symm

/-- **C130 (prediction, one state).**  With one state and sigma point parameters such that `beta + alpha² kappa = 2` (the
constructor's are such), the predicted covariance is exact as well: it is the covariance of `g` at a random state plus the
noise terms, for every distribution of the state that, beyond the mean and the variance, has the third and fourth moment
of a normal distribution.  (`W` and `V` are the noise Jacobians of the last update, see C38.) -/
theorem C130_predict_covariance {llt : DMat → Option DMat} (hllt : LltSpec llt) (junk : Nat → Nat → ℝ)
    {sc : SysClass T NonlinSysData X} {mc : K → MeasClass T NonlinMeasData Y}
    (hsc : SysContract NonlinSysData.Sized sc) (hso : sc.PlainOps)
    (f : Filter T DVec DMat K (Env K NonlinSysData X NonlinMeasData Y × SigmaParams))
    (hs : f.env.1.sys.Sized NonlinSysData.Sized 1 m) {al ka be : ℝ} (hsp : setSigma 1 1 al ka be = some f.env.2)
    (hal : 0 < al ^ 2 * (1 + ka)) (hbe : al ^ 2 ≤ be) (htwo : be + al ^ 2 * ka = 2)
    {x : Fin 1 → ℝ} {P : Matrix (Fin 1) (Fin 1) ℝ} (hx : f.getState = .of x) (hP : f.getCovariance = .of P)
    (hPd : P.PosDef) (u : Fin m → ℝ) (hm : 0 < m) (t : T) (ht : f.getStateTime ≤ t)
    (hst : (f.env.1.sys.fm.checkStationary && f.env.1.sys.fm.isStationary (.of x) (.of u)) = false)
    {c : Fin 1 → ℝ} {B : Matrix (Fin 1) (Fin 1) ℝ} {Q : Fin 1 → Matrix (Fin 1) (Fin 1) ℝ}
    (hq : SysQuadratic sc 1 m f.env.1.sys (.of u) (TimeOps.sub t f.getStateTime) c B Q)
    {μ : Measure Ω} [IsProbabilityMeasure μ] {S : Ω → Fin 1 → ℝ} (hS : HasMoments μ x P S) (hS3 : NotSkewed μ x S)
    (hS4 : NormalTails μ (x 0) (P 0 0) fun ω => S ω 0) :
    ∃ g p, ∃ (W : Matrix (Fin 1) (Fin p) ℝ) (V : Matrix (Fin 1) (Fin m) ℝ) (Rp : Matrix (Fin p) (Fin p) ℝ)
      (Rc : Matrix (Fin m) (Fin m) ℝ),
      f.predictControl (ukfPlant llt junk sc mc) (.of u) t = some g ∧
      g.env.1.sys.P = .of W ∧ g.env.1.sys.V = .of V ∧ f.env.1.sys.Rp = .of Rp ∧ f.env.1.sys.Rc = .of Rc ∧
      g.getCovariance = .of (covMat μ (fun ω => quadratic c B Q (S ω)) (fun ω => quadratic c B Q (S ω)) + W * Rp * Wᵀ +
        V * Rc * Vᵀ) := by
  obtain ⟨g, p, L, y, W, V, Rp, Rc, h1, h2, h3, h4, h5, h6, h7, h8, h9, h10, h11, h12, h13, h14⟩ :=
    C36_ukf_predict hllt junk (mc := mc) hsc hso f hs hsp (by simpa using hal) hbe hx hP hPd u hm Nat.one_pos t ht hst
  have e : ((1 : ℕ) : ℝ) + (al ^ 2 * ((1 : ℕ) + ka) - (1 : ℕ)) = al ^ 2 * ((1 : ℕ) + ka) := by ring
  refine ⟨g, p, W, V, Rp, Rc, h1, h8, h9, h10, h11, ?_⟩
  rw [h13, Quadratic1.cross_self (sys_images hq h5 h6) (by rw [e]; simpa using hal.ne') (by rw [e]; exact h4)]
  have e2 : (1 : ℝ) + (al ^ 2 * ((1 : ℕ) + ka) - (1 : ℕ)) + (be - al ^ 2) = 2 := by push_cast; linarith
  rw [e2, add_comm, ← add_assoc]
  congr 3
  ext i j
  exact (quad_cov_self hS hS3 hS4 i j).symm

/-- The sigma points' images under a quadratic `h()`. -/
theorem meas_images {mc : MeasClass T NonlinMeasData Y} {s0 : Meas NonlinMeasData Y} {dt : T} {c : Fin k → ℝ}
    {B : Matrix (Fin k) (Fin n) ℝ} {Q : Fin k → Matrix (Fin n) (Fin n) ℝ} (hq : MeasQuadratic mc n k s0 dt c B Q)
    {x : Fin n → ℝ} {L : Matrix (Fin n) (Fin n) ℝ} {q : Nat → Fin n → ℝ} {y : Nat → Fin k → ℝ} (h0 : q 0 = x)
    (h : ∀ i < n, q (i + 1) = x + colsOf L i ∧ q (i + 1 + n) = x - colsOf L i)
    (hy : ∀ i < 2 * n + 1, MeasImage mc n k s0 (.of (q i)) dt (y i)) : Images c B Q L x y := by
  have img : ∀ i < 2 * n + 1, y i = quadratic c B Q (q i) := by
    intro i hi
    obtain ⟨t, k1, k2⟩ := hy i hi
    exact DVec.of_inj.mp (k2.symm.trans (hq (q i) t k1))
  refine ⟨by rw [img 0 (by omega), h0], fun i hi => ?_⟩
  rw [img (i + 1) (by omega), img (i + 1 + n) (by omega), (h i hi).1, (h i hi).2]
  exact ⟨rfl, rfl⟩

/-- **C130 (correction).**  If a sensor's `h()` is a quadratic function of the state, then `correct(z, R, t, j)` at the
current time compares `z` with the expected value of `h` at a random state, and weighs the difference with the covariance
of state and `h`, for every random state with mean `getState()`, covariance `getCovariance()` and no skew. -/
theorem C130_correct_mean {llt : DMat → Option DMat} (hllt : LltSpec llt) (junk : Nat → Nat → ℝ)
    {sc : SysClass T NonlinSysData X} {mc : K → MeasClass T NonlinMeasData Y}
    (hso : sc.PlainOps) (hmc : ∀ j, MeasContract NonlinMeasData.Sized (mc j)) (hmo : ∀ j, (mc j).PlainOps)
    (f : Filter T DVec DMat K (Env K NonlinSysData X NonlinMeasData Y × SigmaParams)) (j : K)
    (hs : f.env.1.sys.Sized NonlinSysData.Sized n m) (hm : (f.env.1.meas j).Sized NonlinMeasData.Sized n k)
    {al ka be : ℝ} (hsp : setSigma n n al ka be = some f.env.2)
    (hal : 0 < al ^ 2 * (n + ka)) (hbe : al ^ 2 ≤ be)
    {x : Fin n → ℝ} {P : Matrix (Fin n) (Fin n) ℝ} (hx : f.getState = .of x) (hP : f.getCovariance = .of P)
    (hPd : P.PosDef) (z : Fin k → ℝ) (R : Matrix (Fin k) (Fin k) ℝ) (hR : R.PosDef)
    (hst : ((f.env.1.meas j).fm.checkStationary && (f.env.1.meas j).fm.isStationary (.of x) (.of z)) = false)
    {c : Fin k → ℝ} {B : Matrix (Fin k) (Fin n) ℝ} {Q : Fin k → Matrix (Fin n) (Fin n) ℝ}
    (hq : MeasQuadratic (mc j) n k ((f.env.1.meas j).withCov (.of R)) (TimeOps.sub f.getStateTime f.getStateTime) c B Q)
    {μ : Measure Ω} [IsProbabilityMeasure μ] {S : Ω → Fin n → ℝ} (hS : HasMoments μ x P S) (hS3 : NotSkewed μ x S) :
    ∃ g, ∃ N : Matrix (Fin k) (Fin k) ℝ,
      f.correct (ukfPlant llt junk sc mc) (.of z) (.of R) f.getStateTime (some j) = some g ∧ (N - R).PosSemidef ∧
      g.getState = .of (x + (covMat μ S (fun ω => quadratic c B Q (S ω)) * N⁻¹) *ᵥ
        (z - fun i => ∫ ω, quadratic c B Q (S ω) i ∂μ)) ∧
      g.getCovariance = .of (P - covMat μ S (fun ω => quadratic c B Q (S ω)) * N⁻¹ *
        (covMat μ S (fun ω => quadratic c B Q (S ω)))ᵀ) := by
  obtain ⟨g, L, q, y, zHat, N, D, G, P', h1, h2, h3, h4, h5, h6, h7, h8, h9, h10, h11, h12, h13, h14, h15, h16⟩ :=
    C37_ukf_correct hllt junk hso hmc hmo f j hs hm hsp hal hbe hx hP hPd z R hR hst
  have e : (n : ℝ) + (al ^ 2 * (n + ka) - n) = al ^ 2 * (n + ka) := by ring
  have e0 : (n : ℝ) + (al ^ 2 * (n + ka) - n) ≠ 0 := by rw [e]; exact hal.ne'
  have hL : L * Lᵀ = ((n : ℝ) + (al ^ 2 * (n + ka) - n)) • P := by rw [e]; exact h4
  have hi := meas_images hq h5 h6 h7
  have hz : zHat = fun i => ∫ ω, quadratic c B Q (S ω) i ∂μ := by
    rw [h8, hi.mean e0 hL]; funext i; exact (quad_mean hS c B Q i).symm
  have hD : D = covMat μ S (fun ω => quadratic c B Q (S ω)) := by
    have hsy : Symm n q (colsOf L) := fun i hi => by rw [h5]; exact h6 i hi
    rw [h10, h8, ← h5, cross_central _ _ _ e0 (hsy.dev _), hi.moment e0 hL h5 h6]
    ext a i
    exact (quad_cov hS c B Q hS3 a i).symm
  have hN : (N - R).PosSemidef := by
    rw [h9, add_sub_cancel_left, h8]
    exact unscented_psd (by rw [e]; exact hal) (by linarith) y
  have hNu : IsUnit N.det := pd_isUnit_det (by
    have := hR.add_posSemidef hN
    rwa [add_sub_cancel] at this)
  have hNt : (N⁻¹)ᵀ = N⁻¹ := by
    rw [Matrix.transpose_nonsing_inv]
    congr 1
    have := psd_symm (hR.posSemidef.add hN)
    rwa [add_sub_cancel] at this
  refine ⟨g, N, h1, hN, ?_, ?_⟩
  · rw [h12, h11, hD, hz]
  · rw [h13, h14, h11, Matrix.mul_assoc D, Matrix.nonsing_inv_mul _ hNu, Matrix.mul_one, Matrix.transpose_mul, hNt, ← Matrix.mul_assoc,
      hD]

/-- **C130 (correction, one state).**  With one state, `beta + alpha² kappa = 2` and a state distributed with the third
and fourth moment of a normal distribution, a correction with any number of quadratic measurements is the best linear
update: `x + Cov(S, h) (Cov(h) + R)⁻¹ (z - E h)`, with covariance `P - Cov(S, h) (Cov(h) + R)⁻¹ Cov(S, h)ᵀ`. -/
theorem C130_correct_exact {llt : DMat → Option DMat} (hllt : LltSpec llt) (junk : Nat → Nat → ℝ)
    {sc : SysClass T NonlinSysData X} {mc : K → MeasClass T NonlinMeasData Y}
    (hso : sc.PlainOps) (hmc : ∀ j, MeasContract NonlinMeasData.Sized (mc j)) (hmo : ∀ j, (mc j).PlainOps)
    (f : Filter T DVec DMat K (Env K NonlinSysData X NonlinMeasData Y × SigmaParams)) (j : K)
    (hs : f.env.1.sys.Sized NonlinSysData.Sized 1 m) (hm : (f.env.1.meas j).Sized NonlinMeasData.Sized 1 k)
    {al ka be : ℝ} (hsp : setSigma 1 1 al ka be = some f.env.2)
    (hal : 0 < al ^ 2 * (1 + ka)) (hbe : al ^ 2 ≤ be) (htwo : be + al ^ 2 * ka = 2)
    {x : Fin 1 → ℝ} {P : Matrix (Fin 1) (Fin 1) ℝ} (hx : f.getState = .of x) (hP : f.getCovariance = .of P)
    (hPd : P.PosDef) (z : Fin k → ℝ) (R : Matrix (Fin k) (Fin k) ℝ) (hR : R.PosDef)
    (hst : ((f.env.1.meas j).fm.checkStationary && (f.env.1.meas j).fm.isStationary (.of x) (.of z)) = false)
    {c : Fin k → ℝ} {B : Matrix (Fin k) (Fin 1) ℝ} {Q : Fin k → Matrix (Fin 1) (Fin 1) ℝ}
    (hq : MeasQuadratic (mc j) 1 k ((f.env.1.meas j).withCov (.of R)) (TimeOps.sub f.getStateTime f.getStateTime) c B Q)
    {μ : Measure Ω} [IsProbabilityMeasure μ] {S : Ω → Fin 1 → ℝ} (hS : HasMoments μ x P S) (hS3 : NotSkewed μ x S)
    (hS4 : NormalTails μ (x 0) (P 0 0) fun ω => S ω 0) :
    ∃ g, f.correct (ukfPlant llt junk sc mc) (.of z) (.of R) f.getStateTime (some j) = some g ∧
      g.getState = .of (x + (covMat μ S (fun ω => quadratic c B Q (S ω)) *
        (covMat μ (fun ω => quadratic c B Q (S ω)) (fun ω => quadratic c B Q (S ω)) + R)⁻¹) *ᵥ
        (z - fun i => ∫ ω, quadratic c B Q (S ω) i ∂μ)) ∧
      g.getCovariance = .of (P - covMat μ S (fun ω => quadratic c B Q (S ω)) *
        (covMat μ (fun ω => quadratic c B Q (S ω)) (fun ω => quadratic c B Q (S ω)) + R)⁻¹ *
        (covMat μ S (fun ω => quadratic c B Q (S ω)))ᵀ) := by
  obtain ⟨g, L, q, y, zHat, N, D, G, P', h1, h2, h3, h4, h5, h6, h7, h8, h9, h10, h11, h12, h13, h14, h15, h16⟩ :=
    C37_ukf_correct hllt junk hso hmc hmo f j hs hm hsp (by simpa using hal) hbe hx hP hPd z R hR hst
  have e : ((1 : ℕ) : ℝ) + (al ^ 2 * ((1 : ℕ) + ka) - (1 : ℕ)) = al ^ 2 * ((1 : ℕ) + ka) := by ring
  have e0 : ((1 : ℕ) : ℝ) + (al ^ 2 * ((1 : ℕ) + ka) - (1 : ℕ)) ≠ 0 := by rw [e]; simpa using hal.ne'
  have hL : L * Lᵀ = (((1 : ℕ) : ℝ) + (al ^ 2 * ((1 : ℕ) + ka) - (1 : ℕ))) • P := by rw [e]; exact h4
  have hi := meas_images hq h5 h6 h7
  have hz : zHat = fun i => ∫ ω, quadratic c B Q (S ω) i ∂μ := by
    rw [h8, hi.mean e0 hL]; funext i; exact (quad_mean hS c B Q i).symm
  have hD : D = covMat μ S (fun ω => quadratic c B Q (S ω)) := by
    have hsy : Symm 1 q (colsOf L) := fun i hi => by rw [h5]; exact h6 i hi
    rw [h10, h8, ← h5, cross_central _ _ _ e0 (hsy.dev _), hi.moment e0 hL h5 h6]
    ext a i
    exact (quad_cov hS c B Q hS3 a i).symm
  have e2 : (1 : ℝ) + (al ^ 2 * ((1 : ℕ) + ka) - (1 : ℕ)) + (be - al ^ 2) = 2 := by push_cast; linarith
  have hNe : N = covMat μ (fun ω => quadratic c B Q (S ω)) (fun ω => quadratic c B Q (S ω)) + R := by
    rw [h9, h8, Quadratic1.cross_self hi e0 hL, e2, add_comm]
    congr 1
    ext i j
    exact (quad_cov_self hS hS3 hS4 i j).symm
  have hN : (N - R).PosSemidef := by
    rw [h9, add_sub_cancel_left, h8]
    exact unscented_psd (by rw [e]; simpa using hal) (by linarith) y
  have hNu : IsUnit N.det := pd_isUnit_det (by
    have := hR.add_posSemidef hN
    rwa [add_sub_cancel] at this)
  have hNt : (N⁻¹)ᵀ = N⁻¹ := by
    rw [Matrix.transpose_nonsing_inv]
    congr 1
    have := psd_symm (hR.posSemidef.add hN)
    rwa [add_sub_cancel] at this
  refine ⟨g, h1, ?_, ?_⟩
  · rw [h12, h11, hD, hz, hNe]
  · rw [h13, h14, h11, Matrix.mul_assoc D, Matrix.nonsing_inv_mul _ hNu, Matrix.mul_one, Matrix.transpose_mul, hNt, ← Matrix.mul_assoc,
      hD, hNe]

/-- **C130 (an honest covariance).**  In the situation of `C130_correct_exact`, let the true state be the random `S` and
the measurement `h(S)` plus noise of covariance `R` uncorrelated with `S` and `h(S)`.  Then the error of the corrected
estimate has mean zero, and the reported covariance is the error's covariance. -/
theorem C130_honest {llt : DMat → Option DMat} (hllt : LltSpec llt) (junk : Nat → Nat → ℝ)
    {sc : SysClass T NonlinSysData X} {mc : K → MeasClass T NonlinMeasData Y}
    (hso : sc.PlainOps) (hmc : ∀ j, MeasContract NonlinMeasData.Sized (mc j)) (hmo : ∀ j, (mc j).PlainOps)
    (f : Filter T DVec DMat K (Env K NonlinSysData X NonlinMeasData Y × SigmaParams)) (j : K)
    (hs : f.env.1.sys.Sized NonlinSysData.Sized 1 m) (hm : (f.env.1.meas j).Sized NonlinMeasData.Sized 1 k)
    {al ka be : ℝ} (hsp : setSigma 1 1 al ka be = some f.env.2)
    (hal : 0 < al ^ 2 * (1 + ka)) (hbe : al ^ 2 ≤ be) (htwo : be + al ^ 2 * ka = 2)
    {x : Fin 1 → ℝ} {P : Matrix (Fin 1) (Fin 1) ℝ} (hx : f.getState = .of x) (hP : f.getCovariance = .of P)
    (hPd : P.PosDef) (R : Matrix (Fin k) (Fin k) ℝ) (hR : R.PosDef)
    (hst : (f.env.1.meas j).fm.checkStationary = false)
    {c : Fin k → ℝ} {B : Matrix (Fin k) (Fin 1) ℝ} {Q : Fin k → Matrix (Fin 1) (Fin 1) ℝ}
    (hq : MeasQuadratic (mc j) 1 k ((f.env.1.meas j).withCov (.of R)) (TimeOps.sub f.getStateTime f.getStateTime) c B Q)
    {μ : Measure Ω} [IsProbabilityMeasure μ] {S : Ω → Fin 1 → ℝ} (hS : HasMoments μ x P S) (hS3 : NotSkewed μ x S)
    (hS4 : NormalTails μ (x 0) (P 0 0) fun ω => S ω 0)
    {ν : Ω → Fin k → ℝ} (hν : IsNoise μ ({fun ω => S ω 0} ∪ {s | ∃ i, s = fun ω => quadratic c B Q (S ω) i}) R ν)
    {g : Ω → Filter T DVec DMat K (Env K NonlinSysData X NonlinMeasData Y × SigmaParams)}
    (hg : ∀ ω, f.correct (ukfPlant llt junk sc mc) (.of (quadratic c B Q (S ω) + ν ω)) (.of R) f.getStateTime (some j) =
      some (g ω)) :
    ∃ (x' : Ω → Fin 1 → ℝ) (P' : Matrix (Fin 1) (Fin 1) ℝ), (∀ ω, (g ω).getState = .of (x' ω) ∧ (g ω).getCovariance = .of P') ∧
      HasMoments μ 0 P' (fun ω => S ω - x' ω) := by
  set C := covMat μ S (fun ω => quadratic c B Q (S ω)) with hC
  set H := covMat μ (fun ω => quadratic c B Q (S ω)) (fun ω => quadratic c B Q (S ω)) with hH
  set y : Ω → Fin k → ℝ := fun ω => quadratic c B Q (S ω) - fun i => ∫ ω, quadratic c B Q (S ω) i ∂μ with hy
  set d : Ω → Fin 1 → ℝ := fun ω => S ω - x with hd
  have hrun : ∀ ω, (g ω).getState = .of (x + (C * (H + R)⁻¹) *ᵥ (y ω + ν ω)) ∧
      (g ω).getCovariance = .of (P - C * (H + R)⁻¹ * Cᵀ) := by
    intro ω
    obtain ⟨g', k1, k2, k3⟩ := C130_correct_exact hllt junk (mc := mc) hso hmc hmo f j hs hm hsp hal hbe htwo hx hP hPd
      (quadratic c B Q (S ω) + ν ω) R hR (by rw [hst]; rfl) hq hS hS3 hS4
    have := Option.some.inj ((hg ω).symm.trans k1)
    subst this
    refine ⟨?_, k3⟩
    rw [k2, hy]
    congr 3
    dsimp only
    abel
  -- moments
  have fd : Moments.Fin2 μ d := fun i => central_two hS i
  have fq : Moments.Fin2 μ (fun ω => quadratic c B Q (S ω)) := fun i => quad_two hS c B Q hS3 i
  have fy : Moments.Fin2 μ y := fun i => (fq i).sub (memLp_const _)
  have fν : Moments.Fin2 μ ν := hν.finite
  have m1 : Moments.mom μ d d = P := by ext i j; exact central_cov hS i j
  have m2 : Moments.mom μ d y = C := by
    ext a i
    show _ = cov[_, _; μ]
    unfold covariance
    rw [hS.mean]
    rfl
  have m3 : Moments.mom μ y y = H := rfl
  have m4 : Moments.mom μ ν ν = R := by ext i j; exact hν.cov i j
  have w1 : ∀ i a, ∫ ω, ν ω i * d ω a ∂μ = 0 := by
    intro i a
    have h1 := hν.white (fun ω => S ω 0) (Or.inl rfl) i
    have e : ∀ ω, ν ω i * d ω a = ν ω i * S ω 0 - ν ω i * x 0 := by
      intro ω; rw [hd, Fin.eq_zero a]; simp only [Pi.sub_apply]; ring
    simp only [e]
    rw [integral_sub (Moments.int_mul (fν i) (hS.finite 0)) (((fν i).integrable (by norm_num)).mul_const _), h1,
      integral_mul_const, hν.mean]
    ring
  have w2 : ∀ i a, ∫ ω, ν ω i * y ω a ∂μ = 0 := by
    intro i a
    have h1 := hν.white (fun ω => quadratic c B Q (S ω) a) (Or.inr ⟨a, rfl⟩) i
    have e : ∀ ω, ν ω i * y ω a = ν ω i * quadratic c B Q (S ω) a - ν ω i * ∫ ω, quadratic c B Q (S ω) a ∂μ := by
      intro ω; rw [hy]; simp only [Pi.sub_apply]; ring
    simp only [e]
    rw [integral_sub (Moments.int_mul (fν i) (fq a)) (((fν i).integrable (by norm_num)).mul_const _), h1,
      integral_mul_const, hν.mean]
    ring
  have n1 : Moments.mom μ ν d = 0 := by ext i a; exact w1 i a
  have n2 : Moments.mom μ ν y = 0 := by ext i a; exact w2 i a
  set G := C * (H + R)⁻¹ with hG
  have hHp : H.PosSemidef := by rw [← m3]; exact Moments.mom_psd fy
  have hN : (H + R).PosDef := by rw [add_comm]; exact hR.add_posSemidef hHp
  have hNu := pd_isUnit_det hN
  -- the error
  have he : ∀ ω, S ω - (x + G *ᵥ (y ω + ν ω)) = (d ω + (-G) *ᵥ y ω) + (-G) *ᵥ ν ω := by
    intro ω
    rw [Matrix.neg_mulVec, Matrix.neg_mulVec, Matrix.mulVec_add, hd]
    dsimp only
    abel
  have f1 : Moments.Fin2 μ (fun ω => d ω + (-G) *ᵥ y ω) := Moments.fin2_add fd (Moments.fin2_mulVec _ fy)
  have f2 : Moments.Fin2 μ (fun ω => (-G) *ᵥ ν ω) := Moments.fin2_mulVec _ fν
  have hmean : ∀ i, ∫ ω, (S ω - (x + G *ᵥ (y ω + ν ω))) i ∂μ = 0 := by
    intro i
    simp only [he]
    have a1 : ∫ ω, d ω i ∂μ = 0 := central_mean hS i
    have lin : ∀ {v : Ω → Fin k → ℝ}, Moments.Fin2 μ v → (∀ a, ∫ ω, v ω a ∂μ = 0) → ∫ ω, ((-G) *ᵥ v ω) i ∂μ = 0 := by
      intro v hv h0
      show ∫ ω, ∑ a, (-G) i a * v ω a ∂μ = 0
      rw [integral_finsetSum _ fun a _ => ((hv a).integrable (by norm_num)).const_mul _]
      exact Finset.sum_eq_zero fun a _ => by rw [integral_const_mul, h0, mul_zero]
    have y0 : ∀ a, ∫ ω, y ω a ∂μ = 0 := by
      intro a
      rw [hy]
      simp only [Pi.sub_apply]
      rw [integral_sub ((fq a).integrable (by norm_num)) (integrable_const _)]
      simp
    have j1 : Integrable (fun ω => d ω i) μ := (fd i).integrable (by norm_num)
    have j2 : Integrable (fun ω => ((-G) *ᵥ y ω) i) μ := (Moments.fin2_mulVec (-G) fy i).integrable (by norm_num)
    have j3 : Integrable (fun ω => ((-G) *ᵥ ν ω) i) μ := (f2 i).integrable (by norm_num)
    simp only [Pi.add_apply]
    rw [integral_add (iadd j1 j2) j3, integral_add j1 j2, a1, lin fy y0, lin fν hν.mean]
    ring
  refine ⟨fun ω => x + G *ᵥ (y ω + ν ω), P - C * (H + R)⁻¹ * Cᵀ, hrun, ?_, ?_, ?_⟩
  · intro i
    simp only [he]
    exact (f1 i).add (f2 i)
  · intro i; exact hmean i
  · intro i j
    unfold covariance
    rw [hmean, hmean]
    simp only [sub_zero]
    have hmom : Moments.mom μ (fun ω => (d ω + (-G) *ᵥ y ω) + (-G) *ᵥ ν ω) (fun ω => (d ω + (-G) *ᵥ y ω) + (-G) *ᵥ ν ω)
        = P - C * (H + R)⁻¹ * Cᵀ := by
      have q0 : Moments.mom μ ν (fun ω => d ω + (-G) *ᵥ y ω) = 0 := by
        rw [Moments.mom_add_right fd (Moments.fin2_mulVec _ fy) fν, n1, ← Moments.mom_transpose, Moments.mom_mulVec _ fy fν,
          ← Moments.mom_transpose, n2]
        simp
      have q1 := Moments.mom_step (1 : Matrix (Fin 1) (Fin 1) ℝ) (-G) f1 fν q0
      simp only [Matrix.one_mulVec, Matrix.one_mul, Matrix.transpose_one, Matrix.mul_one] at q1
      rw [q1, m4, Moments.mom_add fd (Moments.fin2_mulVec _ fy) f1, Moments.mom_add_right fd (Moments.fin2_mulVec _ fy) fd,
        Moments.mom_add_right fd (Moments.fin2_mulVec _ fy) (Moments.fin2_mulVec _ fy), m1, Moments.mom_quad _ fy, m3,
        ← Moments.mom_transpose (fun ω => (-G) *ᵥ y ω) d, Moments.mom_mulVec _ fy fd, ← Moments.mom_transpose d y, m2]
      have hSt : ((H + R)⁻¹)ᵀ = (H + R)⁻¹ := by rw [Matrix.transpose_nonsing_inv, psd_symm hN.posSemidef]
      have e1 : (-G * Cᵀ)ᵀ = -(C * (H + R)⁻¹ * Cᵀ) := by
        rw [hG, Matrix.transpose_mul, Matrix.transpose_neg, Matrix.transpose_mul, hSt, Matrix.transpose_transpose, Matrix.mul_neg,
          Matrix.mul_assoc]
      have e2 : -G * H * (-G)ᵀ + -G * R * (-G)ᵀ = C * (H + R)⁻¹ * Cᵀ := by
        rw [← Matrix.add_mul, ← Matrix.mul_add, Matrix.neg_mul, Matrix.transpose_neg, Matrix.mul_neg, Matrix.neg_mul, neg_neg, hG, Matrix.mul_assoc C,
          Matrix.nonsing_inv_mul _ hNu, Matrix.mul_one, Matrix.transpose_mul, hSt, Matrix.mul_assoc]
      have e3 : -G * Cᵀ = -(C * (H + R)⁻¹ * Cᵀ) := by rw [hG, Matrix.neg_mul]
      rw [e1, e3]
      calc _ = P + -(C * (H + R)⁻¹ * Cᵀ) + -(C * (H + R)⁻¹ * Cᵀ) + (-G * H * (-G)ᵀ + -G * R * (-G)ᵀ) := by abel
        _ = _ := by rw [e2]; abel
    have := congrFun (congrFun hmom i) j
    rw [← this]
    simp only [he]
    rfl

end Step

/-! ### Witnesses

A die decides whether the state is `3`, `-1` or (four faces) `1`: mean 1, variance 4/3, no skew, the tails of a normal
distribution (fourth central moment `16/3 = 3 (4/3)²`).  A coin decides the sensor's error. -/

namespace Dice

noncomputable def throws : Measure (Fin 6 × Bool) := (PMF.uniformOfFintype (Fin 6 × Bool)).toMeasure

noncomputable instance : IsProbabilityMeasure throws := by unfold throws; infer_instance

theorem throws_integral (g : Fin 6 × Bool → ℝ) :
    ∫ ω, g ω ∂throws = (∑ i, (g (i, true) + g (i, false))) / 12 := by
  unfold throws
  rw [PMF.integral_eq_sum, Fintype.sum_prod_type]
  simp [PMF.uniformOfFintype_apply]
  rw [Finset.sum_div]
  exact Finset.sum_congr rfl fun i _ => by ring

/-- the true state -/
def truth (ω : Fin 6 × Bool) : Fin 1 → ℝ := ![![3, -1, 1, 1, 1, 1] ω.1]

/-- the sensor's error -/
def sensorError (ω : Fin 6 × Bool) : Fin 1 → ℝ := ![if ω.2 then 1 else -1]

theorem truth_mean (i : Fin 1) : ∫ ω, truth ω i ∂throws = 1 := by
  rw [throws_integral]; fin_cases i; simp [truth, Fin.sum_univ_succ]; norm_num

theorem truth_moments : HasMoments throws ![1] !![4 / 3] truth where
  finite := fun i => MemLp.of_discrete
  mean := fun i => by rw [truth_mean]; fin_cases i; rfl
  cov := fun i j => by
    unfold covariance
    rw [truth_mean, truth_mean, throws_integral]; fin_cases i; fin_cases j; simp [truth, Fin.sum_univ_succ]; norm_num

theorem truth_notSkewed : NotSkewed throws ![1] truth where
  finite := fun i => MemLp.of_discrete
  third := fun a b c => by
    rw [throws_integral]; fin_cases a; fin_cases b; fin_cases c; simp [truth, Fin.sum_univ_succ]; norm_num

theorem truth_tails : NormalTails throws ((![1] : Fin 1 → ℝ) 0) ((!![4 / 3] : Matrix (Fin 1) (Fin 1) ℝ) 0 0) (fun ω => truth ω 0) := by
  unfold NormalTails
  rw [throws_integral]; simp [truth, Fin.sum_univ_succ]; norm_num

/-- `h = x²` -/
theorem square_quadratic (dt : ℝ) (R : DMat) : MeasQuadratic squareClass 1 1 ((quadEnv.meas ()).withCov R) dt ![0] !![0] (fun _ => !![1]) := by
  rintro q t ⟨s, h1, h2, h3⟩
  change (if _ then _ else _) = _ at h3
  rw [if_pos ⟨h1.states, h1.meas⟩] at h3
  injection h3 with h3
  subst h3
  show vec1 _ = _
  rw [head_of]
  show DVec.of _ = DVec.of _
  congr 1
  funext i
  fin_cases i
  simp [quadratic, sq]

/-- `g = x + dt (x² + u)` -/
theorem quad_quadratic (u dt : ℝ) : SysQuadratic quadClass 1 1 quadEnv.sys (vec1 u) dt ![dt * u] !![1] (fun _ => !![dt]) := by
  rintro q t ⟨s, h1, h2, h3⟩
  change (if _ then _ else _) = _ at h3
  rw [if_pos ⟨h1.states, h1.controls, by rw [h2.Rp]; rfl⟩] at h3
  injection h3 with h3
  subst h3
  show vec1 _ = _
  rw [head_of, head_vec1]
  show DVec.of _ = DVec.of _
  congr 1
  funext i
  fin_cases i
  simp [quadratic]
  ring

theorem error_noise : IsNoise throws ({fun ω => truth ω 0} ∪ {s | ∃ i, s = fun ω => quadratic ![0] !![0] (fun _ => !![1]) (truth ω) i})
    (!![1] : Matrix (Fin 1) (Fin 1) ℝ) sensorError where
  finite := fun i => MemLp.of_discrete
  mean := fun i => by rw [throws_integral]; fin_cases i; simp [sensorError]
  cov := fun i j => by rw [throws_integral]; fin_cases i; fin_cases j; simp [sensorError]; norm_num
  white := by
    rintro s (rfl | ⟨i, rfl⟩) j
    · rw [throws_integral]; fin_cases j
      rw [Finset.sum_eq_zero, zero_div]
      intro a _; simp [sensorError, truth]
    · rw [throws_integral]; fin_cases j
      rw [Finset.sum_eq_zero, zero_div]
      intro a _; simp [sensorError, truth]

theorem four_thirds_pd : (!![4 / 3] : Matrix (Fin 1) (Fin 1) ℝ).PosDef := by
  have : (!![4 / 3] : Matrix (Fin 1) (Fin 1) ℝ) = (4 / 3 : ℝ) • 1 := by ext i j; fin_cases i; fin_cases j; simp
  rw [this]
  exact PosDef.one.smul (by norm_num)

end Dice

open Dice

/-- **C130, beside the EKF.**  Both filters believe `x = 1`, variance 4/3, and predict one time unit ahead with
`g(x) = x + x² + u`, `u = 0`.  The expected value of `g` at the die's state is 10/3; the UKF (constructor's parameters)
predicts it, the EKF predicts `g(1) = 2`. -/
theorem C130_beside_ekf {llt : DMat → Option DMat} (hllt : LltSpec llt) (junk : Nat → Nat → ℝ) (sp : SigmaParams)
    (hsp : ukfInitSigma quadEnv = some sp) (params : Params ℝ) :
    ∫ ω, (truth ω 0 + truth ω 0 ^ 2) ∂throws = 10 / 3 ∧
    (∃ g, (Filter.construct (ukfPlant llt junk quadClass fun _ : Unit => squareClass) params (quadEnv, sp) (vec1 1) (mat1 (4 / 3))
        0).predictControl (ukfPlant llt junk quadClass fun _ : Unit => squareClass) (vec1 0) 1 = some g ∧
      g.getState = vec1 (10 / 3)) ∧
    (∃ g, (Filter.construct (ekfPlant quadClass fun _ : Unit => squareClass) params quadEnv (vec1 1) (mat1 (4 / 3)) 0).predictControl
        (ekfPlant quadClass fun _ : Unit => squareClass) (vec1 0) 1 = some g ∧ g.getState = vec1 2) := by
  have hok : quadEnv.sys.Sized NonlinSysData.Sized 1 1 := (quadEnv_ok (Q := fun _ _ => True)).sys
  refine ⟨?_, ?_, ?_⟩
  · rw [throws_integral]; simp [truth, Fin.sum_univ_succ]; norm_num
  · have hsp' : setSigma 1 1 0.001 0 2 = some sp := hsp
    obtain ⟨_, g, h1, h2⟩ := C130_predict_mean hllt junk (mc := fun _ : Unit => squareClass) quad_contract (plain_ops _)
      (Filter.construct (ukfPlant llt junk quadClass fun _ : Unit => squareClass) params (quadEnv, sp) (vec1 1) (mat1 (4 / 3)) 0)
      (n := 1) (m := 1) (x := ![1]) (P := !![4 / 3]) hok hsp' (by norm_num) (by norm_num) rfl rfl four_thirds_pd ![0]
      (by norm_num) (by norm_num) 1 (show (0 : ℝ) ≤ 1 by norm_num) rfl (quad_quadratic 0 _) truth_moments
    refine ⟨g, h1, ?_⟩
    rw [h2]
    show DVec.of _ = DVec.of _
    congr 1
    funext i
    fin_cases i
    rw [throws_integral]
    have e : TimeOps.sub (1 : ℝ) (0 : ℝ) = 1 := by show (1 : ℝ) - 0 = 1; norm_num
    show (∑ i, (quadratic ![TimeOps.sub (1 : ℝ) (0 : ℝ) * 0] !![1] (fun _ => !![TimeOps.sub (1 : ℝ) (0 : ℝ)]) (truth (i, true)) 0 +
      quadratic ![TimeOps.sub (1 : ℝ) (0 : ℝ) * 0] !![1] (fun _ => !![TimeOps.sub (1 : ℝ) (0 : ℝ)]) (truth (i, false)) 0)) / 12 = 10 / 3
    rw [e]
    simp [truth, quadratic, Fin.sum_univ_succ]
    norm_num
  · obtain ⟨g, p, G, W, V, Rp, Rc, h1, h2, h3, h4, h5, h6, h7, h8, h9, h10, h11⟩ := C27_ekf_predict (mc := fun _ : Unit => squareClass)
      quad_contract (Filter.construct (ekfPlant quadClass fun _ : Unit => squareClass) params quadEnv (vec1 1) (mat1 (4 / 3)) 0)
      (n := 1) (m := 1) (x := ![1]) (P := !![4 / 3]) hok rfl rfl ![0] (by norm_num) 1
      (show (0 : ℝ) ≤ 1 by norm_num) rfl
    refine ⟨g, h1, ?_⟩
    rw [h9]
    have e : TimeOps.sub (1 : ℝ) (0 : ℝ) = 1 := by show (1 : ℝ) - 0 = 1; norm_num
    have := quad_quadratic 0 (TimeOps.sub (1 : ℝ) (0 : ℝ)) ![1] g.env.sys ⟨_, hok, Sys.SameConfig.refl _, h3⟩
    rw [this, e]
    show DVec.of _ = DVec.of _
    congr 1
    funext i
    fin_cases i
    simp [quadratic]
    norm_num

/-- The covariance theorem applies to this filter … -/
example {llt : DMat → Option DMat} (hllt : LltSpec llt) (junk : Nat → Nat → ℝ) (sp : SigmaParams)
    (hsp : ukfInitSigma quadEnv = some sp) (params : Params ℝ) :=
  C130_predict_covariance hllt junk (mc := fun _ : Unit => squareClass) quad_contract (plain_ops _)
    (Filter.construct (ukfPlant llt junk quadClass fun _ : Unit => squareClass) params (quadEnv, sp) (vec1 1) (mat1 (4 / 3)) 0)
    (m := 1) (x := ![1]) (P := !![4 / 3]) (quadEnv_ok (Q := fun _ _ => True)).sys (al := 0.001) (ka := 0) (be := 2) hsp
    (by norm_num) (by norm_num) (by norm_num) rfl rfl four_thirds_pd ![0]
    (by norm_num) 1 (show (0 : ℝ) ≤ 1 by norm_num) rfl (quad_quadratic 0 _) truth_moments truth_notSkewed truth_tails

/-- … and so does the theorem about the error after a correction with `h = x²`. -/
example {llt : DMat → Option DMat} (hllt : LltSpec llt) (junk : Nat → Nat → ℝ) (sp : SigmaParams)
    (hsp : ukfInitSigma quadEnv = some sp) (params : Params ℝ) :
    ∃ g : Fin 6 × Bool → Filter ℝ DVec DMat Unit (Env Unit NonlinSysData Unit NonlinMeasData Unit × SigmaParams),
    ∃ (x' : Fin 6 × Bool → Fin 1 → ℝ) (P' : Matrix (Fin 1) (Fin 1) ℝ),
      (∀ ω, (g ω).getState = .of (x' ω) ∧ (g ω).getCovariance = .of P') ∧
      HasMoments throws 0 P' (fun ω => truth ω - x' ω) := by
  have hone : (!![(1 : ℝ)] : Matrix (Fin 1) (Fin 1) ℝ).PosDef := by
    have : (1 : Matrix (Fin 1) (Fin 1) ℝ) = !![1] := by ext i j; fin_cases i; fin_cases j; rfl
    rw [← this]; exact PosDef.one
  have hok := quadEnv_ok (Q := fun _ _ => True)
  choose g hg _ _ using fun ω => C130_correct_exact hllt junk (mc := fun _ : Unit => squareClass) (plain_ops quadClass.myUpdate) (fun _ => square_contract)
    (fun _ => plain_mops _)
    (Filter.construct (ukfPlant llt junk quadClass fun _ : Unit => squareClass) params (quadEnv, sp) (vec1 1) (mat1 (4 / 3)) 0) ()
    (m := 1) (k := 1) (x := ![1]) (P := !![4 / 3]) hok.sys (hok.meas ()) (al := 0.001) (ka := 0) (be := 2) hsp
    (by norm_num) (by norm_num) (by norm_num) rfl rfl four_thirds_pd (quadratic ![0] !![0] (fun _ => !![1]) (truth ω) + sensorError ω)
    !![1] hone rfl (square_quadratic _ _) truth_moments truth_notSkewed truth_tails
  exact ⟨g, C130_honest hllt junk (mc := fun _ : Unit => squareClass) (plain_ops quadClass.myUpdate) (fun _ => square_contract)
    (fun _ => plain_mops _)
    (Filter.construct (ukfPlant llt junk quadClass fun _ : Unit => squareClass) params (quadEnv, sp) (vec1 1) (mat1 (4 / 3)) 0) ()
    (m := 1) (k := 1) (x := ![1]) (P := !![4 / 3]) hok.sys (hok.meas ()) (al := 0.001) (ka := 0) (be := 2) hsp
    (by norm_num) (by norm_num) (by norm_num) rfl rfl four_thirds_pd
    !![1] hone rfl (square_quadratic _ _) truth_moments truth_notSkewed truth_tails error_noise hg⟩

end Props
end StateEstimation
