import Verif.Props.Unscented
import Verif.Props.Follows
import Verif.Props.LeastSquares
import Verif.Props.Doubt
import Mathlib.Analysis.Matrix.Spectrum
import Mathlib.LinearAlgebra.Matrix.SchurComplement

/-!
# C136–C138: what a single correction does

* C136: how far a measurement can move the estimate;
* C137: the corrected estimate is the best compromise between the belief and the (linearised) measurement;
* C138: how much the volume of the confidence region shrinks.
-/

set_option linter.unusedSectionVars false

namespace StateEstimation

namespace OneCorrection

open Matrix Kalman

variable {a b : Nat}

/-- Cauchy-Schwarz: `ν` is within `√(νᵀ S⁻¹ ν)` standard deviations of `S` -/
theorem within_self {S : Matrix (Fin a) (Fin a) ℝ} (hS : S.PosDef) (ν : Fin a → ℝ) : WithinSigmas (√(ν ⬝ᵥ S⁻¹ *ᵥ ν)) S ν := by
  intro v
  have hu := pd_isUnit_det hS
  have hSt : Sᵀ = S := psd_symm hS.posSemidef
  have hi := hS.inv.posSemidef
  have hnn : ∀ w : Fin a → ℝ, 0 ≤ w ⬝ᵥ S⁻¹ *ᵥ w := fun w => by simpa using hi.dotProduct_mulVec_nonneg w
  have ha : 0 ≤ v ⬝ᵥ S *ᵥ v := by simpa using hS.posSemidef.dotProduct_mulVec_nonneg v
  have key : ∀ c : ℝ, 0 ≤ (ν ⬝ᵥ S⁻¹ *ᵥ ν) * (c * c) + (-2 * (v ⬝ᵥ ν)) * c + v ⬝ᵥ S *ᵥ v := by
    intro c
    have h := hnn (S *ᵥ v - c • ν)
    have e1 : S⁻¹ *ᵥ (S *ᵥ v - c • ν) = v - c • (S⁻¹ *ᵥ ν) := by
      rw [Matrix.mulVec_sub, Matrix.mulVec_mulVec, Matrix.nonsing_inv_mul _ hu, Matrix.one_mulVec, Matrix.mulVec_smul]
    have e2 : (S *ᵥ v) ⬝ᵥ (S⁻¹ *ᵥ ν) = v ⬝ᵥ ν := by
      rw [Matrix.dotProduct_mulVec, ← Matrix.mulVec_transpose, Matrix.transpose_nonsing_inv, hSt, Matrix.mulVec_mulVec,
        Matrix.nonsing_inv_mul _ hu, Matrix.one_mulVec]
    rw [e1, sub_dotProduct, dotProduct_sub, dotProduct_sub, dotProduct_smul, smul_dotProduct, smul_dotProduct, dotProduct_smul, e2,
      dotProduct_comm (S *ᵥ v), dotProduct_comm ν v] at h
    simp only [smul_eq_mul] at h
    linarith
  have hd := discrim_le_zero key
  unfold discrim at hd
  refine abs_le_of_sq_le_sq ?_ (mul_nonneg (Real.sqrt_nonneg _) (Real.sqrt_nonneg _))
  rw [mul_pow, Real.sq_sqrt (hnn ν), Real.sq_sqrt ha]
  nlinarith

/-- a correction with gain `G` and innovation covariance `S` -/
theorem jump {S : Matrix (Fin b) (Fin b) ℝ} (hS : S.PosDef) (G : Matrix (Fin a) (Fin b) ℝ) {P P' : Matrix (Fin a) (Fin a) ℝ}
    (h : P' = P - G * S * Gᵀ) (ν : Fin b → ℝ) : WithinSigmas (√(ν ⬝ᵥ S⁻¹ *ᵥ ν)) (P - P') (G *ᵥ ν) := by
  rw [h, sub_sub_cancel]
  exact (within_self hS ν).map G

/-- `C K = 1 - R S⁻¹` -/
theorem seen {P : Matrix (Fin a) (Fin a) ℝ} {C : Matrix (Fin b) (Fin a) ℝ} {R : Matrix (Fin b) (Fin b) ℝ} (hS : IsUnit (innov P C R).det) :
    C * gain P C R = 1 - R * (innov P C R)⁻¹ := by
  have h : C * gain P C R = (innov P C R - R) * (innov P C R)⁻¹ := by
    unfold gain
    rw [← Matrix.mul_assoc]
    congr 1
    unfold innov
    rw [add_sub_cancel_right]
  rw [h, Matrix.sub_mul, Matrix.mul_nonsing_inv _ hS]

theorem post_inv {P : Matrix (Fin a) (Fin a) ℝ} (hP : P.PosDef) (C : Matrix (Fin b) (Fin a) ℝ) {R : Matrix (Fin b) (Fin b) ℝ}
    (hR : R.PosDef) : (post P C R)⁻¹ = P⁻¹ + Cᵀ * R⁻¹ * C := by
  apply Matrix.inv_eq_right_inv
  have h := shrink_mul (pd_isUnit_det (innov_pd hP.posSemidef C hR)) (pd_isUnit_det hR)
  unfold Kalman.post
  rw [Matrix.mul_assoc, Matrix.mul_add, Matrix.mul_nonsing_inv _ (pd_isUnit_det hP)]
  exact h

/-- completing the square -/
theorem compromise {P : Matrix (Fin a) (Fin a) ℝ} (hP : P.PosDef) (C : Matrix (Fin b) (Fin a) ℝ) {R : Matrix (Fin b) (Fin b) ℝ}
    (hR : R.PosDef) (d : Fin a → ℝ) (ν : Fin b → ℝ) :
    d ⬝ᵥ P⁻¹ *ᵥ d + (ν - C *ᵥ d) ⬝ᵥ R⁻¹ *ᵥ (ν - C *ᵥ d) =
      ν ⬝ᵥ (innov P C R)⁻¹ *ᵥ ν + (d - gain P C R *ᵥ ν) ⬝ᵥ (post P C R)⁻¹ *ᵥ (d - gain P C R *ᵥ ν) := by
  have hS := innov_pd hP.posSemidef C hR
  have hSu := pd_isUnit_det hS
  have hRu := pd_isUnit_det hR
  have hRt : (R⁻¹)ᵀ = R⁻¹ := by rw [Matrix.transpose_nonsing_inv, psd_symm hR.posSemidef]
  have hPt : (P⁻¹)ᵀ = P⁻¹ := by rw [Matrix.transpose_nonsing_inv, psd_symm hP.posSemidef]
  have hinv := post_inv hP C hR
  have hMt : ((post P C R)⁻¹)ᵀ = (post P C R)⁻¹ := by
    rw [hinv]; simp only [Matrix.transpose_add, Matrix.transpose_mul, Matrix.transpose_transpose, hRt, hPt, Matrix.mul_assoc]
  -- `M K = Cᵀ R⁻¹`
  have hMK : (post P C R)⁻¹ * gain P C R = Cᵀ * R⁻¹ := by
    have hpu : IsUnit (post P C R).det := pd_isUnit_det (Props.post_pd hP C hR)
    rw [gain_eq hSu hRu, Matrix.mul_assoc, ← Matrix.mul_assoc, Matrix.nonsing_inv_mul _ hpu, Matrix.one_mul]
  have hMKv : (post P C R)⁻¹ *ᵥ (gain P C R *ᵥ ν) = Cᵀ *ᵥ (R⁻¹ *ᵥ ν) := by
    rw [Matrix.mulVec_mulVec, hMK, ← Matrix.mulVec_mulVec]
  have sw : ∀ (w : Fin b → ℝ) (v : Fin a → ℝ), v ⬝ᵥ Cᵀ *ᵥ w = (C *ᵥ v) ⬝ᵥ w := by
    intro w v
    rw [Matrix.dotProduct_mulVec, Matrix.vecMul_transpose]
  -- the expansion of both sides
  have l1 : (ν - C *ᵥ d) ⬝ᵥ R⁻¹ *ᵥ (ν - C *ᵥ d) =
      ν ⬝ᵥ R⁻¹ *ᵥ ν - 2 * ((C *ᵥ d) ⬝ᵥ R⁻¹ *ᵥ ν) + (C *ᵥ d) ⬝ᵥ R⁻¹ *ᵥ (C *ᵥ d) := by
    have : ν ⬝ᵥ R⁻¹ *ᵥ (C *ᵥ d) = (C *ᵥ d) ⬝ᵥ R⁻¹ *ᵥ ν := by
      rw [Matrix.dotProduct_mulVec, ← Matrix.mulVec_transpose, hRt, dotProduct_comm]
    rw [Matrix.mulVec_sub, sub_dotProduct, dotProduct_sub, dotProduct_sub, this]
    ring
  have l2 : d ⬝ᵥ (post P C R)⁻¹ *ᵥ d = d ⬝ᵥ P⁻¹ *ᵥ d + (C *ᵥ d) ⬝ᵥ R⁻¹ *ᵥ (C *ᵥ d) := by
    rw [hinv, Matrix.add_mulVec, dotProduct_add, Matrix.mul_assoc, ← Matrix.mulVec_mulVec, sw, ← Matrix.mulVec_mulVec]
  have l3 : (d - gain P C R *ᵥ ν) ⬝ᵥ (post P C R)⁻¹ *ᵥ (d - gain P C R *ᵥ ν) =
      d ⬝ᵥ (post P C R)⁻¹ *ᵥ d - 2 * ((C *ᵥ d) ⬝ᵥ R⁻¹ *ᵥ ν) + (C *ᵥ (gain P C R *ᵥ ν)) ⬝ᵥ R⁻¹ *ᵥ ν := by
    have h1 : (gain P C R *ᵥ ν) ⬝ᵥ (post P C R)⁻¹ *ᵥ d = (C *ᵥ d) ⬝ᵥ R⁻¹ *ᵥ ν := by
      rw [Matrix.dotProduct_mulVec, ← Matrix.mulVec_transpose, hMt, hMKv, dotProduct_comm, sw]
    rw [Matrix.mulVec_sub, sub_dotProduct, dotProduct_sub, dotProduct_sub, hMKv, h1, sw, sw]
    ring
  have l4 : (C *ᵥ (gain P C R *ᵥ ν)) ⬝ᵥ R⁻¹ *ᵥ ν = ν ⬝ᵥ R⁻¹ *ᵥ ν - ν ⬝ᵥ (innov P C R)⁻¹ *ᵥ ν := by
    rw [Matrix.mulVec_mulVec, seen hSu, Matrix.sub_mulVec, Matrix.one_mulVec, sub_dotProduct]
    congr 1
    have : R⁻¹ *ᵥ (R *ᵥ ((innov P C R)⁻¹ *ᵥ ν)) = (innov P C R)⁻¹ *ᵥ ν := by
      rw [Matrix.mulVec_mulVec, Matrix.nonsing_inv_mul _ hRu, Matrix.one_mulVec]
    rw [← Matrix.mulVec_mulVec, Matrix.dotProduct_mulVec, ← Matrix.mulVec_transpose, hRt, this, dotProduct_comm]
  rw [l1, l3, l2, l4]
  ring

theorem volume {P : Matrix (Fin a) (Fin a) ℝ} (C : Matrix (Fin b) (Fin a) ℝ) {R : Matrix (Fin b) (Fin b) ℝ}
    (hS : IsUnit (innov P C R).det) : (post P C R).det * (innov P C R).det = P.det * R.det := by
  unfold Kalman.post
  rw [Matrix.det_mul, Matrix.det_one_sub_mul_comm, seen hS, sub_sub_cancel, Matrix.det_mul, Matrix.det_nonsing_inv]
  have h : (innov P C R).det ≠ 0 := hS.ne_zero
  rw [Ring.inverse_eq_inv']
  field_simp

theorem one_le_det {N : Matrix (Fin b) (Fin b) ℝ} (hN : N.PosSemidef) : 1 ≤ (1 + N).det := by
  have hh : (1 + N).IsHermitian := Matrix.isHermitian_one.add hN.isHermitian
  rw [hh.det_eq_prod_eigenvalues]
  have : ∀ i, (1 : ℝ) ≤ hh.eigenvalues i := by
    intro i
    have hv : hh.eigenvalues i = _ := hh.eigenvalues_eq i
    have hunit : star (hh.eigenvectorBasis i : Fin b → ℝ) ⬝ᵥ (hh.eigenvectorBasis i : Fin b → ℝ) = 1 := by
      have := hh.eigenvectorBasis.orthonormal.1 i
      have h2 : ‖hh.eigenvectorBasis i‖ ^ 2 = 1 := by rw [this]; norm_num
      rw [EuclideanSpace.norm_sq_eq] at h2
      simpa [dotProduct, sq] using h2
    rw [hv, Matrix.add_mulVec, Matrix.one_mulVec, dotProduct_add, hunit]
    have h0 := hN.dotProduct_mulVec_nonneg (hh.eigenvectorBasis i : Fin b → ℝ)
    simp only [map_add, RCLike.one_re, RCLike.re_to_real]
    linarith
  have h1 : (1 : ℝ) ≤ ∏ i, hh.eigenvalues i := by
    rw [← Finset.prod_const_one (s := Finset.univ) (ι := Fin b)]
    exact Finset.prod_le_prod (fun _ _ => zero_le_one) fun i _ => this i
  simpa using h1

theorem det_mono {R M : Matrix (Fin b) (Fin b) ℝ} (hR : R.PosDef) (hM : M.PosSemidef) : R.det ≤ (M + R).det := by
  obtain ⟨B, hB⟩ : ∃ B : Matrix (Fin b) (Fin b) ℝ, R = Bᴴ * B := by
    open scoped MatrixOrder in
    exact CStarAlgebra.nonneg_iff_eq_star_mul_self.mp hR.posSemidef.nonneg
  rw [conjTranspose_eq_transpose_of_trivial] at hB
  have hdet : 0 < R.det := hR.det_pos
  have hBu : IsUnit B.det := by
    rw [isUnit_iff_ne_zero]
    intro h
    rw [hB, Matrix.det_mul, h, mul_zero] at hdet
    exact lt_irrefl _ hdet
  have e : M + R = Bᵀ * (1 + (B⁻¹)ᵀ * M * B⁻¹) * B := by
    rw [Matrix.mul_add, Matrix.add_mul, Matrix.mul_one, ← hB, add_comm]
    congr 1
    rw [Matrix.mul_assoc (B⁻¹)ᵀ, ← Matrix.mul_assoc Bᵀ, ← Matrix.transpose_mul, Matrix.nonsing_inv_mul _ hBu, Matrix.transpose_one,
      Matrix.one_mul, Matrix.mul_assoc, Matrix.nonsing_inv_mul _ hBu, Matrix.mul_one]
  have hN : ((B⁻¹)ᵀ * M * B⁻¹).PosSemidef := by
    have := psd_conj hM (B⁻¹)ᵀ
    rwa [Matrix.transpose_transpose] at this
  have h1 := one_le_det hN
  have h2 : (M + R).det = R.det * (1 + (B⁻¹)ᵀ * M * B⁻¹).det := by
    rw [e, Matrix.det_mul, Matrix.det_mul, hB, Matrix.det_mul]; ring
  rw [h2]
  nlinarith

end OneCorrection

namespace Props

open Matrix Kalman Sigma Examples OneCorrection

variable {T K X Y : Type} [DecidableEq K] {n m k : Nat}
variable [LinearOrder T] [ExactTime T]

/-- **C136 (Kalman filter).**  A `correct(z, R, t, sensor)` at the current time, with the models' own addition and subtraction: let `dz` be
the difference between the measurement and the predicted one, and `S = C P Cᵀ + R` its modelled covariance.  In every direction the
estimate moves by at most `√(dzᵀ S⁻¹ dz)` standard deviations of the reduction `P - P'` of the covariance: a measurement that agrees
with its prediction up to `s` standard deviations moves the estimate by at most `s` standard deviations, and a measurement that
tells little moves it little. -/
theorem C136_kf {sc : SysClass T LinSysData X} {mc : K → MeasClass T LinMeasData Y}
    (hsc : SysContract LinSysData.Sized sc) (hmc : ∀ j, MeasContract LinMeasData.Sized (mc j))
    (f : Filter T DVec DMat K (Env K LinSysData X LinMeasData Y)) (j : K)
    (hs : f.env.sys.Sized LinSysData.Sized n m) (hm : (f.env.meas j).Sized LinMeasData.Sized n k)
    {x : Fin n → ℝ} {P : Matrix (Fin n) (Fin n) ℝ} (hx : f.getState = .of x) (hP : f.getCovariance = .of P)
    (hPsd : P.PosSemidef) (z : Fin k → ℝ) (R : Matrix (Fin k) (Fin k) ℝ) (hR : R.PosDef)
    (hst : ((f.env.meas j).fm.checkStationary && (f.env.meas j).fm.isStationary (.of x) (.of z)) = false) :
    ∃ g, ∃ (C : Matrix (Fin k) (Fin n) ℝ) (P' : Matrix (Fin n) (Fin n) ℝ) (dz : Fin k → ℝ) (dx : Fin n → ℝ),
      f.correct (kfPlant sc mc) (.of z) (.of R) f.getStateTime (some j) = some g ∧
      (g.env.meas j).der.C = .of C ∧ (mc j).sub (g.env.meas j) (.of z) (.of (C *ᵥ x)) = some (.of dz) ∧
      sc.add f.env.sys (.of x) (.of dx) = some g.getState ∧ g.getCovariance = .of P' ∧
      WithinSigmas (√(dz ⬝ᵥ (C * P * Cᵀ + R)⁻¹ *ᵥ dz)) (P - P') dx ∧ WithinSigmas (√(dz ⬝ᵥ (C * P * Cᵀ + R)⁻¹ *ᵥ dz)) P dx := by
  obtain ⟨g, C, L, P', dz, h1, h2, h3, h4, h5, h6, h7, h8, h9, h10, h11, h12, h13⟩ :=
    C28_C30_kf_correct hsc hmc f j hs hm hx hP hPsd z R hR hst
  have hS := innov_pd hPsd C hR
  have hL : L = gain P C R := by rw [h5]; unfold gain innov; rw [Matrix.mul_assoc C P]
  have e : C * P * Cᵀ + R = innov P C R := by unfold innov; rw [Matrix.mul_assoc C P]
  have hj := jump hS L (P := P) (P' := P') (by
    rw [h9, hL]; exact post_eq (psd_symm hPsd) (pd_isUnit_det hS) (psd_symm hR.posSemidef)) dz
  rw [← e] at hj
  exact ⟨g, C, P', dz, L *ᵥ dz, h1, h4, h6, h7, h8, hj, hj.le (Real.sqrt_nonneg _) (by rw [sub_sub_cancel]; exact h10)⟩

/-- **C136 (EKF).**  Same, with the model's predicted measurement `h()` and its Jacobian `H`. -/
theorem C136_ekf {sc : SysClass T NonlinSysData X} {mc : K → MeasClass T NonlinMeasData Y}
    (hsc : SysContract NonlinSysData.Sized sc) (hmc : ∀ j, MeasContract NonlinMeasData.Sized (mc j))
    (f : Filter T DVec DMat K (Env K NonlinSysData X NonlinMeasData Y)) (j : K)
    (hs : f.env.sys.Sized NonlinSysData.Sized n m) (hm : (f.env.meas j).Sized NonlinMeasData.Sized n k)
    {x : Fin n → ℝ} {P : Matrix (Fin n) (Fin n) ℝ} (hx : f.getState = .of x) (hP : f.getCovariance = .of P)
    (hPsd : P.PosSemidef) (z : Fin k → ℝ) (R : Matrix (Fin k) (Fin k) ℝ) (hR : R.PosDef)
    (hst : ((f.env.meas j).fm.checkStationary && (f.env.meas j).fm.isStationary (.of x) (.of z)) = false) :
    ∃ g, ∃ (H : Matrix (Fin k) (Fin n) ℝ) (P' : Matrix (Fin n) (Fin n) ℝ) (dz : Fin k → ℝ) (dx : Fin n → ℝ),
      f.correct (ekfPlant sc mc) (.of z) (.of R) f.getStateTime (some j) = some g ∧
      (g.env.meas j).der.H = .of H ∧ (mc j).sub (g.env.meas j) (.of z) (g.env.meas j).der.h = some (.of dz) ∧
      sc.add f.env.sys (.of x) (.of dx) = some g.getState ∧ g.getCovariance = .of P' ∧
      WithinSigmas (√(dz ⬝ᵥ (H * P * Hᵀ + R)⁻¹ *ᵥ dz)) (P - P') dx ∧ WithinSigmas (√(dz ⬝ᵥ (H * P * Hᵀ + R)⁻¹ *ᵥ dz)) P dx := by
  obtain ⟨g, C, L, P', dz, h1, h2, h3, h4, h5, h6, h7, h8, h9, h10, h11, h12, h13⟩ :=
    C28_C30_ekf_correct hsc hmc f j hs hm hx hP hPsd z R hR hst
  have hS := innov_pd hPsd C hR
  have hL : L = gain P C R := by rw [h5]; unfold gain innov; rw [Matrix.mul_assoc C P]
  have e : C * P * Cᵀ + R = innov P C R := by unfold innov; rw [Matrix.mul_assoc C P]
  have hj := jump hS L (P := P) (P' := P') (by
    rw [h9, hL]; exact post_eq (psd_symm hPsd) (pd_isUnit_det hS) (psd_symm hR.posSemidef)) dz
  rw [← e] at hj
  exact ⟨g, C, P', dz, L *ᵥ dz, h1, h4, h6, h7, h8, hj, hj.le (Real.sqrt_nonneg _) (by rw [sub_sub_cancel]; exact h10)⟩

/-- **C136 (UKF).**  Same, with the predicted measurement and the covariance of the difference computed from the images `y` of the sigma
points. -/
theorem C136_ukf {llt : DMat → Option DMat} (hllt : LltSpec llt) (junk : Nat → Nat → ℝ)
    {sc : SysClass T NonlinSysData X} {mc : K → MeasClass T NonlinMeasData Y}
    (hso : sc.PlainOps) (hmc : ∀ j, MeasContract NonlinMeasData.Sized (mc j)) (hmo : ∀ j, (mc j).PlainOps)
    (f : Filter T DVec DMat K (Env K NonlinSysData X NonlinMeasData Y × SigmaParams)) (j : K)
    (hs : f.env.1.sys.Sized NonlinSysData.Sized n m) (hm : (f.env.1.meas j).Sized NonlinMeasData.Sized n k)
    {al ka be : ℝ} (hsp : setSigma n n al ka be = some f.env.2)
    (hal : 0 < al ^ 2 * (n + ka)) (hbe : al ^ 2 ≤ be)
    {x : Fin n → ℝ} {P : Matrix (Fin n) (Fin n) ℝ} (hx : f.getState = .of x) (hP : f.getCovariance = .of P)
    (hPd : P.PosDef) (z : Fin k → ℝ) (R : Matrix (Fin k) (Fin k) ℝ) (hR : R.PosDef)
    (hst : ((f.env.1.meas j).fm.checkStationary && (f.env.1.meas j).fm.isStationary (.of x) (.of z)) = false) :
    ∃ g, ∃ (L : Matrix (Fin n) (Fin n) ℝ) (q : Nat → Fin n → ℝ) (y : Nat → Fin k → ℝ) (zHat : Fin k → ℝ)
      (S : Matrix (Fin k) (Fin k) ℝ) (x' : Fin n → ℝ) (P' : Matrix (Fin n) (Fin n) ℝ),
      f.correct (ukfPlant llt junk sc mc) (.of z) (.of R) f.getStateTime (some j) = some g ∧
      L * Lᵀ = (al ^ 2 * (n + ka)) • P ∧
      q 0 = x ∧ (∀ i < n, q (i + 1) = x + colsOf L i ∧ q (i + 1 + n) = x - colsOf L i) ∧
      (∀ i < 2 * n + 1, MeasImage (mc j) n k ((f.env.1.meas j).withCov (.of R)) (.of (q i))
        (TimeOps.sub f.getStateTime f.getStateTime) (y i)) ∧
      zHat = mean n (al ^ 2 * (n + ka) - n) y ∧
      S = R + cross n (al ^ 2 * (n + ka) - n) (be - al ^ 2) y y zHat zHat ∧
      g.getState = .of x' ∧ g.getCovariance = .of P' ∧
      WithinSigmas (√((z - zHat) ⬝ᵥ S⁻¹ *ᵥ (z - zHat))) (P - P') (x' - x) ∧
      WithinSigmas (√((z - zHat) ⬝ᵥ S⁻¹ *ᵥ (z - zHat))) P (x' - x) := by
  obtain ⟨g, L, q, y, zHat, S, D, G, P', h1, h2, h3, h4, h5, h6, h7, h8, h9, h10, h11, h12, h13, h14, h15, h16⟩ :=
    C37_ukf_correct hllt junk hso hmc hmo f j hs hm hsp hal hbe hx hP hPd z R hR hst
  have e : (n : ℝ) + (al ^ 2 * (n + ka) - n) = al ^ 2 * (n + ka) := by ring
  have hS : S.PosDef := by
    rw [h9, h8]
    exact hR.add_posSemidef (unscented_psd (by rw [e]; exact hal) (by linarith) y)
  have hj := jump hS G h14 (z - zHat)
  have hj' : WithinSigmas (√((z - zHat) ⬝ᵥ S⁻¹ *ᵥ (z - zHat))) (P - P') (x + G *ᵥ (z - zHat) - x) := by rwa [add_sub_cancel_left]
  exact ⟨g, L, q, y, zHat, S, _, P', h1, h4, h5, h6, h7, h8, h9, h12, h13, hj',
    hj'.le (Real.sqrt_nonneg _) (by rw [sub_sub_cancel]; exact h15.posSemidef)⟩

/-- **C137.**  An EKF correction is a Gauss-Newton step: with the predicted measurement `h(x)` and its Jacobian `H`, the corrected estimate
`x'` minimises the disagreement `(q - x)ᵀ P⁻¹ (q - x) + (z - h(x) - H (q - x))ᵀ R⁻¹ (z - h(x) - H (q - x))` of a state `q` with the belief and
with the linearised measurement, and the inverse of the new covariance is the curvature of this disagreement; what remains at
the minimum is `(z - h(x))ᵀ (H P Hᵀ + R)⁻¹ (z - h(x))`. -/
theorem C137_gauss_newton {sc : SysClass T NonlinSysData X} {mc : K → MeasClass T NonlinMeasData Y}
    (hso : sc.PlainOps) (hsc : SysContract NonlinSysData.Sized sc) (hmc : ∀ j, MeasContract NonlinMeasData.Sized (mc j))
    (hmo : ∀ j, (mc j).PlainOps)
    (f : Filter T DVec DMat K (Env K NonlinSysData X NonlinMeasData Y)) (j : K)
    (hs : f.env.sys.Sized NonlinSysData.Sized n m) (hm : (f.env.meas j).Sized NonlinMeasData.Sized n k)
    {x : Fin n → ℝ} {P : Matrix (Fin n) (Fin n) ℝ} (hx : f.getState = .of x) (hP : f.getCovariance = .of P)
    (hPd : P.PosDef) (z : Fin k → ℝ) (R : Matrix (Fin k) (Fin k) ℝ) (hR : R.PosDef)
    (hst : ((f.env.meas j).fm.checkStationary && (f.env.meas j).fm.isStationary (.of x) (.of z)) = false) :
    ∃ g, ∃ (h : Fin k → ℝ) (H : Matrix (Fin k) (Fin n) ℝ) (x' : Fin n → ℝ) (P' : Matrix (Fin n) (Fin n) ℝ),
      f.correct (ekfPlant sc mc) (.of z) (.of R) f.getStateTime (some j) = some g ∧
      (g.env.meas j).der.h = .of h ∧ (g.env.meas j).der.H = .of H ∧ g.getState = .of x' ∧ g.getCovariance = .of P' ∧ P'.PosDef ∧
      ∀ q : Fin n → ℝ,
        (q - x) ⬝ᵥ P⁻¹ *ᵥ (q - x) + (z - h - H *ᵥ (q - x)) ⬝ᵥ R⁻¹ *ᵥ (z - h - H *ᵥ (q - x)) =
          (z - h) ⬝ᵥ (H * P * Hᵀ + R)⁻¹ *ᵥ (z - h) + (q - x') ⬝ᵥ P'⁻¹ *ᵥ (q - x') := by
  have hms : ((f.env.meas j).withCov (.of R)).Sized NonlinMeasData.Sized n k := ⟨hm.states, hm.meas, hm.der, rfl, rfl⟩
  obtain ⟨ms, hup, hms', -⟩ := (hmc j).update _ (.of x) (TimeOps.sub f.getStateTime f.getStateTime) hms rfl
  obtain ⟨H, hH⟩ := hms'.der.2.exists_of
  obtain ⟨h, hh⟩ := DVec.exists_of _ hms'.der.1
  have hSu := pd_isUnit_det (innov_pd hPd.posSemidef H hR)
  obtain ⟨g, dz, x', h1, h2, h3, h4, h5, h6, h7, _⟩ := ekf_correct_now hsc hmc f j hs hm hx hP z R hup hH hSu hst
  have henv : g.env.meas j = ms := by rw [h7, Env.setMeas_meas]
  rw [(hmo j).sub, hh, DVec.sub_of] at h2
  injection h2 with h2
  rw [← DVec.of_inj.mp h2, hso.add, DVec.add_of] at h3
  injection h3 with h3
  have h3 := DVec.of_inj.mp h3
  refine ⟨g, h, H, x', _, h1, by rw [henv, hh], by rw [henv, hH], h4, h5, post_pd hPd H hR, fun q => ?_⟩
  have e : H * P * Hᵀ + R = innov P H R := by unfold innov; rw [Matrix.mul_assoc H P]
  rw [compromise hPd H hR, e, ← h3]
  have e2 : q - (x + gain P H R *ᵥ (z - h)) = q - x - gain P H R *ᵥ (z - h) := by abel
  rw [e2]

/-- **C138 (Kalman filter).**  A `correct(z, R, t, sensor)` at the current time multiplies the determinant of the covariance (the square of
the volume of the confidence region, up to a constant) by `det R / det (C P Cᵀ + R)`. -/
theorem C138_kf {sc : SysClass T LinSysData X} {mc : K → MeasClass T LinMeasData Y}
    (hsc : SysContract LinSysData.Sized sc) (hmc : ∀ j, MeasContract LinMeasData.Sized (mc j))
    (f : Filter T DVec DMat K (Env K LinSysData X LinMeasData Y)) (j : K)
    (hs : f.env.sys.Sized LinSysData.Sized n m) (hm : (f.env.meas j).Sized LinMeasData.Sized n k)
    {x : Fin n → ℝ} {P : Matrix (Fin n) (Fin n) ℝ} (hx : f.getState = .of x) (hP : f.getCovariance = .of P)
    (hPsd : P.PosSemidef) (z : Fin k → ℝ) (R : Matrix (Fin k) (Fin k) ℝ) (hR : R.PosDef)
    (hst : ((f.env.meas j).fm.checkStationary && (f.env.meas j).fm.isStationary (.of x) (.of z)) = false) :
    ∃ g, ∃ (C : Matrix (Fin k) (Fin n) ℝ) (P' : Matrix (Fin n) (Fin n) ℝ),
      f.correct (kfPlant sc mc) (.of z) (.of R) f.getStateTime (some j) = some g ∧ (g.env.meas j).der.C = .of C ∧
      g.getCovariance = .of P' ∧ 0 < R.det ∧ R.det ≤ (C * P * Cᵀ + R).det ∧ P'.det = P.det * (R.det / (C * P * Cᵀ + R).det) := by
  obtain ⟨g, C, L, P', dz, h1, h2, h3, h4, h5, h6, h7, h8, h9, h10, h11, h12, h13⟩ :=
    C28_C30_kf_correct hsc hmc f j hs hm hx hP hPsd z R hR hst
  have hS := innov_pd hPsd C hR
  have hL : L = gain P C R := by rw [h5]; unfold gain innov; rw [Matrix.mul_assoc C P]
  have e : C * P * Cᵀ + R = innov P C R := by unfold innov; rw [Matrix.mul_assoc C P]
  have hv := volume C (pd_isUnit_det hS)
  refine ⟨g, C, P', h1, h4, h8, hR.det_pos, det_mono hR (psd_conj hPsd C), ?_⟩
  rw [mul_div_assoc', eq_div_iff (by rw [e]; exact hS.det_pos.ne'), e, h9, hL]
  exact hv

/-- **C138 (EKF).** -/
theorem C138_ekf {sc : SysClass T NonlinSysData X} {mc : K → MeasClass T NonlinMeasData Y}
    (hsc : SysContract NonlinSysData.Sized sc) (hmc : ∀ j, MeasContract NonlinMeasData.Sized (mc j))
    (f : Filter T DVec DMat K (Env K NonlinSysData X NonlinMeasData Y)) (j : K)
    (hs : f.env.sys.Sized NonlinSysData.Sized n m) (hm : (f.env.meas j).Sized NonlinMeasData.Sized n k)
    {x : Fin n → ℝ} {P : Matrix (Fin n) (Fin n) ℝ} (hx : f.getState = .of x) (hP : f.getCovariance = .of P)
    (hPsd : P.PosSemidef) (z : Fin k → ℝ) (R : Matrix (Fin k) (Fin k) ℝ) (hR : R.PosDef)
    (hst : ((f.env.meas j).fm.checkStationary && (f.env.meas j).fm.isStationary (.of x) (.of z)) = false) :
    ∃ g, ∃ (H : Matrix (Fin k) (Fin n) ℝ) (P' : Matrix (Fin n) (Fin n) ℝ),
      f.correct (ekfPlant sc mc) (.of z) (.of R) f.getStateTime (some j) = some g ∧ (g.env.meas j).der.H = .of H ∧
      g.getCovariance = .of P' ∧ 0 < R.det ∧ R.det ≤ (H * P * Hᵀ + R).det ∧ P'.det = P.det * (R.det / (H * P * Hᵀ + R).det) := by
  obtain ⟨g, C, L, P', dz, h1, h2, h3, h4, h5, h6, h7, h8, h9, h10, h11, h12, h13⟩ :=
    C28_C30_ekf_correct hsc hmc f j hs hm hx hP hPsd z R hR hst
  have hS := innov_pd hPsd C hR
  have hL : L = gain P C R := by rw [h5]; unfold gain innov; rw [Matrix.mul_assoc C P]
  have e : C * P * Cᵀ + R = innov P C R := by unfold innov; rw [Matrix.mul_assoc C P]
  have hv := volume C (pd_isUnit_det hS)
  refine ⟨g, C, P', h1, h4, h8, hR.det_pos, det_mono hR (psd_conj hPsd C), ?_⟩
  rw [mul_div_assoc', eq_div_iff (by rw [e]; exact hS.det_pos.ne'), e, h9, hL]
  exact hv

/-! ## Witnesses -/

section
private theorem four_pd : (!![(4 : ℝ)] : Matrix (Fin 1) (Fin 1) ℝ).PosDef := by
  have : (!![4] : Matrix (Fin 1) (Fin 1) ℝ) = (4 : ℝ) • 1 := by ext i j; fin_cases i; fin_cases j; simp
  rw [this]
  exact PosDef.one.smul (by norm_num)

/-- The position measurement 7 of the cart at 0 with unit variance: the theorems apply … -/
example := C136_kf cv_contract (fun _ => pos_contract) cvFilter ()
    (cvEnv_ok (Q := EstimatePSD 2)).sys ((cvEnv_ok (Q := EstimatePSD 2)).meas ()) (x := 0) (P := 1) rfl rfl PosSemidef.one
    (fun _ => 7) 1 PosDef.one rfl
example := C138_kf cv_contract (fun _ => pos_contract) cvFilter ()
    (cvEnv_ok (Q := EstimatePSD 2)).sys ((cvEnv_ok (Q := EstimatePSD 2)).meas ()) (x := 0) (P := 1) rfl rfl PosSemidef.one
    (fun _ => 7) 1 PosDef.one rfl

/-- … and so do those about the EKF and the UKF, for the sensor `h = x²` at 1 with variance 4, measurement 3. -/
example (params : Params ℝ) := C136_ekf quad_contract (fun _ => square_contract)
    (Filter.construct (ekfPlant quadClass fun _ : Unit => squareClass) params quadEnv (vec1 1) (mat1 4) 0) ()
    (n := 1) (m := 1) (k := 1) (x := ![1]) (P := !![4]) (quadEnv_ok (Q := fun _ _ => True)).sys
    ((quadEnv_ok (Q := fun _ _ => True)).meas ()) rfl rfl four_pd.posSemidef ![3] 1 PosDef.one rfl
example (params : Params ℝ) := C137_gauss_newton (plain_ops _) quad_contract (fun _ => square_contract) (fun _ => plain_mops _)
    (Filter.construct (ekfPlant quadClass fun _ : Unit => squareClass) params quadEnv (vec1 1) (mat1 4) 0) ()
    (n := 1) (m := 1) (k := 1) (x := ![1]) (P := !![4]) (quadEnv_ok (Q := fun _ _ => True)).sys
    ((quadEnv_ok (Q := fun _ _ => True)).meas ()) rfl rfl four_pd ![3] 1 PosDef.one rfl
example (params : Params ℝ) := C138_ekf quad_contract (fun _ => square_contract)
    (Filter.construct (ekfPlant quadClass fun _ : Unit => squareClass) params quadEnv (vec1 1) (mat1 4) 0) ()
    (n := 1) (m := 1) (k := 1) (x := ![1]) (P := !![4]) (quadEnv_ok (Q := fun _ _ => True)).sys
    ((quadEnv_ok (Q := fun _ _ => True)).meas ()) rfl rfl four_pd.posSemidef ![3] 1 PosDef.one rfl
example {llt : DMat → Option DMat} (hllt : LltSpec llt) (junk : Nat → Nat → ℝ) (sp : SigmaParams)
    (hsp : ukfInitSigma quadEnv = some sp) (params : Params ℝ) :=
  C136_ukf hllt junk (mc := fun _ : Unit => squareClass) (plain_ops quadClass.myUpdate) (fun _ => square_contract) (fun _ => plain_mops _)
    (Filter.construct (ukfPlant llt junk quadClass fun _ : Unit => squareClass) params (quadEnv, sp) (vec1 1) (mat1 4) 0) ()
    (n := 1) (m := 1) (k := 1) (x := ![1]) (P := !![4]) (quadEnv_ok (Q := fun _ _ => True)).sys ((quadEnv_ok (Q := fun _ _ => True)).meas ())
    (al := 0.001) (ka := 0) (be := 2) hsp (by norm_num) (by norm_num)
    rfl rfl four_pd ![3] 1 PosDef.one rfl

end

end Props
end StateEstimation
