import Verif.Lemmas.UKFApi
import Verif.Lemmas.PlantSim
import Verif.Model.KF

/-! # The UKF on affine models -/

set_option linter.unusedSectionVars false

namespace StateEstimation

open Matrix Kalman Sigma

variable {T K X Y : Type} {n m k p : Nat}

theorem colsOf_mul (A : Matrix (Fin k) (Fin n) ℝ) (L : Matrix (Fin n) (Fin m) ℝ) (i : Nat) :
    colsOf (A * L) i = A *ᵥ colsOf L i := by
  unfold colsOf
  by_cases h : i < m
  · rw [dif_pos h, dif_pos h]; rfl
  · rw [dif_neg h, dif_neg h, Matrix.mulVec_zero]

/-- Sigma points mapped by `q ↦ A q + b`. -/
theorem affine_moments {lam d : ℝ} (h : 0 < (n : ℝ) + lam) {L cov : Matrix (Fin n) (Fin n) ℝ}
    (hL : L * Lᵀ = ((n : ℝ) + lam) • cov) {x : Fin n → ℝ} (A : Matrix (Fin k) (Fin n) ℝ) (b : Fin k → ℝ)
    {y : Nat → Fin k → ℝ} (h0 : y 0 = A *ᵥ x + b)
    (hy : ∀ i < n, y (i + 1) = A *ᵥ (x + colsOf L i) + b ∧ y (i + 1 + n) = A *ᵥ (x - colsOf L i) + b) :
    mean n lam y = A *ᵥ x + b ∧ cross n lam d y y (mean n lam y) (mean n lam y) = A * cov * Aᵀ ∧
      ∀ q : Nat → Fin n → ℝ, Symm n q (colsOf L) → cross n lam d q y (q 0) (mean n lam y) = cov * Aᵀ := by
  have hsym : Symm n y (colsOf (A * L)) := by
    intro i hi
    obtain ⟨h1, h2⟩ := hy i hi
    rw [h1, h2, h0, colsOf_mul, Matrix.mulVec_add, Matrix.mulVec_sub]
    exact ⟨by abel, by abel⟩
  have hdev : dev n lam y = 0 := Symm.dev lam hsym
  refine ⟨by rw [mean_eq h.ne', hdev, add_zero, h0], ?_, ?_⟩
  · rw [cross_eq h.ne', hdev, vecMulVec_zero, smul_zero, add_zero, Symm.moment lam hsym hsym, sum_cols, Matrix.transpose_mul,
      Matrix.mul_assoc A L, ← Matrix.mul_assoc L, hL, Matrix.smul_mul, Matrix.mul_smul, smul_smul, one_div,
      inv_mul_cancel₀ h.ne', one_smul, Matrix.mul_assoc]
  · intro q hq
    rw [cross_central d q y h.ne' (Symm.dev lam hq), Symm.moment lam hq hsym, sum_cols, Matrix.transpose_mul,
      ← Matrix.mul_assoc L, hL, Matrix.smul_mul, smul_smul, one_div, inv_mul_cancel₀ h.ne', one_smul]

section Predict
variable {sc : SysClass T NonlinSysData X}

/-- A UKF prediction on an affine model, whatever matrix `L` the factorisation returns: the sigma points stand for the
covariance `cov'` with `L Lᵀ = (n + lambda) cov'`. -/
theorem ukfPredict_affine' {Z : Type} (hsc : SysContract NonlinSysData.Sized sc) (hso : sc.PlainOps)
    {llt : DMat → Option DMat} (junk : Nat → Nat → ℝ) {s : Sys NonlinSysData X} {lam d : ℝ} (hlam : 0 < (n : ℝ) + lam)
    (hs : s.Sized NonlinSysData.Sized n m) (x : Fin n → ℝ) {u : DVec} (hu : u.size = m)
    {L cov cov' : Matrix (Fin n) (Fin n) ℝ} (hL : llt (.of (((n : ℝ) + lam) • cov)) = some (.of L))
    (hLL : L * Lᵀ = ((n : ℝ) + lam) • cov') (dt : T) {A : Matrix (Fin n) (Fin n) ℝ} {b : Fin n → ℝ} {W' V' : DMat}
    (haff : ∀ (q : Fin n → ℝ) (t : Sys NonlinSysData X), s.UpdatedAt sc n m (.of q) u dt t →
      t.der.g = .of (A *ᵥ q + b) ∧ t.der.G = .of A ∧ t.P = W' ∧ t.V = V')
    (back : Sys NonlinSysData X → Z) :
    ∃ s' p, ∃ (W : Matrix (Fin n) (Fin p) ℝ) (V : Matrix (Fin n) (Fin m) ℝ) (Rp : Matrix (Fin p) (Fin p) ℝ)
      (Rc : Matrix (Fin m) (Fin m) ℝ),
      ukfPredict llt junk sc ⟨2 * n + 1, lam, .of (fun j : Fin (2 * n + 1) => wm n lam j),
        .of (fun j : Fin (2 * n + 1) => wc n lam d j)⟩ s (.of x) (.of cov) u dt back
        = some (.of (A *ᵥ x + b), .of (A * cov' * Aᵀ + W * Rp * Wᵀ + V * Rc * Vᵀ), back s') ∧
      s'.Sized NonlinSysData.Sized n m ∧ s.SameConfig s' ∧ W' = .of W ∧ V' = .of V ∧ s.Rp = .of Rp ∧ s.Rc = .of Rc := by
  obtain ⟨s', p, y, W, V, Rp, Rc, e, hs', hc, hy0, hy, hup, hW, hV, hRp, hRc⟩ :=
    ukfPredict_of (d := d) hsc hso junk hs hL x hu dt back
  have img : ∀ (q v : Fin n → ℝ), SysImage sc n m s (.of q) u dt v → v = A *ᵥ q + b := by
    rintro q v ⟨t, h1, h2⟩
    exact DVec.of_inj.mp (h2.symm.trans (haff q t h1).1)
  obtain ⟨m1, m2, _⟩ := affine_moments (d := d) hlam hLL A b (img _ _ hy0) (fun i hi => ⟨img _ _ (hy i hi).1, img _ _ (hy i hi).2⟩)
  have hPV : s'.P = W' ∧ s'.V = V' := by
    rcases hup with ⟨_, h⟩ | ⟨_, h⟩
    · exact ⟨(haff _ _ h).2.2.1, (haff _ _ h).2.2.2⟩
    · exact ⟨(haff _ _ h).2.2.1, (haff _ _ h).2.2.2⟩
  refine ⟨s', p, W, V, Rp, Rc, ?_, hs', hc, hPV.1 ▸ hW, hPV.2 ▸ hV, hRp, hRc⟩
  rw [e, m2, m1]
  congr 4
  abel

/-- A UKF prediction on an affine model. -/
theorem ukfPredict_affine {Z : Type} (hsc : SysContract NonlinSysData.Sized sc) (hso : sc.PlainOps)
    {llt : DMat → Option DMat} (hllt : LltSpec llt) (junk : Nat → Nat → ℝ) {s : Sys NonlinSysData X} {sp : SigmaParams}
    (hsp : SigmaAdmissible n sp) (hs : s.Sized NonlinSysData.Sized n m) (x : Fin n → ℝ) {u : DVec} (hu : u.size = m)
    {cov : Matrix (Fin n) (Fin n) ℝ} (hcov : cov.PosDef) (dt : T) {A : Matrix (Fin n) (Fin n) ℝ} {b : Fin n → ℝ} {W' V' : DMat}
    (haff : ∀ (q : Fin n → ℝ) (t : Sys NonlinSysData X), s.UpdatedAt sc n m (.of q) u dt t →
      t.der.g = .of (A *ᵥ q + b) ∧ t.der.G = .of A ∧ t.P = W' ∧ t.V = V')
    (back : Sys NonlinSysData X → Z) :
    ∃ s' p, ∃ (W : Matrix (Fin n) (Fin p) ℝ) (V : Matrix (Fin n) (Fin m) ℝ) (Rp : Matrix (Fin p) (Fin p) ℝ)
      (Rc : Matrix (Fin m) (Fin m) ℝ),
      ukfPredict llt junk sc sp s (.of x) (.of cov) u dt back
        = some (.of (A *ᵥ x + b), .of (A * cov * Aᵀ + W * Rp * Wᵀ + V * Rc * Vᵀ), back s') ∧
      s'.Sized NonlinSysData.Sized n m ∧ s.SameConfig s' ∧ W' = .of W ∧ V' = .of V ∧ s.Rp = .of Rp ∧ s.Rc = .of Rc := by
  obtain ⟨lam, d, hlam, hd, rfl⟩ := hsp.elim
  obtain ⟨L, hL, hLL⟩ := hllt.scaled hlam hcov
  exact ukfPredict_affine' hsc hso junk hlam hs x hu hL hLL dt haff back

end Predict

section Correct
variable {sc : SysClass T NonlinSysData X} {mc : MeasClass T NonlinMeasData Y}

/-- A UKF correction with an affine measurement (its Jacobian is not used). -/
theorem ukfCorrect_affine' {Z : Type} (hso : sc.PlainOps) (hmc : MeasContract NonlinMeasData.Sized mc) (hmo : mc.PlainOps)
    {llt : DMat → Option DMat} (hllt : LltSpec llt) (junk : Nat → Nat → ℝ) {s : Sys NonlinSysData X} {sp : SigmaParams}
    (hsp : SigmaAdmissible n sp) (hs : s.Sized NonlinSysData.Sized n m) {ms : Meas NonlinMeasData Y}
    (hms : ms.Sized NonlinMeasData.Sized n k) {R : Matrix (Fin k) (Fin k) ℝ} (hR : R.PosDef) (hRe : ms.cov = .of R)
    (x : Fin n → ℝ) (z : Fin k → ℝ) {cov : Matrix (Fin n) (Fin n) ℝ} (hcov : cov.PosDef) (dt : T)
    {C : Matrix (Fin k) (Fin n) ℝ} {b : Fin k → ℝ}
    (haff : ∀ (q : Fin n → ℝ) (t : Meas NonlinMeasData Y), ms.UpdatedAt mc n k (.of q) dt t →
      t.der.h = .of (C *ᵥ q + b))
    (back : Meas NonlinMeasData Y → Z) :
    ∃ m', ukfCorrect llt junk sc mc sp s ms (.of x) (.of cov) (.of z) dt back
        = some (.of (x + gain cov C R *ᵥ (z - (C *ᵥ x + b))), .of (post cov C R), back m') ∧
      m'.Sized NonlinMeasData.Sized n k ∧ ms.SameConfig m' := by
  obtain ⟨lam, d, hlam, hd, rfl⟩ := hsp.elim
  obtain ⟨L, hL, hLL⟩ := hllt.scaled hlam hcov
  obtain ⟨m', q, y, R2, hm', hc, hRe2, hq0, hq, hy0, hy, e⟩ := ukfCorrect_of (d := d) hso hmc hmo junk hs hms hL x z dt back
  have hR2 : R = R2 := DMat.of_inj.mp (hRe.symm.trans hRe2)
  subst hR2
  have img : ∀ (q : Fin n → ℝ) (v : Fin k → ℝ), MeasImage mc n k ms (.of q) dt v → v = C *ᵥ q + b := by
    rintro q v ⟨t, h1, h2⟩
    exact DVec.of_inj.mp (h2.symm.trans (haff q t h1))
  obtain ⟨m1, m2, m3⟩ := affine_moments (d := d) hlam hLL C b (img _ _ hy0) (fun i hi => ⟨img _ _ (hy i hi).1, img _ _ (hy i hi).2⟩)
  have m3 := m3 q hq
  have hS := pd_isUnit_det (innov_pd hcov.posSemidef C hR)
  have e0 : R + C * cov * Cᵀ = innov cov C R := by unfold innov; rw [Matrix.mul_assoc, add_comm]
  rw [m2, e0] at e
  have e := e hS
  refine ⟨m', ?_, hm', hc⟩
  rw [e, m3, m1]
  have hg : cov * Cᵀ * (innov cov C R)⁻¹ = gain cov C R := rfl
  rw [hg]
  congr 4
  have h1 : gain cov C R * innov cov C R = cov * Cᵀ := gain_mul_innov hS
  rw [h1]
  unfold post
  have h2 : (gain cov C R)ᵀ = (innov cov C R)⁻¹ * (C * cov) := by
    have hsymm : (innov cov C R)ᵀ = innov cov C R := psd_symm (innov_pd hcov.posSemidef C hR).posSemidef
    unfold gain
    rw [Matrix.transpose_mul, Matrix.transpose_nonsing_inv, hsymm, Matrix.transpose_mul, Matrix.transpose_transpose,
      psd_symm hcov.posSemidef]
  rw [h2, ← Matrix.mul_assoc, hg, Matrix.sub_mul, Matrix.one_mul, Matrix.mul_assoc]

/-- A UKF correction with an affine measurement. -/
theorem ukfCorrect_affine {Z : Type} (hso : sc.PlainOps) (hmc : MeasContract NonlinMeasData.Sized mc) (hmo : mc.PlainOps)
    {llt : DMat → Option DMat} (hllt : LltSpec llt) (junk : Nat → Nat → ℝ) {s : Sys NonlinSysData X} {sp : SigmaParams}
    (hsp : SigmaAdmissible n sp) (hs : s.Sized NonlinSysData.Sized n m) {ms : Meas NonlinMeasData Y}
    (hms : ms.Sized NonlinMeasData.Sized n k) {R : Matrix (Fin k) (Fin k) ℝ} (hR : R.PosDef) (hRe : ms.cov = .of R)
    (x : Fin n → ℝ) (z : Fin k → ℝ) {cov : Matrix (Fin n) (Fin n) ℝ} (hcov : cov.PosDef) (dt : T)
    {C : Matrix (Fin k) (Fin n) ℝ} {b : Fin k → ℝ}
    (haff : ∀ (q : Fin n → ℝ) (t : Meas NonlinMeasData Y), ms.UpdatedAt mc n k (.of q) dt t →
      t.der.h = .of (C *ᵥ q + b) ∧ t.der.H = .of C)
    (back : Meas NonlinMeasData Y → Z) :
    ∃ m', ukfCorrect llt junk sc mc sp s ms (.of x) (.of cov) (.of z) dt back
        = some (.of (x + gain cov C R *ᵥ (z - (C *ᵥ x + b))), .of (post cov C R), back m') ∧
      m'.Sized NonlinMeasData.Sized n k ∧ ms.SameConfig m' :=
  ukfCorrect_affine' hso hmc hmo hllt junk hsp hs hms hR hRe x z hcov dt (fun q t h => (haff q t h).1) back

end Correct

end StateEstimation
