import Verif.Model.VS
import Verif.Lemmas.Subset
import Verif.Lemmas.KFSteps

/-! # One step of the variable-state Kalman filters, in terms of Mathlib matrices -/

set_option linter.unusedSectionVars false

namespace StateEstimation

open Matrix Kalman

variable {T X Y Z : Type} {n m k ns ms ks : Nat}

theorem bind_step {α β : Type} {o : Option α} {a : α} {f : α → Option β} {r : Option β} (h : o = some a) (h' : f a = r) :
    (o >>= f) = r := by rw [h]; exact h'

section KF
variable {sc : SysClass T LinSysData X} {mc : MeasClass T LinMeasData Y}

theorem kfvsPredict_of (hsc : SysContract LinSysData.Sized sc) {s : Sys LinSysData X} (hs : s.Sized LinSysData.Sized n m)
    {σ : Fin ns → Fin n} (hσ : Selects s.activeStates σ) {τ : Fin ms → Fin m} (hτ : Selects s.activeControls τ)
    (x : Fin n → ℝ) (cov : Matrix (Fin n) (Fin n) ℝ) (u : Fin m → ℝ) (dt : T) (back : Sys LinSysData X → Z) :
    ∃ s' p, ∃ (A : Matrix (Fin n) (Fin n) ℝ) (B : Matrix (Fin n) (Fin m) ℝ) (W : Matrix (Fin n) (Fin p) ℝ)
      (V : Matrix (Fin n) (Fin m) ℝ) (Rp : Matrix (Fin p) (Fin p) ℝ) (Rc : Matrix (Fin m) (Fin m) ℝ)
      (a b x' : Fin n → ℝ) (cov' : Matrix (Fin n) (Fin n) ℝ),
      kfvsPredict sc s (.of x) (.of cov) (.of u) dt back = some (.of x', .of cov', back s') ∧
      sc.myUpdate s (.of x) (.of u) dt = some s' ∧ s'.Sized LinSysData.Sized n m ∧ s.SameConfig s' ∧
      s'.der = ⟨.of A, .of B⟩ ∧ s'.P = .of W ∧ s'.V = .of V ∧ s.Rp = .of Rp ∧ s.Rc = .of Rc ∧
      OverwritesVec σ (A.submatrix σ σ *ᵥ (x ∘ σ)) 0 a ∧ OverwritesVec σ (B.submatrix σ τ *ᵥ (u ∘ τ)) 0 b ∧
      sc.add s' (.of a) (.of b) = some (.of x') ∧
      OverwritesMat σ σ (subPropagate σ τ A cov W Rp V Rc) cov cov' := by
  obtain ⟨s', e1, hs', hc⟩ := hs.update hsc (x := .of x) (u := .of u) rfl rfl dt
  have e1' : sc.myUpdate s (.of x) (.of u) dt = some s' := by
    unfold Sys.update at e1
    rwa [if_pos ⟨hs.states.symm, hs.controls.symm⟩] at e1
  obtain ⟨A, hA⟩ := hs'.der.1.exists_of
  obtain ⟨B, hB⟩ := hs'.der.2.exists_of
  obtain ⟨p, W, Rp, V, Rc, hW, hRp, hV, hRc⟩ := hs'.noise
  have hσ' : Selects s'.activeStates σ := by
    show Selects s'.fm.activeStates σ
    rw [hc.fm]; exact hσ
  have hτ' : Selects s'.activeControls τ := by rw [hc.activeControls]; exact hτ
  obtain ⟨a, ha, ha2⟩ := convertSubsetToFullZeroed_of hσ' (A.submatrix σ σ *ᵥ (x ∘ σ))
  obtain ⟨b, hb, hb2⟩ := convertSubsetToFullZeroed_of hσ' (B.submatrix σ τ *ᵥ (u ∘ τ))
  obtain ⟨r, hr, hr2⟩ := hsc.add s' (.of a) (.of b) hs' rfl rfl
  obtain ⟨r, rfl⟩ := r.exists_of hr2
  obtain ⟨cov', hcov, hcov2⟩ := convertSubsetToFullSq_of hσ' (subPropagate σ τ A cov W Rp V Rc) cov
  refine ⟨s', p, A, B, W, V, Rp, Rc, a, b, r, cov', ?_, e1', hs', hc, by rw [← hA, ← hB], hW, hV, by rw [← hc.Rp]; exact hRp,
    by rw [← hc.Rc]; exact hRc, ha2, hb2, hr, hcov2⟩
  unfold kfvsPredict
  have hst : s'.stateSize = n := hs'.states
  refine bind_step e1 ?_
  refine bind_step (getSubset_of hσ' x) ?_
  refine bind_step (getSubset_of hτ' u) ?_
  refine bind_step (getSubsetSq_of hσ' cov) ?_
  refine bind_step (by rw [hA]; exact getSubsetSq_of hσ' A) ?_
  refine bind_step (by rw [hB]; exact getSubset2_of hσ' hτ' B) ?_
  refine bind_step (by rw [hRc]; exact getSubsetSq_of hτ' Rc) ?_
  refine bind_step (by rw [hW]; exact getSubset2_of hσ' selects_nil W) ?_
  refine bind_step (by rw [hV]; exact getSubset2_of hσ' hτ' V) ?_
  refine bind_step (DMat.mulVec_of _ _) ?_
  refine bind_step (DMat.mulVec_of _ _) ?_
  refine bind_step (by rw [hst]; exact ha) ?_
  refine bind_step (by rw [hst]; exact hb) ?_
  refine bind_step hr ?_
  refine bind_step (by rw [hRp]; exact propagateCov_of _ _ _ _ _ _) ?_
  exact bind_step hcov rfl

theorem kfvsCorrect_of (hsc : SysContract LinSysData.Sized sc) (hmc : MeasContract LinMeasData.Sized mc) {s : Sys LinSysData X}
    (hs : s.Sized LinSysData.Sized n m) {me : Meas LinMeasData Y} (hm : me.Sized LinMeasData.Sized n k)
    {σ : Fin ns → Fin n} (hσ : Selects s.activeStates σ) {ρ : Fin ks → Fin k} (hρ : Selects me.activeMeasurements ρ)
    (x : Fin n → ℝ) (cov : Matrix (Fin n) (Fin n) ℝ) (hcov : (cov.submatrix σ σ).PosSemidef)
    {R : Matrix (Fin k) (Fin k) ℝ} (hR : me.cov = .of R) (hRp : (R.submatrix ρ ρ).PosDef)
    (z : Fin k → ℝ) (dt : T) (back : Meas LinMeasData Y → Z) :
    ∃ m', ∃ (C : Matrix (Fin k) (Fin n) ℝ) (zf dz : Fin k → ℝ) (dx x' : Fin n → ℝ) (cov' : Matrix (Fin n) (Fin n) ℝ),
      kfvsCorrect sc mc s me (.of x) (.of cov) (.of z) dt back = some (.of x', .of cov', back m') ∧
      mc.myUpdate me (.of x) dt = some m' ∧ m'.Sized LinMeasData.Sized n k ∧ me.SameConfig m' ∧
      m'.der.C = .of C ∧
      OverwritesVec ρ (C.submatrix ρ σ *ᵥ (x ∘ σ)) 0 zf ∧ mc.sub m' (.of z) (.of zf) = some (.of dz) ∧
      OverwritesVec σ (gain (cov.submatrix σ σ) (C.submatrix ρ σ) (R.submatrix ρ ρ) *ᵥ (dz ∘ ρ)) 0 dx ∧
      sc.add s (.of x) (.of dx) = some (.of x') ∧
      OverwritesMat σ σ (post (cov.submatrix σ σ) (C.submatrix ρ σ) (R.submatrix ρ ρ)) cov cov' := by
  obtain ⟨m', e1, hm', hc⟩ := hm.update hmc (x := .of x) rfl dt
  have e1' : mc.myUpdate me (.of x) dt = some m' := by
    unfold Meas.update at e1
    rwa [if_pos hm.states.symm] at e1
  obtain ⟨C, hC⟩ := DMat.Is.exists_of hm'.der
  have hρ' : Selects m'.activeMeasurements ρ := by rw [hc.activeMeasurements]; exact hρ
  have hR' : m'.cov = .of R := by rw [hc.cov]; exact hR
  obtain ⟨zf, hzf, hzf2⟩ := convertSubsetToFullZeroed_of hρ' (C.submatrix ρ σ *ᵥ (x ∘ σ))
  obtain ⟨dz, hdz, hdz2⟩ := hmc.sub m' (.of z) (.of zf) hm' rfl rfl
  obtain ⟨dz, rfl⟩ := dz.exists_of hdz2
  obtain ⟨dx, hdx, hdx2⟩ := convertSubsetToFullZeroed_of hσ
    (gain (cov.submatrix σ σ) (C.submatrix ρ σ) (R.submatrix ρ ρ) *ᵥ (dz ∘ ρ))
  obtain ⟨r, hr, hr2⟩ := hsc.add s (.of x) (.of dx) hs rfl rfl
  obtain ⟨r, rfl⟩ := r.exists_of hr2
  obtain ⟨cov', hcov', hcov2⟩ := convertSubsetToFullSq_of hσ
    (post (cov.submatrix σ σ) (C.submatrix ρ σ) (R.submatrix ρ ρ)) cov
  refine ⟨m', C, zf, dz, dx, r, cov', ?_, e1', hm', hc, hC, hzf2, hdz, hdx2, hr, hcov2⟩
  unfold kfvsCorrect
  have hst : s.stateSize = n := hs.states
  have hms : m'.measurementSize = k := hm'.meas
  have hS := pd_isUnit_det (innov_pd hcov (C.submatrix ρ σ) hRp)
  simp only [Option.bind_eq_bind, e1, Option.bind_some, hC, hR', getSubset_of hσ, getSubset_of hρ',
    getSubsetSq_of hσ, getSubsetSq_of hρ', getSubset2_of hρ' hσ, kalmanGain_of _ _ _ hS, DMat.mulVec_of, hms, hzf, hdz, hst, hdx, hr,
    DMat.of_rows, shrinkCov_of]
  have : (1 - gain (cov.submatrix σ σ) (C.submatrix ρ σ) (R.submatrix ρ ρ) * C.submatrix ρ σ) * cov.submatrix σ σ
    = post (cov.submatrix σ σ) (C.submatrix ρ σ) (R.submatrix ρ ρ) := rfl
  rw [this, hcov']
  rfl

end KF

section EKF
variable {sc : SysClass T NonlinSysData X} {mc : MeasClass T NonlinMeasData Y}

theorem ekfvsPredict_of (hsc : SysContract NonlinSysData.Sized sc) {s : Sys NonlinSysData X}
    (hs : s.Sized NonlinSysData.Sized n m)
    {σ : Fin ns → Fin n} (hσ : Selects s.activeStates σ) {τ : Fin ms → Fin m} (hτ : Selects s.activeControls τ)
    (x : Fin n → ℝ) (cov : Matrix (Fin n) (Fin n) ℝ) {u : DVec} (hu : u.size = m) (dt : T) (back : Sys NonlinSysData X → Z) :
    ∃ s' p, ∃ (x' : Fin n → ℝ) (G : Matrix (Fin n) (Fin n) ℝ) (W : Matrix (Fin n) (Fin p) ℝ)
      (V : Matrix (Fin n) (Fin m) ℝ) (Rp : Matrix (Fin p) (Fin p) ℝ) (Rc : Matrix (Fin m) (Fin m) ℝ)
      (cov' : Matrix (Fin n) (Fin n) ℝ),
      ekfvsPredict sc s (.of x) (.of cov) u dt back = some (.of x', .of cov', back s') ∧
      sc.myUpdate s (.of x) u dt = some s' ∧ s'.Sized NonlinSysData.Sized n m ∧ s.SameConfig s' ∧
      s'.der = ⟨.of x', .of G⟩ ∧ s'.P = .of W ∧ s'.V = .of V ∧ s.Rp = .of Rp ∧ s.Rc = .of Rc ∧
      OverwritesMat σ σ (subPropagate σ τ G cov W Rp V Rc) cov cov' := by
  obtain ⟨s', e1, hs', hc⟩ := hs.update hsc (x := .of x) (u := u) rfl hu dt
  have e1' : sc.myUpdate s (.of x) u dt = some s' := by
    unfold Sys.update at e1
    rwa [if_pos ⟨hs.states.symm, by rw [hs.controls]; exact hu⟩] at e1
  obtain ⟨x', hx'⟩ := s'.der.g.exists_of hs'.der.1
  obtain ⟨A, hA⟩ := hs'.der.2.exists_of
  obtain ⟨p, W, Rp, V, Rc, hW, hRp, hV, hRc⟩ := hs'.noise
  have hσ' : Selects s'.activeStates σ := by
    show Selects s'.fm.activeStates σ
    rw [hc.fm]; exact hσ
  have hτ' : Selects s'.activeControls τ := by rw [hc.activeControls]; exact hτ
  obtain ⟨cov', hcov, hcov2⟩ := convertSubsetToFullSq_of hσ' (subPropagate σ τ A cov W Rp V Rc) cov
  refine ⟨s', p, x', A, W, V, Rp, Rc, cov', ?_, e1', hs', hc, by rw [← hA, ← hx'], hW, hV, by rw [← hc.Rp]; exact hRp,
    by rw [← hc.Rc]; exact hRc, hcov2⟩
  unfold ekfvsPredict
  simp only [Option.bind_eq_bind, e1, Option.bind_some, hA, hx', hW, hRp, hV, hRc,
    getSubsetSq_of hσ', getSubsetSq_of hτ', getSubset2_of hσ' hτ', getSubset2_of hσ' selects_nil,
    propagateCov_of, hcov]

theorem ekfvsCorrect_of (hsc : SysContract NonlinSysData.Sized sc) (hmc : MeasContract NonlinMeasData.Sized mc)
    {s : Sys NonlinSysData X}
    (hs : s.Sized NonlinSysData.Sized n m) {me : Meas NonlinMeasData Y} (hm : me.Sized NonlinMeasData.Sized n k)
    {σ : Fin ns → Fin n} (hσ : Selects s.activeStates σ) {ρ : Fin ks → Fin k} (hρ : Selects me.activeMeasurements ρ)
    (x : Fin n → ℝ) (cov : Matrix (Fin n) (Fin n) ℝ) (hcov : (cov.submatrix σ σ).PosSemidef)
    {R : Matrix (Fin k) (Fin k) ℝ} (hR : me.cov = .of R) (hRp : (R.submatrix ρ ρ).PosDef)
    (z : Fin k → ℝ) (dt : T) (back : Meas NonlinMeasData Y → Z) :
    ∃ m', ∃ (zh : Fin k → ℝ) (H : Matrix (Fin k) (Fin n) ℝ) (dz : Fin k → ℝ) (dx x' : Fin n → ℝ) (cov' : Matrix (Fin n) (Fin n) ℝ),
      ekfvsCorrect sc mc s me (.of x) (.of cov) (.of z) dt back = some (.of x', .of cov', back m') ∧
      mc.myUpdate me (.of x) dt = some m' ∧ m'.Sized NonlinMeasData.Sized n k ∧ me.SameConfig m' ∧
      m'.der = ⟨.of zh, .of H⟩ ∧
      mc.sub m' (.of z) (.of zh) = some (.of dz) ∧
      OverwritesVec σ (gain (cov.submatrix σ σ) (H.submatrix ρ σ) (R.submatrix ρ ρ) *ᵥ (dz ∘ ρ)) 0 dx ∧
      sc.add s (.of x) (.of dx) = some (.of x') ∧
      OverwritesMat σ σ (post (cov.submatrix σ σ) (H.submatrix ρ σ) (R.submatrix ρ ρ)) cov cov' := by
  obtain ⟨m', e1, hm', hc⟩ := hm.update hmc (x := .of x) rfl dt
  have e1' : mc.myUpdate me (.of x) dt = some m' := by
    unfold Meas.update at e1
    rwa [if_pos hm.states.symm] at e1
  obtain ⟨zh, hzh⟩ := m'.der.h.exists_of hm'.der.1
  obtain ⟨C, hC⟩ := hm'.der.2.exists_of
  have hρ' : Selects m'.activeMeasurements ρ := by rw [hc.activeMeasurements]; exact hρ
  have hR' : m'.cov = .of R := by rw [hc.cov]; exact hR
  obtain ⟨dz, hdz, hdz2⟩ := hmc.sub m' (.of z) (.of zh) hm' rfl rfl
  obtain ⟨dz, rfl⟩ := dz.exists_of hdz2
  obtain ⟨dx, hdx, hdx2⟩ := convertSubsetToFullZeroed_of hσ
    (gain (cov.submatrix σ σ) (C.submatrix ρ σ) (R.submatrix ρ ρ) *ᵥ (dz ∘ ρ))
  obtain ⟨r, hr, hr2⟩ := hsc.add s (.of x) (.of dx) hs rfl rfl
  obtain ⟨r, rfl⟩ := r.exists_of hr2
  obtain ⟨cov', hcov', hcov2⟩ := convertSubsetToFullSq_of hσ
    (post (cov.submatrix σ σ) (C.submatrix ρ σ) (R.submatrix ρ ρ)) cov
  refine ⟨m', zh, C, dz, dx, r, cov', ?_, e1', hm', hc, by rw [← hzh, ← hC], hdz, hdx2, hr, hcov2⟩
  unfold ekfvsCorrect
  have hst : s.stateSize = n := hs.states
  have hS := pd_isUnit_det (innov_pd hcov (C.submatrix ρ σ) hRp)
  simp only [Option.bind_eq_bind, e1, Option.bind_some, hC, hzh, hR', getSubset_of hρ',
    getSubsetSq_of hσ, getSubsetSq_of hρ', getSubset2_of hρ' hσ, kalmanGain_of _ _ _ hS, DMat.mulVec_of, hdz, hst, hdx, hr,
    DMat.of_rows, shrinkCov_of]
  have : (1 - gain (cov.submatrix σ σ) (C.submatrix ρ σ) (R.submatrix ρ ρ) * C.submatrix ρ σ) * cov.submatrix σ σ
    = post (cov.submatrix σ σ) (C.submatrix ρ σ) (R.submatrix ρ ρ) := rfl
  rw [this, hcov']
  rfl

end EKF

end StateEstimation
