import Verif.Lemmas.VSSteps
import Verif.Lemmas.UKFApi

/-! # One step of the variable-state UKF, in terms of Mathlib matrices -/

set_option linter.unusedSectionVars false

namespace StateEstimation

open Matrix Kalman Sigma

variable {T X Y Z : Type} {n m k ns ms ks : Nat}

theorem spread_overwrites {σ : Fin ns → Fin n} (hσ : Function.Injective σ) (v : Fin ns → ℝ) :
    OverwritesVec σ v 0 (spread σ v) where
  selected i := by
    unfold spread
    rw [Finset.sum_eq_single i]
    · rw [if_pos rfl]
    · intro j _ hj; rw [if_neg fun h => hj (hσ h)]
    · intro h; exact absurd (Finset.mem_univ i) h
  others a h := by
    unfold spread
    exact Finset.sum_eq_zero fun j _ => if_neg (h j)

/-- every iteration overwrites the same positions -/
theorem overwrites_spread {σ : Fin ns → Fin n} (hσ : Function.Injective σ) {v : Fin ns → ℝ} {f g : Fin n → ℝ}
    (hf : ∀ a, (∀ i, σ i ≠ a) → f a = 0) (h : OverwritesVec σ v f g) : g = spread σ v := by
  have h' : OverwritesVec σ v 0 g := ⟨h.selected, fun a ha => by rw [h.others a ha, hf a ha]; rfl⟩
  exact h'.eq (spread_overwrites hσ v)

theorem spread_others {σ : Fin ns → Fin n} (v : Fin ns → ℝ) (a : Fin n) (h : ∀ i, σ i ≠ a) : spread σ v a = 0 := by
  unfold spread
  exact Finset.sum_eq_zero fun j _ => if_neg (h j)

theorem spread_comp {σ : Fin ns → Fin n} (hσ : Function.Injective σ) (v : Fin ns → ℝ) : spread σ v ∘ σ = v := by
  funext i; exact (spread_overwrites hσ v).selected i

theorem zeroed_spread {l : List Nat} {σ : Fin ns → Fin n} (hσ : Selects l σ) (v : Fin ns → ℝ) :
    convertSubsetToFullZeroed (.of v) l n = some (.of (spread σ v)) := by
  obtain ⟨a, ha, ha2⟩ := convertSubsetToFullZeroed_of hσ v
  rw [ha, overwrites_spread hσ.inj (fun _ _ => rfl) ha2]

theorem convert_spread {l : List Nat} {σ : Fin ns → Fin n} (hσ : Selects l σ) (v : Fin ns → ℝ) {full : Fin n → ℝ}
    (hf : ∀ a, (∀ i, σ i ≠ a) → full a = 0) : convertSubsetToFull (.of v) (.of full) l = some (.of (spread σ v)) := by
  obtain ⟨a, ha, ha2⟩ := convertSubsetToFull_of hσ v full
  rw [ha, overwrites_spread hσ.inj hf ha2]

theorem Sys.Sized.active {D X : Type} {dz : Nat → Nat → D → Prop} {s : Sys D X} (hs : s.Sized dz n m) {σ : Fin ns → Fin n}
    (hσ : Selects s.activeStates σ) : s.activeStateSize = ns := by
  have := hσ.mapSize
  unfold mapSize at this
  unfold Sys.activeStateSize FilterModel.activeStateSize
  have h2 : s.fm.stateDims = n := hs.states
  rw [h2]
  exact this

theorem Meas.Sized.active {D X : Type} {dz : Nat → Nat → D → Prop} {s : Meas D X} (hs : s.Sized dz n k) {ρ : Fin ks → Fin k}
    (hρ : Selects s.activeMeasurements ρ) : s.activeMeasurementSize = ks := by
  have := hρ.mapSize
  unfold mapSize at this
  unfold Meas.activeMeasurementSize
  rw [hs.meas]
  exact this

section Predict
variable {sc : SysClass T NonlinSysData X} (hsc : SysContract NonlinSysData.Sized sc) (hso : sc.PlainOps)

include hsc hso in
theorem ukfvsPredictLoop_of (s0 : Sys NonlinSysData X) {σ : Fin ns → Fin n} (hσ : Selects s0.activeStates σ)
    (L : Matrix (Fin ns) (Fin ns) ℝ) (x : Fin n → ℝ) {u : DVec} (hu : u.size = m)
    (dt : T) : ∀ (fuel i : Nat) (off : Fin n → ℝ) (s : Sys NonlinSysData X) (y : Nat → Fin n → ℝ), i + fuel = ns →
    s.Sized NonlinSysData.Sized n m → s0.SameConfig s → (∀ a, (∀ j, σ j ≠ a) → off a = 0) →
    ∃ s' y', ukfvsPredictLoop sc (.of L) (.of x) u dt ns fuel i (.of off) s (ptsOf (2 * ns + 1) y)
        = some (s', ptsOf (2 * ns + 1) y') ∧
      s'.Sized NonlinSysData.Sized n m ∧ s0.SameConfig s' ∧
      (∀ j, j ≤ i ∨ (ns < j ∧ j ≤ ns + i) → y' j = y j) ∧
      (∀ j, i ≤ j → j < ns → SysImage sc n m s0 (.of (x + spread σ (colsOf L j))) u dt (y' (j + 1)) ∧
        SysImage sc n m s0 (.of (x - spread σ (colsOf L j))) u dt (y' (j + 1 + ns))) ∧
      (fuel = 0 ∧ s' = s ∨ 0 < fuel ∧ s0.UpdatedAt sc n m (.of (x - spread σ (colsOf L (ns - 1)))) u dt s') := by
  intro fuel
  induction fuel with
  | zero =>
    intro i off s y hi hs h0 hoff
    exact ⟨s, y, rfl, hs, h0, fun _ _ => rfl, fun j h1 h2 => by omega, Or.inl ⟨rfl, rfl⟩⟩
  | succ fuel ih =>
    intro i off s y hi hs h0 hoff
    obtain ⟨s1, y1, e1, hs1, hc1, hu1, hg1⟩ := hs.update' hsc h0 (x + spread σ (colsOf L i)) hu dt
    obtain ⟨s2, y2, e2, hs2, hc2, hu2, hg2⟩ := hs1.update' hsc hc1 (x - spread σ (colsOf L i)) hu dt
    obtain ⟨s', y', e3, hs', hc', hy, him, hlast⟩ := ih (i + 1) (spread σ (colsOf L i)) s2
      (Function.update (Function.update y (i + 1) y1) (i + 1 + ns) y2) (by omega) hs2 hc2 (spread_others _)
    have hσ' : Selects s.activeStates σ := by
      show Selects s.fm.activeStates σ
      rw [h0.fm]; exact hσ
    refine ⟨s', y', ?_, hs', hc', ?_, ?_, Or.inr ⟨by omega, ?_⟩⟩
    · unfold ukfvsPredictLoop
      simp only [Option.bind_eq_bind, col_of L (show i < ns by omega), Option.bind_some, convert_spread hσ' _ hoff,
        hso.add, hso.sub, DVec.add_of,
        DVec.sub_of, e1, hg1, setCol_pts y (show i + 1 < 2 * ns + 1 by omega), e2, hg2,
        setCol_pts (Function.update y (i + 1) y1) (show i + 1 + ns < 2 * ns + 1 by omega)]
      exact e3
    · intro j hj
      rw [hy j (by omega), Function.update_of_ne (by omega), Function.update_of_ne (by omega)]
    · intro j h1 h2
      by_cases hj : j = i
      · subst hj
        rw [hy (j + 1) (by omega), hy (j + 1 + ns) (by omega), Function.update_self, Function.update_of_ne (by omega),
          Function.update_self]
        exact ⟨⟨s1, hu1, hg1⟩, ⟨s2, hu2, hg2⟩⟩
      · exact him j (by omega) h2
    · rcases hlast with ⟨rfl, rfl⟩ | ⟨_, h⟩
      · rw [show ns - 1 = i by omega]; exact hu2
      · exact h

/-- What a UKFVS prediction computes (`sp` for `2 ns + 1` points, default vector operations). -/
theorem ukfvsPredict_of (hsc : SysContract NonlinSysData.Sized sc) (hso : sc.PlainOps)
    {llt : DMat → Option DMat} (junk : Nat → Nat → ℝ) {s : Sys NonlinSysData X}
    (hs : s.Sized NonlinSysData.Sized n m) {σ : Fin ns → Fin n} (hσ : Selects s.activeStates σ)
    {τ : Fin ms → Fin m} (hτ : Selects s.activeControls τ) {lam d : ℝ} {L : Matrix (Fin ns) (Fin ns) ℝ}
    {cov : Matrix (Fin n) (Fin n) ℝ}
    (hL : llt (.of (((ns : ℝ) + lam) • cov.submatrix σ σ)) = some (.of L)) (x : Fin n → ℝ) {u : DVec} (hu : u.size = m) (dt : T)
    (back : Sys NonlinSysData X → Z) :
    ∃ s' p, ∃ (y : Nat → Fin n → ℝ) (W : Matrix (Fin n) (Fin p) ℝ) (V : Matrix (Fin n) (Fin m) ℝ) (Rp : Matrix (Fin p) (Fin p) ℝ)
      (Rc : Matrix (Fin m) (Fin m) ℝ) (cov' : Matrix (Fin n) (Fin n) ℝ),
      ukfvsPredict llt junk sc ⟨2 * ns + 1, lam, .of (fun j : Fin (2 * ns + 1) => wm ns lam j),
        .of (fun j : Fin (2 * ns + 1) => wc ns lam d j)⟩ s (.of x) (.of cov) u dt back
        = some (.of (mean ns lam y), .of cov', back s') ∧
      OverwritesMat σ σ (W.submatrix σ id * Rp * (W.submatrix σ id)ᵀ + V.submatrix σ τ * Rc.submatrix τ τ * (V.submatrix σ τ)ᵀ
        + cross ns lam d (fun j => y j ∘ σ) (fun j => y j ∘ σ) (mean ns lam y ∘ σ) (mean ns lam y ∘ σ)) cov cov' ∧
      s'.Sized NonlinSysData.Sized n m ∧ s.SameConfig s' ∧
      SysImage sc n m s (.of x) u dt (y 0) ∧
      (∀ i < ns, SysImage sc n m s (.of (x + spread σ (colsOf L i))) u dt (y (i + 1)) ∧
        SysImage sc n m s (.of (x - spread σ (colsOf L i))) u dt (y (i + 1 + ns))) ∧
      (ns = 0 ∧ s.UpdatedAt sc n m (.of x) u dt s' ∨
        0 < ns ∧ s.UpdatedAt sc n m (.of (x - spread σ (colsOf L (ns - 1)))) u dt s') ∧
      s'.P = .of W ∧ s'.V = .of V ∧ s.Rp = .of Rp ∧ s.Rc = .of Rc := by
  obtain ⟨s1, y1, e1, hs1, hc1, hu1, hg1⟩ := hs.update' hsc (Sys.SameConfig.refl s) x hu dt
  obtain ⟨s', y, e2, hs', hc', hy, him, hlast⟩ := ukfvsPredictLoop_of hsc hso s hσ L x hu dt ns 0 0 s1
    (Function.update (fun j (a : Fin n) => junk a j) 0 y1) (by omega) hs1 hc1 (fun _ _ => rfl)
  obtain ⟨p, W, Rp, V, Rc, hW, hRp, hV, hRc⟩ := hs'.noise
  have hσ' : Selects s'.activeStates σ := by
    show Selects s'.fm.activeStates σ
    rw [hc'.fm]; exact hσ
  have hτ' : Selects s'.activeControls τ := by rw [hc'.activeControls]; exact hτ
  obtain ⟨cov', hcov, hcov2⟩ := convertSubsetToFullSq_of hσ' (W.submatrix σ id * Rp * (W.submatrix σ id)ᵀ
    + V.submatrix σ τ * Rc.submatrix τ τ * (V.submatrix σ τ)ᵀ
    + cross ns lam d (fun j => y j ∘ σ) (fun j => y j ∘ σ) (mean ns lam y ∘ σ) (mean ns lam y ∘ σ)) cov
  refine ⟨s', p, y, W, V, Rp, Rc, cov', ?_, hcov2, hs', hc', ?_, fun i hi => him i (by omega) hi, ?_, hW, hV, hc'.Rp ▸ hRp,
    hc'.Rc ▸ hRc⟩
  · unfold ukfvsPredict
    have hst : s.stateSize = n := hs.states
    have hst1 : s1.stateSize = n := hs1.states
    dsimp only
    refine bind_step (getSubset2_of hσ hσ cov) ?_
    rw [hs.active hσ, DMat.smul_of]
    refine bind_step hL ?_
    refine bind_step e1 ?_
    rw [hst, uninit_pts, hg1]
    refine bind_step (setCol_pts _ (show 0 < 2 * ns + 1 by omega) _) ?_
    rw [hst1]
    refine bind_step e2 ?_
    dsimp only
    refine bind_step (a := .of (mean ns lam y)) (by rw [hso.wsum]; exact weightedSum_pts _ _) ?_
    refine bind_step (by rw [hRc]; exact getSubsetSq_of hτ' Rc) ?_
    refine bind_step (by rw [hW]; exact getSubset2_of hσ' selects_nil W) ?_
    refine bind_step (by rw [hV]; exact getSubset2_of hσ' hτ' V) ?_
    refine bind_step (by rw [hRp]; exact noiseCov_of _ _ _ _) ?_
    refine bind_step (covLoop_of' (wc ns lam d) _ (fun i => y i ∘ σ - mean ns lam y ∘ σ) (fun i => y i ∘ σ - mean ns lam y ∘ σ) ?_ _) ?_
    · intro i hi
      refine bind_step (col_pts y hi) ?_
      refine bind_step (by rw [hso.sub]; exact DVec.sub_of _ _) ?_
      exact bind_step (getSubset_of hσ' _) rfl
    · exact bind_step hcov rfl
  · rw [hy 0 (by omega), Function.update_self]
    exact ⟨s1, hu1, hg1⟩
  · rcases hlast with ⟨h, rfl⟩ | ⟨h1, h2⟩
    · exact Or.inl ⟨h, hu1⟩
    · exact Or.inr ⟨h1, h2⟩

end Predict

section Correct
variable {sc : SysClass T NonlinSysData X} (hso : sc.PlainOps)
  {mc : MeasClass T NonlinMeasData Y} (hmc : MeasContract NonlinMeasData.Sized mc)

include hso hmc in
theorem ukfvsCorrectLoop_of {s : Sys NonlinSysData X} (hs : s.Sized NonlinSysData.Sized n m)
    {σ : Fin ns → Fin n} (hσ : Selects s.activeStates σ) (m0 : Meas NonlinMeasData Y)
    (L : Matrix (Fin ns) (Fin ns) ℝ) (x : Fin n → ℝ)
    (dt : T) : ∀ (fuel i : Nat) (off : Fin n → ℝ) (ms : Meas NonlinMeasData Y) (q : Nat → Fin n → ℝ) (y : Nat → Fin k → ℝ),
    i + fuel = ns → ms.Sized NonlinMeasData.Sized n k → m0.SameConfig ms → (∀ a, (∀ j, σ j ≠ a) → off a = 0) →
    ∃ ms' q' y', ukfvsCorrectLoop sc mc s (.of L) (.of x) dt fuel i (.of off) ms (ptsOf (2 * ns + 1) q) (ptsOf (2 * ns + 1) y)
        = some (ms', ptsOf (2 * ns + 1) q', ptsOf (2 * ns + 1) y') ∧
      ms'.Sized NonlinMeasData.Sized n k ∧ m0.SameConfig ms' ∧
      (∀ j, j ≤ i ∨ (ns < j ∧ j ≤ ns + i) → q' j = q j ∧ y' j = y j) ∧
      (∀ j, i ≤ j → j < ns → q' (j + 1) = x + spread σ (colsOf L j) ∧ q' (j + 1 + ns) = x - spread σ (colsOf L j) ∧
        MeasImage mc n k m0 (.of (x + spread σ (colsOf L j))) dt (y' (j + 1)) ∧
        MeasImage mc n k m0 (.of (x - spread σ (colsOf L j))) dt (y' (j + 1 + ns))) := by
  intro fuel
  induction fuel with
  | zero =>
    intro i off ms q y hi hms h0 _
    exact ⟨ms, q, y, rfl, hms, h0, fun _ _ => ⟨rfl, rfl⟩, fun j h1 h2 => by omega⟩
  | succ fuel ih =>
    intro i off ms q y hi hms h0 hoff
    obtain ⟨s1, y1, e1, hs1, hc1, hu1, hg1⟩ := hms.update' hmc h0 (x + spread σ (colsOf L i)) dt
    obtain ⟨s2, y2, e2, hs2, hc2, hu2, hg2⟩ := hs1.update' hmc hc1 (x - spread σ (colsOf L i)) dt
    obtain ⟨s', q', y', e3, hs', hc', hy, him⟩ := ih (i + 1) (spread σ (colsOf L i)) s2
      (Function.update (Function.update q (i + 1) (x + spread σ (colsOf L i))) (i + 1 + ns) (x - spread σ (colsOf L i)))
      (Function.update (Function.update y (i + 1) y1) (i + 1 + ns) y2) (by omega) hs2 hc2 (spread_others _)
    refine ⟨s', q', y', ?_, hs', hc', ?_, ?_⟩
    · unfold ukfvsCorrectLoop
      simp only [Option.bind_eq_bind, col_of L (show i < ns by omega), Option.bind_some, convert_spread hσ _ hoff,
        hso.add, hso.sub, DVec.add_of,
        DVec.sub_of, setCol_pts _ (show i + 1 < 2 * ns + 1 by omega), col_pts _ (show i + 1 < 2 * ns + 1 by omega),
        Function.update_self, e1, hg1, e2, hg2, hs.active hσ,
        setCol_pts _ (show i + 1 + ns < 2 * ns + 1 by omega), col_pts _ (show i + 1 + ns < 2 * ns + 1 by omega)]
      exact e3
    · intro j hj
      obtain ⟨h1, h2⟩ := hy j (by omega)
      rw [h1, h2]
      simp only [Function.update_of_ne (show j ≠ i + 1 + ns by omega), Function.update_of_ne (show j ≠ i + 1 by omega)]
      exact ⟨trivial, trivial⟩
    · intro j h1 h2
      by_cases hj : j = i
      · subst hj
        obtain ⟨a1, a2⟩ := hy (j + 1) (by omega)
        obtain ⟨b1, b2⟩ := hy (j + 1 + ns) (by omega)
        rw [a1, a2, b1, b2]
        simp only [Function.update_self, Function.update_of_ne (show j + 1 ≠ j + 1 + ns by omega)]
        exact ⟨trivial, trivial, ⟨s1, hu1, hg1⟩, ⟨s2, hu2, hg2⟩⟩
      · exact him j (by omega) h2

/-- What a UKFVS correction computes (`sp` for `2 ns + 1` points, default vector operations). -/
theorem ukfvsCorrect_of (hso : sc.PlainOps) (hmc : MeasContract NonlinMeasData.Sized mc) (hmo : mc.PlainOps)
    {llt : DMat → Option DMat} (junk : Nat → Nat → ℝ) {s : Sys NonlinSysData X}
    (hs : s.Sized NonlinSysData.Sized n m) {ms : Meas NonlinMeasData Y} (hms : ms.Sized NonlinMeasData.Sized n k)
    {σ : Fin ns → Fin n} (hσ : Selects s.activeStates σ) {ρ : Fin ks → Fin k} (hρ : Selects ms.activeMeasurements ρ)
    {lam d : ℝ} {L : Matrix (Fin ns) (Fin ns) ℝ} {cov : Matrix (Fin n) (Fin n) ℝ}
    (hL : llt (.of (((ns : ℝ) + lam) • cov.submatrix σ σ)) = some (.of L)) (x : Fin n → ℝ) (z : Fin k → ℝ) (dt : T)
    (back : Meas NonlinMeasData Y → Z) :
    ∃ ms', ∃ (q : Nat → Fin n → ℝ) (y : Nat → Fin k → ℝ) (R : Matrix (Fin k) (Fin k) ℝ) (S : Matrix (Fin ks) (Fin ks) ℝ)
      (D G : Matrix (Fin ns) (Fin ks) ℝ),
      ms'.Sized NonlinMeasData.Sized n k ∧ ms.SameConfig ms' ∧ ms.cov = .of R ∧
      q 0 = x ∧ (∀ i < ns, q (i + 1) = x + spread σ (colsOf L i) ∧ q (i + 1 + ns) = x - spread σ (colsOf L i)) ∧
      MeasImage mc n k ms (.of x) dt (y 0) ∧
      (∀ i < ns, MeasImage mc n k ms (.of (x + spread σ (colsOf L i))) dt (y (i + 1)) ∧
        MeasImage mc n k ms (.of (x - spread σ (colsOf L i))) dt (y (i + 1 + ns))) ∧
      S = R.submatrix ρ ρ + cross ns lam d (fun j => y j ∘ ρ) (fun j => y j ∘ ρ) (mean ns lam y ∘ ρ) (mean ns lam y ∘ ρ) ∧
      D = cross ns lam d (fun j => q j ∘ σ) (fun j => y j ∘ ρ) (x ∘ σ) (mean ns lam y ∘ ρ) ∧
      G = D * S⁻¹ ∧
      (IsUnit S.det → ∃ cov' : Matrix (Fin n) (Fin n) ℝ,
        ukfvsCorrect llt junk sc mc ⟨2 * ns + 1, lam, .of (fun j : Fin (2 * ns + 1) => wm ns lam j),
          .of (fun j : Fin (2 * ns + 1) => wc ns lam d j)⟩ s ms (.of x) (.of cov) (.of z) dt back
          = some (.of (x + spread σ (G *ᵥ ((z - mean ns lam y) ∘ ρ))), .of cov', back ms') ∧
        OverwritesMat σ σ (cov.submatrix σ σ - G * S * Gᵀ) cov cov') := by
  obtain ⟨s1, y1, e1, hs1, hc1, hu1, hg1⟩ := hms.update' hmc (Meas.SameConfig.refl ms) x dt
  obtain ⟨ms', q, y, e2, hs', hc', hy, him⟩ := ukfvsCorrectLoop_of hso hmc hs hσ ms L x dt ns 0 0 s1
    (Function.update (fun j (a : Fin n) => junk a j) 0 x) (Function.update (fun j (a : Fin k) => junk a j) 0 y1)
    (by omega) hs1 hc1 (fun _ _ => rfl)
  obtain ⟨R, hR⟩ := hs'.cov.exists_of
  have h0 := hy 0 (by omega)
  simp only [Function.update_self] at h0
  have hρ' : Selects ms'.activeMeasurements ρ := by rw [hc'.activeMeasurements]; exact hρ
  refine ⟨ms', q, y, R, _, _, _, hs', hc', hc'.cov ▸ hR, h0.1, fun i hi => ⟨(him i (by omega) hi).1, (him i (by omega) hi).2.1⟩,
    ?_, fun i hi => (him i (by omega) hi).2.2, rfl, rfl, rfl, ?_⟩
  · rw [h0.2]; exact ⟨s1, hu1, hg1⟩
  · generalize hS0 : R.submatrix ρ ρ + cross ns lam d (fun j => y j ∘ ρ) (fun j => y j ∘ ρ) (mean ns lam y ∘ ρ) (mean ns lam y ∘ ρ) = S
    generalize hD0 : cross ns lam d (fun j => q j ∘ σ) (fun j => y j ∘ ρ) (x ∘ σ) (mean ns lam y ∘ ρ) = D
    intro hdet
    obtain ⟨cov', hcov, hcov2⟩ := convertSubsetToFullSq_of hσ (cov.submatrix σ σ - D * S⁻¹ * S * (D * S⁻¹)ᵀ) cov
    refine ⟨cov', ?_, hcov2⟩
    unfold ukfvsCorrect
    have hst : s.stateSize = n := hs.states
    have hme : ms.measurementSize = k := hms.meas
    dsimp only
    refine bind_step (getSubsetSq_of hσ cov) ?_
    rw [hs.active hσ, DMat.smul_of]
    refine bind_step hL ?_
    rw [hst, hme, uninit_pts, uninit_pts]
    refine bind_step (setCol_pts _ (show 0 < 2 * ns + 1 by omega) _) ?_
    refine bind_step e1 ?_
    rw [hg1]
    refine bind_step (setCol_pts _ (show 0 < 2 * ns + 1 by omega) _) ?_
    refine bind_step e2 ?_
    dsimp only
    refine bind_step (a := .of (mean ns lam y)) (by rw [hmo.wsum]; exact weightedSum_pts _ _) ?_
    refine bind_step (by rw [hR]; exact getSubsetSq_of hρ' R) ?_
    have hS := covLoop_of' (N := 2 * ns + 1) (wc ns lam d) (fun i => ((ptsOf (2 * ns + 1) y).col? i).bind fun c =>
        (mc.sub ms' c (.of (mean ns lam y))).bind fun dz => (getSubset dz ms'.activeMeasurements).bind fun dzS => some (dzS, dzS))
        (fun i => y i ∘ ρ - mean ns lam y ∘ ρ) (fun i => y i ∘ ρ - mean ns lam y ∘ ρ) (by
          intro i hi
          simp only [col_pts y hi, Option.bind_some, hmo.sub, DVec.sub_of, getSubset_of hρ']
          rfl) (R.submatrix ρ ρ)
    have hX := covLoop_of' (N := 2 * ns + 1) (wc ns lam d) (fun i => ((ptsOf (2 * ns + 1) q).col? i).bind fun p =>
        ((ptsOf (2 * ns + 1) q).col? 0).bind fun p0 => (sc.sub s p p0).bind fun dx =>
        (getSubset dx s.activeStates).bind fun dxS =>
        ((ptsOf (2 * ns + 1) y).col? i).bind fun c =>
        (mc.sub ms' c (.of (mean ns lam y))).bind fun dz => (getSubset dz ms'.activeMeasurements).bind fun dzS => some (dxS, dzS))
        (fun i => q i ∘ σ - q 0 ∘ σ) (fun i => y i ∘ ρ - mean ns lam y ∘ ρ) (by
          intro i hi
          simp only [col_pts _ hi, col_pts _ (show 0 < 2 * ns + 1 by omega), Option.bind_some, hmo.sub, hso.sub, DVec.sub_of,
            getSubset_of hρ', getSubset_of hσ]
          rfl) 0
    rw [zero_add, h0.1] at hX
    change covLoop _ _ _ _ _ = some (.of (R.submatrix ρ ρ + cross ns lam d (fun j => y j ∘ ρ) (fun j => y j ∘ ρ) (mean ns lam y ∘ ρ) (mean ns lam y ∘ ρ))) at hS
    change covLoop _ _ _ _ _ = some (.of (cross ns lam d (fun j => q j ∘ σ) (fun j => y j ∘ ρ) (x ∘ σ) (mean ns lam y ∘ ρ))) at hX
    rw [hS0] at hS
    rw [hD0] at hX
    refine bind_step hS ?_
    rw [hs'.active hρ', DMat.zero_of]
    refine bind_step hX ?_
    refine bind_step (DMat.inverse_of _ hdet) ?_
    refine bind_step (DMat.mul_of _ _) ?_
    refine bind_step (by rw [hmo.sub]; exact DVec.sub_of _ _) ?_
    refine bind_step (getSubset_of hρ' _) ?_
    refine bind_step (DMat.mulVec_of _ _) ?_
    refine bind_step (zeroed_spread hσ _) ?_
    refine bind_step (by rw [hso.add]; exact DVec.add_of _ _) ?_
    refine bind_step (DMat.mul_of _ _) ?_
    rw [DMat.transpose_of]
    refine bind_step (DMat.mul_of _ _) ?_
    refine bind_step (DMat.sub_of _ _) ?_
    exact bind_step hcov rfl

end Correct

end StateEstimation
