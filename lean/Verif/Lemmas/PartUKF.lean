import Verif.Lemmas.Part

/-!
# The sigma points of some of the states
-/

set_option linter.unusedSectionVars false

namespace StateEstimation

open Matrix Filter Kalman Sigma

variable {T K X X' Y Y' : Type} {n ns m ms k ks : Nat} {σ : Fin ns → Fin n} {τ : Fin ms → Fin m} {ρ : Fin ks → Fin k}

theorem mean_part {ι ι' : Type} {N : Nat} {lam : ℝ} {y : Nat → ι → ℝ} {y' : Nat → ι' → ℝ} {f : ι' → ι}
    (h : ∀ j < 2 * N + 1, y' j = y j ∘ f) : mean N lam y' = mean N lam y ∘ f := by
  rw [mean_comp]
  unfold mean
  exact Finset.sum_congr rfl fun j hj => by rw [h j (Finset.mem_range.mp hj)]

theorem cross_congr {ι κ : Type} {N : Nat} {lam d : ℝ} {x x' : Nat → ι → ℝ} {y y' : Nat → κ → ℝ} {a : ι → ℝ} {b : κ → ℝ}
    (hx : ∀ j < 2 * N + 1, x' j = x j) (hy : ∀ j < 2 * N + 1, y' j = y j) : cross N lam d x' y' a b = cross N lam d x y a b := by
  unfold cross
  exact Finset.sum_congr rfl fun j hj => by rw [hx j (Finset.mem_range.mp hj), hy j (Finset.mem_range.mp hj)]

section Predict
variable {sc : SysClass T NonlinSysData X} {sc' : SysClass T NonlinSysData X'}

theorem Part.update (hsc : SysContract NonlinSysData.Sized sc) (hsc' : SysContract NonlinSysData.Sized sc')
    (ha : sc.HasPart NonlinSysData.Sized σ τ (NonlinSysData.Part σ) sc') {s : Sys NonlinSysData X} {s' : Sys NonlinSysData X'}
    (hs : s.Sized NonlinSysData.Sized n m) (hs' : s'.Sized NonlinSysData.Sized ns ms) (hp : s.Part σ τ (NonlinSysData.Part σ) s')
    (x : Fin n → ℝ) (w : Fin m → ℝ) (dt : T) :
    ∃ (r : Sys NonlinSysData X) (r' : Sys NonlinSysData X') (y : Fin n → ℝ), s.update sc (.of x) (.of w) dt = some r ∧
      s'.update sc' (.of (x ∘ σ)) (.of (w ∘ τ)) dt = some r' ∧ r.Sized NonlinSysData.Sized n m ∧ r'.Sized NonlinSysData.Sized ns ms ∧
      s.SameConfig r ∧ s'.SameConfig r' ∧ r.Part σ τ (NonlinSysData.Part σ) r' ∧ r.der.g = .of y ∧ r'.der.g = .of (y ∘ σ) := by
  obtain ⟨r, h1, h2, h3⟩ := hsc.update s (.of x) (.of w) dt hs rfl rfl
  obtain ⟨r', h1', h2', h3'⟩ := hsc'.update s' (.of (x ∘ σ)) (.of (w ∘ τ)) dt hs' rfl rfl
  have hq := ha.update _ _ _ _ _ _ _ _ _ hs hs' hp ⟨x, rfl, rfl⟩ ⟨w, rfl, rfl⟩ h1 h1'
  obtain ⟨y, hy, hy'⟩ := hq.der.1
  refine ⟨r, r', y, ?_, ?_, h2, h2', h3, h3', hq, hy, hy'⟩
  · unfold Sys.update
    rw [if_pos ⟨hs.states.symm, hs.controls.symm⟩]; exact h1
  · unfold Sys.update
    rw [if_pos ⟨hs'.states.symm, hs'.controls.symm⟩]; exact h1'

theorem plus_spread (hσ : Function.Injective σ) (x : Fin n → ℝ) (c : Fin ns → ℝ) : (x + spread σ c) ∘ σ = x ∘ σ + c := by
  funext a
  exact congrArg (x (σ a) + ·) (congrFun (spread_comp hσ c) a)

theorem minus_spread (hσ : Function.Injective σ) (x : Fin n → ℝ) (c : Fin ns → ℝ) : (x - spread σ c) ∘ σ = x ∘ σ - c := by
  funext a
  exact congrArg (x (σ a) - ·) (congrFun (spread_comp hσ c) a)

theorem Part.predictLoop (hsc : SysContract NonlinSysData.Sized sc) (hsc' : SysContract NonlinSysData.Sized sc')
    (ha : sc.HasPart NonlinSysData.Sized σ τ (NonlinSysData.Part σ) sc') (s0 : Sys NonlinSysData X) (s0' : Sys NonlinSysData X')
    (hσ : Selects s0.activeStates σ) (L : Matrix (Fin ns) (Fin ns) ℝ) (x : Fin n → ℝ) (w : Fin m → ℝ) (dt : T) :
    ∀ (fuel i : Nat) (off : Fin n → ℝ) (s : Sys NonlinSysData X) (s' : Sys NonlinSysData X') (y : Nat → Fin n → ℝ)
      (y' : Nat → Fin ns → ℝ), i + fuel = ns →
    s.Sized NonlinSysData.Sized n m → s'.Sized NonlinSysData.Sized ns ms → s0.SameConfig s → s0'.SameConfig s' →
    s.Part σ τ (NonlinSysData.Part σ) s' → (∀ a, (∀ j, σ j ≠ a) → off a = 0) →
    (∀ j, j ≤ i ∨ (ns < j ∧ j ≤ ns + i) → y' j = y j ∘ σ) →
    ∃ (r : Sys NonlinSysData X) (r' : Sys NonlinSysData X') (z : Nat → Fin n → ℝ) (z' : Nat → Fin ns → ℝ),
      ukfvsPredictLoop sc (.of L) (.of x) (.of w) dt ns fuel i (.of off) s (ptsOf (2 * ns + 1) y)
        = some (r, ptsOf (2 * ns + 1) z) ∧
      ukfPredictLoop sc' (.of L) (.of (x ∘ σ)) (.of (w ∘ τ)) dt fuel i s' (ptsOf (2 * ns + 1) y') = some (r', ptsOf (2 * ns + 1) z') ∧
      r.Sized NonlinSysData.Sized n m ∧ r'.Sized NonlinSysData.Sized ns ms ∧ s0.SameConfig r ∧ s0'.SameConfig r' ∧
      r.Part σ τ (NonlinSysData.Part σ) r' ∧ ∀ j < 2 * ns + 1, z' j = z j ∘ σ := by
  intro fuel
  induction fuel with
  | zero =>
    intro i off s s' y y' hi hs hs' h0 h0' hp _ hy
    exact ⟨s, s', y, y', rfl, rfl, hs, hs', h0, h0', hp, fun j hj => hy j (by omega)⟩
  | succ fuel ih =>
    intro i off s s' y y' hi hs hs' h0 h0' hp hoff hy
    obtain ⟨r1, r1', y1, e1, e1', k1, k1', c1, c1', p1, g1, g1'⟩ := Part.update hsc hsc' ha hs hs' hp (x + spread σ (colsOf L i)) w dt
    obtain ⟨r2, r2', y2, e2, e2', k2, k2', c2, c2', p2, g2, g2'⟩ := Part.update hsc hsc' ha k1 k1' p1 (x - spread σ (colsOf L i)) w dt
    rw [plus_spread hσ.inj] at e1'
    rw [minus_spread hσ.inj] at e2'
    obtain ⟨r, r', z, z', l, l', q⟩ := ih (i + 1) (spread σ (colsOf L i)) r2 r2'
      (Function.update (Function.update y (i + 1) y1) (i + 1 + ns) y2)
      (Function.update (Function.update y' (i + 1) (y1 ∘ σ)) (i + 1 + ns) (y2 ∘ σ)) (by omega) k2 k2' ((h0.trans c1).trans c2)
      ((h0'.trans c1').trans c2') p2 (spread_others _) (by
        intro j hj
        by_cases hj1 : j = i + 1 + ns
        · subst hj1; rw [Function.update_self, Function.update_self]
        · rw [Function.update_of_ne hj1, Function.update_of_ne hj1]
          by_cases hj2 : j = i + 1
          · subst hj2; rw [Function.update_self, Function.update_self]
          · rw [Function.update_of_ne hj2, Function.update_of_ne hj2]
            exact hy j (by omega))
    have hσ' : Selects s.activeStates σ := by
      show Selects s.fm.activeStates σ
      rw [h0.fm]; exact hσ
    refine ⟨r, r', z, z', ?_, ?_, q⟩
    · unfold ukfvsPredictLoop
      simp only [Option.bind_eq_bind, col_of L (show i < ns by omega), Option.bind_some, convert_spread hσ' _ hoff,
        ha.plain.add, ha.plain.sub, DVec.add_of, DVec.sub_of, e1, g1, setCol_pts y (show i + 1 < 2 * ns + 1 by omega), e2, g2,
        setCol_pts (Function.update y (i + 1) y1) (show i + 1 + ns < 2 * ns + 1 by omega)]
      exact l
    · unfold ukfPredictLoop
      simp only [Option.bind_eq_bind, col_of L (show i < ns by omega), Option.bind_some,
        ha.plain'.add, ha.plain'.sub, DVec.add_of, DVec.sub_of, e1', g1', setCol_pts y' (show i + 1 < 2 * ns + 1 by omega), e2', g2', k2'.states,
        setCol_pts (Function.update y' (i + 1) (y1 ∘ σ)) (show i + 1 + ns < 2 * ns + 1 by omega)]
      exact l'

theorem Part.ukfPredict {Z Z' : Type} (hsc : SysContract NonlinSysData.Sized sc) (hsc' : SysContract NonlinSysData.Sized sc')
    (ha : sc.HasPart NonlinSysData.Sized σ τ (NonlinSysData.Part σ) sc') {s : Sys NonlinSysData X} {s' : Sys NonlinSysData X'}
    (hs : s.Sized NonlinSysData.Sized n m) (hs' : s'.Sized NonlinSysData.Sized ns ms) (hp : s.Part σ τ (NonlinSysData.Part σ) s')
    (hσ : Selects s.activeStates σ) (hτ : Selects s.activeControls τ)
    {llt : DMat → Option DMat} (junk junk' : Nat → Nat → ℝ) {lam d : ℝ} {L : Matrix (Fin ns) (Fin ns) ℝ}
    {cov : Matrix (Fin n) (Fin n) ℝ} (hL : llt (.of (((ns : ℝ) + lam) • cov.submatrix σ σ)) = some (.of L)) (x : Fin n → ℝ)
    (w : Fin m → ℝ) (dt : T) (back : Sys NonlinSysData X → Z) (back' : Sys NonlinSysData X' → Z') :
    ∃ r r' v M,
      ukfvsPredict llt junk sc ⟨2 * ns + 1, lam, .of (fun j : Fin (2 * ns + 1) => wm ns lam j),
        .of (fun j : Fin (2 * ns + 1) => wc ns lam d j)⟩ s (.of x) (.of cov) (.of w) dt back = some (v, M, back r) ∧
      (∃ v' M', ukfPredict llt junk' sc' ⟨2 * ns + 1, lam, .of (fun j : Fin (2 * ns + 1) => wm ns lam j),
        .of (fun j : Fin (2 * ns + 1) => wc ns lam d j)⟩ s' (.of (x ∘ σ)) (.of (cov.submatrix σ σ)) (.of (w ∘ τ)) dt back'
          = some (v', M', back' r') ∧ VecPart σ v v' ∧ MatPart σ σ M M') ∧
      s.SameConfig r ∧ s'.SameConfig r' ∧ r.Part σ τ (NonlinSysData.Part σ) r' := by
  obtain ⟨s1, s1', y1, e1, e1', hs1, hs1', c1, c1', p1, g1, g1'⟩ := Part.update hsc hsc' ha hs hs' hp x w dt
  obtain ⟨r, r', y, y', l, l', hr, hr', hc, hc', pr, hy⟩ := Part.predictLoop hsc hsc' ha s s' hσ L x w dt ns 0 0 s1 s1'
    (Function.update (fun j (a : Fin n) => junk a j) 0 y1) (Function.update (fun j (a : Fin ns) => junk' a j) 0 (y1 ∘ σ)) (by omega)
    hs1 hs1' c1 c1' p1 (fun _ _ => rfl) (by
      intro j hj
      have : j = 0 := by omega
      subst this
      rw [Function.update_self, Function.update_self])
  obtain ⟨p, W, Rp, V, Rc, hW, hRp, hV, hRc⟩ := hr.noise
  obtain ⟨q1, q2, q3, q4⟩ := Part.noise pr hW hV hRp hRc
  have hσ' : Selects r.activeStates σ := by
    show Selects r.fm.activeStates σ
    rw [hc.fm]; exact hσ
  have hτ' : Selects r.activeControls τ := by rw [hc.activeControls]; exact hτ
  obtain ⟨cov', hcov, hcov2⟩ := convertSubsetToFullSq_of hσ' (W.submatrix σ id * Rp * (W.submatrix σ id)ᵀ
    + V.submatrix σ τ * Rc.submatrix τ τ * (V.submatrix σ τ)ᵀ
    + cross ns lam d (fun j => y j ∘ σ) (fun j => y j ∘ σ) (mean ns lam y ∘ σ) (mean ns lam y ∘ σ)) cov
  refine ⟨r, r', .of (mean ns lam y), .of cov', ?_, ⟨.of (mean ns lam y'), .of (W.submatrix σ id * Rp * (W.submatrix σ id)ᵀ
    + V.submatrix σ τ * Rc.submatrix τ τ * (V.submatrix σ τ)ᵀ + cross ns lam d y' y' (mean ns lam y') (mean ns lam y')), ?_,
      ⟨_, rfl, by rw [mean_part hy]⟩, ⟨_, rfl, ?_⟩⟩, hc, hc', pr⟩
  · unfold ukfvsPredict
    have hst : s.stateSize = n := hs.states
    have hst1 : s1.stateSize = n := hs1.states
    dsimp only
    refine bind_step (getSubset2_of hσ hσ cov) ?_
    rw [hs.active hσ, DMat.smul_of]
    refine bind_step hL ?_
    refine bind_step e1 ?_
    rw [hst, uninit_pts, g1]
    refine bind_step (setCol_pts _ (show 0 < 2 * ns + 1 by omega) _) ?_
    rw [hst1]
    refine bind_step l ?_
    dsimp only
    refine bind_step (a := .of (mean ns lam y)) (by rw [ha.plain.wsum]; exact weightedSum_pts _ _) ?_
    refine bind_step (by rw [hRc]; exact getSubsetSq_of hτ' Rc) ?_
    refine bind_step (by rw [hW]; exact getSubset2_of hσ' selects_nil W) ?_
    refine bind_step (by rw [hV]; exact getSubset2_of hσ' hτ' V) ?_
    refine bind_step (by rw [hRp]; exact noiseCov_of _ _ _ _) ?_
    refine bind_step (covLoop_of' (wc ns lam d) _ (fun i => y i ∘ σ - mean ns lam y ∘ σ) (fun i => y i ∘ σ - mean ns lam y ∘ σ) ?_ _) ?_
    · intro i hi
      refine bind_step (col_pts y hi) ?_
      refine bind_step (by rw [ha.plain.sub]; exact DVec.sub_of _ _) ?_
      exact bind_step (getSubset_of hσ' _) rfl
    · exact bind_step hcov rfl
  · unfold StateEstimation.ukfPredict
    simp only [Option.bind_eq_bind, hs'.states, DMat.smul_of, hL, Option.bind_some, e1', g1', uninit_pts,
      setCol_pts _ (show 0 < 2 * ns + 1 by omega), hs1'.states, l', ha.plain'.wsum, weightedSum_pts, q1, q2, q3, q4, noiseCov_of]
    rw [covLoop_of' (wc ns lam d) _ (fun i => y' i - mean ns lam y') (fun i => y' i - mean ns lam y')]
    · rfl
    · intro i hi
      simp only [col_pts y' hi, Option.bind_some, ha.plain'.sub]
      show (DVec.sub (.of (y' i)) (.of (mean ns lam y'))).bind _ = _
      rw [DVec.sub_of]; rfl
  · rw [hcov2.block, mean_part hy, cross_congr hy hy]

end Predict

section Correct
variable {sc : SysClass T NonlinSysData X} {sc' : SysClass T NonlinSysData X'} {mc : MeasClass T NonlinMeasData Y}
  {mc' : MeasClass T NonlinMeasData Y'}

theorem Part.mupdate (hmc : MeasContract NonlinMeasData.Sized mc) (hmc' : MeasContract NonlinMeasData.Sized mc')
    (hb : mc.HasPart NonlinMeasData.Sized σ ρ (NonlinMeasData.Part ρ σ) mc') {s : Meas NonlinMeasData Y} {s' : Meas NonlinMeasData Y'}
    (hs : s.Sized NonlinMeasData.Sized n k) (hs' : s'.Sized NonlinMeasData.Sized ns ks) (hp : s.Part ρ (NonlinMeasData.Part ρ σ) s')
    (x : Fin n → ℝ) (dt : T) :
    ∃ (r : Meas NonlinMeasData Y) (r' : Meas NonlinMeasData Y') (y : Fin k → ℝ), s.update mc (.of x) dt = some r ∧
      s'.update mc' (.of (x ∘ σ)) dt = some r' ∧ r.Sized NonlinMeasData.Sized n k ∧ r'.Sized NonlinMeasData.Sized ns ks ∧
      s.SameConfig r ∧ s'.SameConfig r' ∧ r.Part ρ (NonlinMeasData.Part ρ σ) r' ∧ r.der.h = .of y ∧ r'.der.h = .of (y ∘ ρ) := by
  obtain ⟨r, h1, h2, h3⟩ := hmc.update s (.of x) dt hs rfl
  obtain ⟨r', h1', h2', h3'⟩ := hmc'.update s' (.of (x ∘ σ)) dt hs' rfl
  have hq := hb.update _ _ _ _ _ _ _ hs hs' hp ⟨x, rfl, rfl⟩ h1 h1'
  obtain ⟨y, hy, hy'⟩ := hq.der.1
  refine ⟨r, r', y, ?_, ?_, h2, h2', h3, h3', hq, hy, hy'⟩
  · unfold Meas.update
    rw [if_pos hs.states.symm]; exact h1
  · unfold Meas.update
    rw [if_pos hs'.states.symm]; exact h1'

theorem Part.correctLoop (ha : sc.PlainOps) (ha' : sc'.PlainOps) (hmc : MeasContract NonlinMeasData.Sized mc)
    (hmc' : MeasContract NonlinMeasData.Sized mc') (hb : mc.HasPart NonlinMeasData.Sized σ ρ (NonlinMeasData.Part ρ σ) mc')
    {s : Sys NonlinSysData X} {s' : Sys NonlinSysData X'} (hs : s.Sized NonlinSysData.Sized n m) (hs' : s'.Sized NonlinSysData.Sized ns ms)
    (hσ : Selects s.activeStates σ) (m0 : Meas NonlinMeasData Y) (m0' : Meas NonlinMeasData Y')
    (L : Matrix (Fin ns) (Fin ns) ℝ) (x : Fin n → ℝ) (dt : T) :
    ∀ (fuel i : Nat) (off : Fin n → ℝ) (me : Meas NonlinMeasData Y) (me' : Meas NonlinMeasData Y') (q : Nat → Fin n → ℝ)
      (q' : Nat → Fin ns → ℝ) (y : Nat → Fin k → ℝ) (y' : Nat → Fin ks → ℝ), i + fuel = ns →
    me.Sized NonlinMeasData.Sized n k → me'.Sized NonlinMeasData.Sized ns ks → m0.SameConfig me → m0'.SameConfig me' →
    me.Part ρ (NonlinMeasData.Part ρ σ) me' → (∀ a, (∀ j, σ j ≠ a) → off a = 0) →
    (∀ j, j ≤ i ∨ (ns < j ∧ j ≤ ns + i) → q' j = q j ∘ σ ∧ y' j = y j ∘ ρ) →
    ∃ (r : Meas NonlinMeasData Y) (r' : Meas NonlinMeasData Y') (p : Nat → Fin n → ℝ) (p' : Nat → Fin ns → ℝ) (z : Nat → Fin k → ℝ)
      (z' : Nat → Fin ks → ℝ),
      ukfvsCorrectLoop sc mc s (.of L) (.of x) dt fuel i (.of off) me (ptsOf (2 * ns + 1) q) (ptsOf (2 * ns + 1) y)
        = some (r, ptsOf (2 * ns + 1) p, ptsOf (2 * ns + 1) z) ∧
      ukfCorrectLoop sc' mc' s' (.of L) (.of (x ∘ σ)) dt fuel i me' (ptsOf (2 * ns + 1) q') (ptsOf (2 * ns + 1) y')
        = some (r', ptsOf (2 * ns + 1) p', ptsOf (2 * ns + 1) z') ∧
      r.Sized NonlinMeasData.Sized n k ∧ r'.Sized NonlinMeasData.Sized ns ks ∧ m0.SameConfig r ∧ m0'.SameConfig r' ∧
      r.Part ρ (NonlinMeasData.Part ρ σ) r' ∧ (p 0 = q 0 ∧ p' 0 = q' 0) ∧ ∀ j < 2 * ns + 1, p' j = p j ∘ σ ∧ z' j = z j ∘ ρ := by
  intro fuel
  induction fuel with
  | zero =>
    intro i off me me' q q' y y' hi hm hm' h0 h0' hp _ hy
    exact ⟨me, me', q, q', y, y', rfl, rfl, hm, hm', h0, h0', hp, ⟨rfl, rfl⟩, fun j hj => hy j (by omega)⟩
  | succ fuel ih =>
    intro i off me me' q q' y y' hi hm hm' h0 h0' hp hoff hy
    obtain ⟨r1, r1', y1, e1, e1', k1, k1', c1, c1', p1, g1, g1'⟩ := Part.mupdate hmc hmc' hb hm hm' hp (x + spread σ (colsOf L i)) dt
    obtain ⟨r2, r2', y2, e2, e2', k2, k2', c2, c2', p2, g2, g2'⟩ := Part.mupdate hmc hmc' hb k1 k1' p1 (x - spread σ (colsOf L i)) dt
    rw [plus_spread hσ.inj] at e1'
    rw [minus_spread hσ.inj] at e2'
    obtain ⟨r, r', p, p', z, z', l, l', a1, a2, a3, a4, a5, a6, a7⟩ := ih (i + 1) (spread σ (colsOf L i)) r2 r2'
      (Function.update (Function.update q (i + 1) (x + spread σ (colsOf L i))) (i + 1 + ns) (x - spread σ (colsOf L i)))
      (Function.update (Function.update q' (i + 1) (x ∘ σ + colsOf L i)) (i + 1 + ns) (x ∘ σ - colsOf L i))
      (Function.update (Function.update y (i + 1) y1) (i + 1 + ns) y2)
      (Function.update (Function.update y' (i + 1) (y1 ∘ ρ)) (i + 1 + ns) (y2 ∘ ρ)) (by omega) k2 k2' ((h0.trans c1).trans c2)
      ((h0'.trans c1').trans c2') p2 (spread_others _) (by
        intro j hj
        by_cases hj1 : j = i + 1 + ns
        · subst hj1; simp only [Function.update_self, minus_spread hσ.inj]; exact ⟨trivial, trivial⟩
        · simp only [Function.update_of_ne hj1]
          by_cases hj2 : j = i + 1
          · subst hj2; simp only [Function.update_self, plus_spread hσ.inj]; exact ⟨trivial, trivial⟩
          · simp only [Function.update_of_ne hj2]
            exact hy j (by omega))
    refine ⟨r, r', p, p', z, z', ?_, ?_, a1, a2, a3, a4, a5, ?_, a7⟩
    · unfold ukfvsCorrectLoop
      simp only [Option.bind_eq_bind, col_of L (show i < ns by omega), Option.bind_some, convert_spread hσ _ hoff,
        ha.add, ha.sub, DVec.add_of, DVec.sub_of, setCol_pts _ (show i + 1 < 2 * ns + 1 by omega), col_pts _ (show i + 1 < 2 * ns + 1 by omega),
        Function.update_self, e1, g1, e2, g2, hs.active hσ,
        setCol_pts _ (show i + 1 + ns < 2 * ns + 1 by omega), col_pts _ (show i + 1 + ns < 2 * ns + 1 by omega)]
      exact l
    · unfold ukfCorrectLoop
      simp only [Option.bind_eq_bind, col_of L (show i < ns by omega), Option.bind_some, ha'.add, ha'.sub, DVec.add_of,
        DVec.sub_of, setCol_pts _ (show i + 1 < 2 * ns + 1 by omega), col_pts _ (show i + 1 < 2 * ns + 1 by omega),
        Function.update_self, e1', g1', e2', g2', hs'.states,
        setCol_pts _ (show i + 1 + ns < 2 * ns + 1 by omega), col_pts _ (show i + 1 + ns < 2 * ns + 1 by omega)]
      exact l'
    · rw [a6.1, a6.2]
      simp only [Function.update_of_ne (show (0 : Nat) ≠ i + 1 + ns by omega), Function.update_of_ne (show (0 : Nat) ≠ i + 1 by omega)]
      exact ⟨trivial, trivial⟩

theorem Part.ukfCorrect {Z Z' : Type} (ha : sc.PlainOps) (ha' : sc'.PlainOps) (hmc : MeasContract NonlinMeasData.Sized mc)
    (hmc' : MeasContract NonlinMeasData.Sized mc') (hb : mc.HasPart NonlinMeasData.Sized σ ρ (NonlinMeasData.Part ρ σ) mc')
    {s : Sys NonlinSysData X} {s' : Sys NonlinSysData X'} (hs : s.Sized NonlinSysData.Sized n m) (hs' : s'.Sized NonlinSysData.Sized ns ms)
    (hσ : Selects s.activeStates σ) {me : Meas NonlinMeasData Y} {me' : Meas NonlinMeasData Y'} (hm : me.Sized NonlinMeasData.Sized n k)
    (hm' : me'.Sized NonlinMeasData.Sized ns ks) (hp : me.Part ρ (NonlinMeasData.Part ρ σ) me') (hρ : Selects me.activeMeasurements ρ)
    {R : Matrix (Fin k) (Fin k) ℝ} (hRe : me.cov = .of R) (hR : (R.submatrix ρ ρ).PosDef)
    {llt : DMat → Option DMat} (junk junk' : Nat → Nat → ℝ) {lam d : ℝ} (hlam : 0 < (ns : ℝ) + lam) (hd : 0 ≤ d)
    {L : Matrix (Fin ns) (Fin ns) ℝ}
    {cov : Matrix (Fin n) (Fin n) ℝ} (hL : llt (.of (((ns : ℝ) + lam) • cov.submatrix σ σ)) = some (.of L)) (x : Fin n → ℝ)
    (w : Fin k → ℝ) (dt : T) (back : Meas NonlinMeasData Y → Z) (back' : Meas NonlinMeasData Y' → Z') :
    ∃ r r' v M,
      ukfvsCorrect llt junk sc mc ⟨2 * ns + 1, lam, .of (fun j : Fin (2 * ns + 1) => wm ns lam j),
        .of (fun j : Fin (2 * ns + 1) => wc ns lam d j)⟩ s me (.of x) (.of cov) (.of w) dt back = some (v, M, back r) ∧
      (∃ v' M', ukfCorrect llt junk' sc' mc' ⟨2 * ns + 1, lam, .of (fun j : Fin (2 * ns + 1) => wm ns lam j),
        .of (fun j : Fin (2 * ns + 1) => wc ns lam d j)⟩ s' me' (.of (x ∘ σ)) (.of (cov.submatrix σ σ)) (.of (w ∘ ρ)) dt back'
          = some (v', M', back' r') ∧ VecPart σ v v' ∧ MatPart σ σ M M') ∧
      me.SameConfig r ∧ me'.SameConfig r' ∧ r.Part ρ (NonlinMeasData.Part ρ σ) r' := by
  obtain ⟨s1, s1', y1, e1, e1', hs1, hs1', c1, c1', p1, g1, g1'⟩ := Part.mupdate hmc hmc' hb hm hm' hp x dt
  obtain ⟨r, r', q, q', y, y', l, l', hr, hr', hc, hc', pr, h0, hy⟩ := Part.correctLoop ha ha' hmc hmc' hb hs hs' hσ me me' L x dt
    ns 0 0 s1 s1' (Function.update (fun j (a : Fin n) => junk a j) 0 x) (Function.update (fun j (a : Fin ns) => junk' a j) 0 (x ∘ σ))
    (Function.update (fun j (a : Fin k) => junk a j) 0 y1) (Function.update (fun j (a : Fin ks) => junk' a j) 0 (y1 ∘ ρ))
    (by omega) hs1 hs1' c1 c1' p1 (fun _ _ => rfl) (by
      intro j hj
      have : j = 0 := by omega
      subst this
      simp only [Function.update_self]; exact ⟨trivial, trivial⟩)
  simp only [Function.update_self] at h0
  have hcR : r.cov = .of R := hc.cov.trans hRe
  have hcR' : r'.cov = .of (R.submatrix ρ ρ) := by
    have := pr.cov
    rw [hcR] at this
    exact matPart_of.mp this
  have hρ' : Selects r.activeMeasurements ρ := by rw [hc.activeMeasurements]; exact hρ
  have hm1 : mean ns lam y' = mean ns lam y ∘ ρ := mean_part fun j hj => (hy j hj).2
  have x1 : cross ns lam d y' y' (mean ns lam y') (mean ns lam y')
      = cross ns lam d (fun j => y j ∘ ρ) (fun j => y j ∘ ρ) (mean ns lam y ∘ ρ) (mean ns lam y ∘ ρ) := by
    rw [hm1]; exact cross_congr (fun j hj => (hy j hj).2) (fun j hj => (hy j hj).2)
  have x2 : cross ns lam d q' y' (x ∘ σ) (mean ns lam y')
      = cross ns lam d (fun j => q j ∘ σ) (fun j => y j ∘ ρ) (x ∘ σ) (mean ns lam y ∘ ρ) := by
    rw [hm1]; exact cross_congr (fun j hj => (hy j hj).1) (fun j hj => (hy j hj).2)
  have hSpd : (R.submatrix ρ ρ + cross ns lam d (fun j => y j ∘ ρ) (fun j => y j ∘ ρ) (mean ns lam y ∘ ρ) (mean ns lam y ∘ ρ)).PosDef := by
    rw [mean_comp]
    exact hR.add_posSemidef (unscented_psd hlam hd _)
  have hdet := pd_isUnit_det hSpd
  generalize hS0 : R.submatrix ρ ρ + cross ns lam d (fun j => y j ∘ ρ) (fun j => y j ∘ ρ) (mean ns lam y ∘ ρ) (mean ns lam y ∘ ρ) = S at hdet
  generalize hD0 : cross ns lam d (fun j => q j ∘ σ) (fun j => y j ∘ ρ) (x ∘ σ) (mean ns lam y ∘ ρ) = D at x2
  obtain ⟨cov', hcov, hcov2⟩ := convertSubsetToFullSq_of hσ (cov.submatrix σ σ - D * S⁻¹ * S * (D * S⁻¹)ᵀ) cov
  refine ⟨r, r', .of (x + spread σ ((D * S⁻¹) *ᵥ ((w - mean ns lam y) ∘ ρ))), .of cov', ?_,
    ⟨.of (x ∘ σ + (D * S⁻¹) *ᵥ (w ∘ ρ - mean ns lam y')), .of (cov.submatrix σ σ - D * S⁻¹ * S * (D * S⁻¹)ᵀ), ?_, ⟨_, rfl, ?_⟩,
      ⟨_, rfl, ?_⟩⟩, hc, hc', pr⟩
  · unfold ukfvsCorrect
    have hst : s.stateSize = n := hs.states
    have hme : me.measurementSize = k := hm.meas
    dsimp only
    refine bind_step (getSubsetSq_of hσ cov) ?_
    rw [hs.active hσ, DMat.smul_of]
    refine bind_step hL ?_
    rw [hst, hme, uninit_pts, uninit_pts]
    refine bind_step (setCol_pts _ (show 0 < 2 * ns + 1 by omega) _) ?_
    refine bind_step e1 ?_
    rw [g1]
    refine bind_step (setCol_pts _ (show 0 < 2 * ns + 1 by omega) _) ?_
    refine bind_step l ?_
    dsimp only
    refine bind_step (a := .of (mean ns lam y)) (by rw [hb.plain.wsum]; exact weightedSum_pts _ _) ?_
    refine bind_step (by rw [hcR]; exact getSubsetSq_of hρ' R) ?_
    have hS := covLoop_of' (N := 2 * ns + 1) (wc ns lam d) (fun i => ((ptsOf (2 * ns + 1) y).col? i).bind fun c =>
        (mc.sub r c (.of (mean ns lam y))).bind fun dz => (getSubset dz r.activeMeasurements).bind fun dzS => some (dzS, dzS))
        (fun i => y i ∘ ρ - mean ns lam y ∘ ρ) (fun i => y i ∘ ρ - mean ns lam y ∘ ρ) (by
          intro i hi
          simp only [col_pts y hi, Option.bind_some, hb.plain.sub, DVec.sub_of, getSubset_of hρ']
          rfl) (R.submatrix ρ ρ)
    have hX := covLoop_of' (N := 2 * ns + 1) (wc ns lam d) (fun i => ((ptsOf (2 * ns + 1) q).col? i).bind fun p =>
        ((ptsOf (2 * ns + 1) q).col? 0).bind fun p0 => (sc.sub s p p0).bind fun dx =>
        (getSubset dx s.activeStates).bind fun dxS =>
        ((ptsOf (2 * ns + 1) y).col? i).bind fun c =>
        (mc.sub r c (.of (mean ns lam y))).bind fun dz => (getSubset dz r.activeMeasurements).bind fun dzS => some (dxS, dzS))
        (fun i => q i ∘ σ - q 0 ∘ σ) (fun i => y i ∘ ρ - mean ns lam y ∘ ρ) (by
          intro i hi
          simp only [col_pts _ hi, col_pts _ (show 0 < 2 * ns + 1 by omega), Option.bind_some, hb.plain.sub, ha.sub, DVec.sub_of,
            getSubset_of hρ', getSubset_of hσ]
          rfl) 0
    rw [zero_add, h0.1] at hX
    change covLoop _ _ _ _ _ = some (.of (R.submatrix ρ ρ + cross ns lam d (fun j => y j ∘ ρ) (fun j => y j ∘ ρ) (mean ns lam y ∘ ρ) (mean ns lam y ∘ ρ))) at hS
    change covLoop _ _ _ _ _ = some (.of (cross ns lam d (fun j => q j ∘ σ) (fun j => y j ∘ ρ) (x ∘ σ) (mean ns lam y ∘ ρ))) at hX
    rw [hS0] at hS
    rw [hD0] at hX
    refine bind_step hS ?_
    rw [hr.active hρ', DMat.zero_of]
    refine bind_step hX ?_
    refine bind_step (DMat.inverse_of _ hdet) ?_
    refine bind_step (DMat.mul_of _ _) ?_
    refine bind_step (by rw [hb.plain.sub]; exact DVec.sub_of _ _) ?_
    refine bind_step (getSubset_of hρ' _) ?_
    refine bind_step (DMat.mulVec_of _ _) ?_
    refine bind_step (zeroed_spread hσ _) ?_
    refine bind_step (by rw [ha.add]; exact DVec.add_of _ _) ?_
    refine bind_step (DMat.mul_of _ _) ?_
    rw [DMat.transpose_of]
    refine bind_step (DMat.mul_of _ _) ?_
    refine bind_step (DMat.sub_of _ _) ?_
    exact bind_step hcov rfl
  · unfold StateEstimation.ukfCorrect
    have hst : s'.stateSize = ns := hs'.states
    have hme : me'.measurementSize = ks := hm'.meas
    dsimp only
    rw [hst, hme, DMat.smul_of]
    refine bind_step hL ?_
    rw [uninit_pts, uninit_pts]
    refine bind_step (setCol_pts _ (show 0 < 2 * ns + 1 by omega) _) ?_
    refine bind_step e1' ?_
    rw [g1']
    refine bind_step (setCol_pts _ (show 0 < 2 * ns + 1 by omega) _) ?_
    refine bind_step l' ?_
    dsimp only
    refine bind_step (a := .of (mean ns lam y')) (by rw [hb.plain'.wsum]; exact weightedSum_pts _ _) ?_
    have hS := covLoop_of' (N := 2 * ns + 1) (wc ns lam d) (fun i => ((ptsOf (2 * ns + 1) y').col? i).bind fun c =>
        (mc'.sub r' c (.of (mean ns lam y'))).bind fun dz => some (dz, dz))
        (fun i => y' i - mean ns lam y') (fun i => y' i - mean ns lam y') (by
          intro i hi
          simp only [col_pts y' hi, Option.bind_some, hb.plain'.sub, DVec.sub_of]) (R.submatrix ρ ρ)
    have hX := covLoop_of' (N := 2 * ns + 1) (wc ns lam d) (fun i => ((ptsOf (2 * ns + 1) q').col? i).bind fun p =>
        ((ptsOf (2 * ns + 1) q').col? 0).bind fun p0 => (sc'.sub s' p p0).bind fun dx =>
        ((ptsOf (2 * ns + 1) y').col? i).bind fun c =>
        (mc'.sub r' c (.of (mean ns lam y'))).bind fun dz => some (dx, dz))
        (fun i => q' i - q' 0) (fun i => y' i - mean ns lam y') (by
          intro i hi
          simp only [col_pts _ hi, col_pts _ (show 0 < 2 * ns + 1 by omega), Option.bind_some, hb.plain'.sub, ha'.sub, DVec.sub_of]) 0
    rw [zero_add, h0.2] at hX
    change covLoop _ _ _ _ _ = some (.of (R.submatrix ρ ρ + cross ns lam d y' y' (mean ns lam y') (mean ns lam y'))) at hS
    change covLoop _ _ _ _ _ = some (.of (cross ns lam d q' y' (x ∘ σ) (mean ns lam y'))) at hX
    rw [x1, hS0] at hS
    rw [x2] at hX
    rw [hcR']
    refine bind_step hS ?_
    rw [show r'.stateSize = ns from hr'.states, show r'.measurementSize = ks from hr'.meas, DMat.zero_of]
    refine bind_step hX ?_
    refine bind_step (DMat.inverse_of _ hdet) ?_
    refine bind_step (DMat.mul_of _ _) ?_
    refine bind_step (by rw [hb.plain'.sub]; exact DVec.sub_of _ _) ?_
    refine bind_step (DMat.mulVec_of _ _) ?_
    refine bind_step (by rw [ha'.add]; exact DVec.add_of _ _) ?_
    refine bind_step (DMat.mul_of _ _) ?_
    rw [DMat.transpose_of]
    refine bind_step (DMat.mul_of _ _) ?_
    exact bind_step (DMat.sub_of _ _) rfl
  · rw [plus_spread hσ.inj, hm1]; rfl
  · rw [hcov2.block]

end Correct

/-! ### The invariants for given sigma point parameters -/

section Inv
variable [DecidableEq K] [TimeOps T] {sc : SysClass T NonlinSysData X} {mc : K → MeasClass T NonlinMeasData Y} {p : Nat}

theorem ukfvs_inv_at {llt : DMat → Option DMat} (hllt : LltSpec llt) (junk : Nat → Nat → ℝ)
    (hsc : SysContract NonlinSysData.Sized sc) (hso : sc.PlainOps) (hspread : sc.SpreadsNoise NonlinSysData.Sized n m p)
    (hmc : ∀ j, MeasContract NonlinMeasData.Sized (mc j)) (hmo : ∀ j, (mc j).PlainOps) (kd : K → Nat) {o : SigmaParams}
    (ho : SigmaAdmissible ns o) :
    PlantInv (mkPlant sc mc
      (fun e x cov u dt => ukfvsPredict llt junk sc o e.sys x cov u dt fun s => ({ e with sys := s } : Env K NonlinSysData X NonlinMeasData Y))
      (fun e x cov z k dt => ukfvsCorrect llt junk sc (mc k) o e.sys (e.meas k) x cov z dt (e.setMeas k))) True (ActivePD σ)
      (fun e => Env.Ok NonlinSysData.Sized NonlinMeasData.Sized (NoisePD p) (ActivePD σ) n m kd e ∧ e.Selecting σ m kd) (fun u => u.size = m)
      (fun R => R.Is m m ∧ R.PSD) (fun z c k => z.size = kd k ∧ c.Is (kd k) (kd k) ∧ c.PD) := by
  have hQ := activePD_inv (σ := σ)
  refine mkPlant_inv_sel hsc hmc (fun _ _ h => (hQ.elim _ _ h).1) (fun _ _ _ h h' => ⟨h.1, h.2.1, h'⟩) (fun _ _ h => h.2.2) ?_ ?_
  · intro e x c u dt he hsel hx hu
    obtain ⟨hx1, P, rfl, hP⟩ := hQ.elim _ _ hx
    obtain ⟨x, rfl⟩ := x.exists_of hx1
    obtain ⟨ms, τ, hτ⟩ := hsel.controls
    obtain ⟨s', x', P', S, h1, h2, h3, h4, h5⟩ := ukfvsPredict_pd hsc hso hspread hllt junk ho he.sys hsel.states hτ he.noise x hP hu dt
      (fun s => ({ e with sys := s } : Env K NonlinSysData X NonlinMeasData Y))
    exact OptP.of_eq h1 ⟨hQ.step _ _ _ _ _ hx rfl h3 h2, he.setSys h4 h5, hsel.of_same h5.fm h5.activeControls⟩
  · intro e x c z j dt he hsel hx hz hR
    obtain ⟨hx1, P, rfl, hP⟩ := hQ.elim _ _ hx
    obtain ⟨x, rfl⟩ := x.exists_of hx1
    obtain ⟨z, rfl⟩ := z.exists_of hz
    obtain ⟨ks, ρ, hρ⟩ := hsel.meas j
    obtain ⟨R, hRe⟩ := (he.meas j).cov.exists_of
    rw [hRe, DMat.PD_of] at hR
    obtain ⟨m', v, P', S, h1, h2, h3, h4, h5, h6⟩ := ukfvsCorrect_pd hso (hmc j) (hmo j) hllt junk ho he.sys (he.meas j) hsel.states hρ hRe
      (hR.submatrix hρ.inj) x z hP dt (e.setMeas j)
    exact OptP.of_eq h1 ⟨hQ.step _ _ _ _ _ hx rfl h4 h2, he.setMeas j h5 h6, hsel.setMeas j h6.activeMeasurements⟩

theorem ukf_inv_at {llt : DMat → Option DMat} (hllt : LltSpec llt) (junk : Nat → Nat → ℝ)
    (hsc : SysContract NonlinSysData.Sized sc) (hso : sc.PlainOps) (hsp : sc.SpreadsNoise NonlinSysData.Sized n m p)
    (hmc : ∀ j, MeasContract NonlinMeasData.Sized (mc j)) (hmo : ∀ j, (mc j).PlainOps) (kd : K → Nat) {o : SigmaParams}
    (ho : SigmaAdmissible n o) :
    PlantInv (mkPlant sc mc
      (fun e x cov u dt => ukfPredict llt junk sc o e.sys x cov u dt fun s => ({ e with sys := s } : Env K NonlinSysData X NonlinMeasData Y))
      (fun e x cov z k dt => ukfCorrect llt junk sc (mc k) o e.sys (e.meas k) x cov z dt (e.setMeas k))) True (EstimatePD n)
      (Env.Ok NonlinSysData.Sized NonlinMeasData.Sized (NoisePD p) (EstimatePD n) n m kd)
      (fun u => u.size = m) (fun R => R.Is m m ∧ R.PSD) (fun z c k => z.size = kd k ∧ c.Is (kd k) (kd k) ∧ c.PD) := by
  refine mkPlant_inv hsc hmc (fun _ _ h => h.1.1) (fun _ _ _ h h' => ⟨h.1, h.2.1, h'⟩) (fun _ _ h => h.2.2) ?_ ?_
  · intro e x c u dt he hx hu
    obtain ⟨s', x', c', h1, h2, h3, h4, h5⟩ := ukfPredict_psd hsc hso hllt junk ho he.sys he.noise.2.1.psd he.noise.2.2 hx hu dt
      (fun s => ({ e with sys := s } : Env K NonlinSysData X NonlinMeasData Y))
    exact OptP.of_eq h1 ⟨h5 he.noise.2.1 (by rw [he.noise.1.1]; exact hsp), he.setSys h3 h4⟩
  · intro e x c z j dt he hx hz hR
    obtain ⟨m', x', c', h1, h2, h3, h4, _⟩ := ukfCorrect_pd hso (hmc j) (hmo j) hllt junk ho he.sys (he.meas j) hR hx hz dt
      (e.setMeas j)
    exact OptP.of_eq h1 ⟨h2, he.setMeas j h3 h4⟩

end Inv

end StateEstimation
