import Verif.Props.VSHistory

/-!
# C45, C67: repeated active states, and active states changed after construction
-/

set_option linter.unusedSectionVars false

namespace StateEstimation
namespace Props

open Matrix Kalman Examples Sigma

/-! ### C45 -/

/-- One state that stays as it is. -/
noncomputable def stayClass : SysClass ℝ LinSysData Unit := SysClass.plain fun s _ _ _ => some s
/-- A sensor for that state: `C = [1]`. -/
noncomputable def lookClass : MeasClass ℝ LinMeasData Unit := MeasClass.plain fun s _ _ => some { s with der := ⟨mat1 1⟩ }
/-- One state, one control, one measurement, active states as given. -/
noncomputable def stayEnv (active : List Nat) : Env Unit LinSysData Unit LinMeasData Unit :=
  { sys := (Sys.constructLinear 1 1 1 ()).setActiveStates active, meas := fun _ => Meas.constructLinear 1 1 () }

/-- `KalmanFilterVS` with estimate `0`, variance `1`. -/
noncomputable def stayFilter (active : List Nat) : Filter ℝ DVec DMat Unit (Env Unit LinSysData Unit LinMeasData Unit) :=
  Filter.construct (kfvsPlant stayClass fun _ => lookClass)
    { allowPast := false, rewindHistory := false, historyWindow := 0 } (stayEnv active) (vec1 0) (mat1 1) 0

theorem stayClass_add (s : Sys LinSysData Unit) (a b : DVec) : stayClass.add s a b = a.add b := rfl
theorem lookClass_sub (s : Meas LinMeasData Unit) (a b : DVec) : lookClass.sub s a b = a.sub b := rfl

/-- All entries equal. -/
def constM (r c : Nat) (v : ℝ) : Matrix (Fin r) (Fin c) ℝ := fun _ _ => v

@[simp] theorem constM_apply (r c : Nat) (v : ℝ) (i : Fin r) (j : Fin c) : constM r c v i j = v := rfl

section Twice
variable (N : Nat) (hN : 0 < N)

theorem fin1_eq (i : Fin 1) : i = 0 := Subsingleton.elim _ _

theorem mapAt_rep (i : Fin (List.replicate N 0).length) : mapAt (List.replicate N 0) i = 0 := by
  unfold mapAt
  have := i.isLt
  simp only [List.length_replicate] at this
  rw [if_neg (by simp; omega)]
  simp [List.getD_eq_getElem?_getD, this]

include hN

theorem rep_ne : (!(List.replicate N 0).isEmpty) = true := by simp; omega

theorem getSubset_rep (x : Fin 1 → ℝ) : getSubset (.of x) (List.replicate N 0) = some (.of fun _ : Fin N => x 0) := by
  unfold getSubset
  rw [if_pos (rep_ne N hN), dif_pos (by intro i; rw [mapAt_rep]; exact Nat.one_pos)]
  have : ∀ k (h : k = N) (g : Fin k → Fin 1), (some ⟨k, fun i => x (g i)⟩ : Option DVec) = some (.of fun _ : Fin N => x 0) := by
    intro k h g; subst h; congr 2; funext i; exact congrArg x (fin1_eq _)
  exact this _ (by simp) _

theorem getSubsetSq_rep (A : Matrix (Fin 1) (Fin 1) ℝ) :
    getSubsetSq (.of A) (List.replicate N 0) = some (.of (constM N N (A 0 0))) := by
  unfold getSubsetSq
  rw [if_pos (rep_ne N hN), dif_pos (by intro i j; rw [mapAt_rep, mapAt_rep]; exact ⟨Nat.one_pos, Nat.one_pos⟩)]
  have : ∀ k (h : k = N) (g g' : Fin k → Fin k → Fin 1), (some ⟨k, k, fun i j => A (g i j) (g' i j)⟩ : Option DMat)
      = some (.of (constM N N (A 0 0))) := by
    intro k h g g'; subst h; congr 2; funext i j; exact congrArg₂ A (fin1_eq _) (fin1_eq _)
  exact this _ (by simp) _ _

theorem getSubset2_rep (A : Matrix (Fin 1) (Fin 1) ℝ) :
    getSubset2 (.of A) [] (List.replicate N 0) = some (.of (constM 1 N (A 0 0))) := by
  unfold getSubset2
  rw [if_pos (by rw [rep_ne N hN]; rfl)]
  have e : mapSize (List.replicate N 0) (DMat.of A).cols = N := by
    unfold mapSize
    rw [if_neg (by simp; omega)]; simp
  have : ∀ k (h : k = N), (if h : ∀ (i : Fin 1) (j : Fin k), mapAt [] i < 1 ∧ mapAt (List.replicate N 0) j < 1 then
      (some ⟨1, k, fun i j => A ⟨mapAt [] i, (h i j).1⟩ ⟨mapAt (List.replicate N 0) j, (h i j).2⟩⟩ : Option DMat) else none)
      = some (.of (constM 1 N (A 0 0))) := by
    intro k h
    subst h
    rw [dif_pos (fun i j => ⟨by unfold mapAt; simp, by
      have h0 := mapAt_rep k (Fin.cast (by simp) j)
      exact lt_of_eq_of_lt h0 Nat.one_pos⟩)]
    congr 2; funext i j; exact congrArg₂ A (fin1_eq _) (fin1_eq _)
  exact this _ e

omit hN in
theorem writeVec_rep (c : ℝ) : ∀ (r i : Nat) (full : Fin 1 → ℝ), i + r ≤ N →
    writeVec (.of fun _ : Fin N => c) i (List.replicate r 0) (.of full) = some (.of fun a => if r = 0 then full a else c) := by
  intro r
  induction r with
  | zero => intro i full _; rfl
  | succ r ih =>
    intro i full h
    rw [List.replicate_succ]
    refine bind_step (get_of_fin (fun _ : Fin N => c) ⟨i, by omega⟩) ?_
    refine bind_step (set_of full 0 c) ?_
    rw [ih _ _ (by omega)]
    congr 2
    funext a
    rw [fin1_eq a]
    simp

omit hN in
theorem writeRow_rep (c : ℝ) (i : Fin N) : ∀ (r j : Nat) (full : Matrix (Fin 1) (Fin 1) ℝ), j + r ≤ N →
    writeRow (.of (constM N N c)) i 0 j (List.replicate r 0) (.of full)
      = some (.of fun a b => if r = 0 then full a b else c) := by
  intro r
  induction r with
  | zero => intro i full _; rfl
  | succ r ih =>
    intro j full h
    rw [List.replicate_succ]
    refine bind_step (get2_of (constM N N c) i ⟨j, by omega⟩) ?_
    obtain ⟨B, h1, h2, _⟩ := set2_of full 0 0 c
    refine bind_step h1 ?_
    rw [ih _ _ (by omega)]
    congr 2
    funext a b
    rw [fin1_eq a, fin1_eq b, h2]
    simp

theorem writeMat_rep (c : ℝ) : ∀ (r i : Nat) (full : Matrix (Fin 1) (Fin 1) ℝ), i + r ≤ N →
    writeMat (.of (constM N N c)) (List.replicate N 0) i (List.replicate r 0) (.of full)
      = some (.of fun a b => if r = 0 then full a b else c) := by
  intro r
  induction r with
  | zero => intro i full _; rfl
  | succ r ih =>
    intro i full h
    rw [List.replicate_succ]
    refine bind_step (writeRow_rep N c ⟨i, by omega⟩ N 0 full (by omega)) ?_
    simp only [if_neg (by omega : ¬ N = 0)]
    refine (ih (i + 1) (fun _ _ => c) (by omega)).trans ?_
    congr 2
    funext a b
    simp

/-- The state named `N` times, corrected once: the result depends on `N`. -/
theorem stay_correct : ∃ g, (stayFilter (List.replicate N 0)).correct (kfvsPlant stayClass fun _ => lookClass)
      (vec1 1) (mat1 1) 0 (some ()) = some g ∧
    g.getState = vec1 (N / (N ^ 2 + 1)) ∧ g.getCovariance = mat1 (1 / (N ^ 2 + 1)) := by
  have hact : ((stayEnv (List.replicate N 0)).sys).activeStates = List.replicate N 0 := by
    have : validIndices 1 (List.replicate N 0) = List.replicate N 0 := by
      clear hN
      induction N with
      | zero => rfl
      | succ N ih => rw [List.replicate_succ, validIndices, if_pos Nat.one_pos, ih]
    show sortIndices (validIndices 1 (List.replicate N 0)) = _
    rw [this]
    exact List.Pairwise.insertionSort_eq (List.pairwise_replicate.mpr (Or.inr (Nat.le_refl 0)))
  have hdet : ((N : ℝ) ^ 2 + 1) ≠ 0 := by positivity
  have hinn : innov (constM N N 1) (constM 1 N 1) !![1] = !![(N : ℝ) ^ 2 + 1] := by
    ext i j
    fin_cases i; fin_cases j
    simp [innov, Matrix.mul_apply]
    ring
  have hG : gain (constM N N 1) (constM 1 N 1) !![1]
      = constM N 1 (N / (N ^ 2 + 1)) := by
    unfold gain
    rw [hinn, Matrix.inv_subsingleton]
    ext i j
    fin_cases j
    simp [Matrix.mul_apply]
    try rfl
  have key : ∀ {Z : Type} (m : Meas LinMeasData Unit) (back : Meas LinMeasData Unit → Z), m.activeMeasurements = [] →
      m.fm.stateDims = 1 → m.measDims = 1 → m.cov = mat1 1 →
      kfvsCorrect stayClass lookClass (stayEnv (List.replicate N 0)).sys m (vec1 0) (mat1 1) (vec1 1) (0 : ℝ) back
        = some (vec1 (N / (N ^ 2 + 1)), mat1 (1 / (N ^ 2 + 1)), back { m with der := ⟨mat1 1⟩ }) := by
    intro Z m back ha hd hm hc
    unfold kfvsCorrect
    rw [hact]
    refine bind_step (a := { m with der := ⟨mat1 1⟩ }) (by unfold Meas.update; rw [if_pos (show (vec1 0).size = m.stateSize from hd.symm)]; rfl) ?_
    refine bind_step (getSubset_rep N hN _) ?_
    refine bind_step (getSubsetSq_rep N hN _) ?_
    refine bind_step (a := .of (constM 1 N 1)) (by show getSubset2 _ m.activeMeasurements _ = _; rw [ha]; exact getSubset2_rep N hN _) ?_
    refine bind_step (a := mat1 1) (by show getSubsetSq m.cov m.activeMeasurements = _; rw [ha, hc]; rfl) ?_
    refine bind_step (a := .of (constM N 1 (N / (N ^ 2 + 1)))) ?_ ?_
    · refine (kalmanGain_of (constM N N 1) (constM 1 N 1) !![1] ?_).trans (by rw [hG])
      rw [hinn]; simpa using hdet
    refine bind_step (DMat.mulVec_of _ _) ?_
    refine bind_step (a := _) (by show convertSubsetToFullZeroed _ m.activeMeasurements _ = _; rw [ha]; rfl) ?_
    refine bind_step (a := .of (![1] - constM 1 N 1 *ᵥ fun _ => ![(0 : ℝ)] 0)) (by rw [lookClass_sub]; exact DVec.sub_of _ _) ?_
    refine bind_step (a := _) (by show getSubset _ m.activeMeasurements = _; rw [ha]; rfl) ?_
    refine bind_step (DMat.mulVec_of _ _) ?_
    refine bind_step (a := vec1 (N / (N ^ 2 + 1))) ?_ ?_
    · unfold convertSubsetToFullZeroed
      rw [if_pos (rep_ne N hN)]
      have e1 : (constM N 1 ((N : ℝ) / (N ^ 2 + 1))) *ᵥ (![1] - constM 1 N 1 *ᵥ fun _ => ![(0 : ℝ)] 0)
        = fun _ => (N : ℝ) / (N ^ 2 + 1) := by
        funext i; simp [Matrix.mulVec, dotProduct]
      rw [e1]
      refine (writeVec_rep N _ N 0 (fun _ => 0) (by omega)).trans ?_
      congr 2; funext a; rw [fin1_eq a, if_neg (by omega)]; rfl
    refine bind_step (a := .of (![0] + ![(N : ℝ) / (N ^ 2 + 1)])) (by rw [stayClass_add]; exact DVec.add_of _ _) ?_
    refine bind_step (shrinkCov_of _ _ _) ?_
    refine bind_step (a := mat1 (1 / (N ^ 2 + 1))) ?_ ?_
    · unfold convertSubsetToFullSq
      rw [if_pos (rep_ne N hN)]
      have e1 : (1 - constM N 1 ((N : ℝ) / (N ^ 2 + 1)) * constM 1 N 1) * constM N N (!![(1 : ℝ)] 0 0)
        = constM N N (1 / ((N : ℝ) ^ 2 + 1)) := by
        ext i j
        rw [Matrix.sub_mul, Matrix.one_mul]
        simp [Matrix.mul_apply]
        field_simp
        try ring
      rw [e1]
      refine (writeMat_rep N hN _ N 0 !![1] (by omega)).trans ?_
      congr 2; funext a b; rw [fin1_eq a, fin1_eq b, if_neg (by omega)]; rfl
    congr 3
    funext i
    fin_cases i
    simp
  obtain ⟨g, h1, h2, h3, _⟩ := mk_correct_now (stayFilter (List.replicate N 0)) (vec1 1) (mat1 1) () ⟨rfl, rfl⟩ rfl
    (sc := stayClass) (mc := fun _ => lookClass)
    (predict := fun e x cov u dt => kfvsPredict stayClass e.sys x cov u dt fun s => { e with sys := s })
    (correct := fun e x cov z k dt => kfvsCorrect stayClass lookClass e.sys (e.meas k) x cov z dt (e.setMeas k))
    (by
      have := key (((stayEnv (List.replicate N 0)).setMeas () (((stayEnv (List.replicate N 0)).meas ()).withCov (mat1 1))).meas ())
        (((stayEnv (List.replicate N 0)).setMeas () (((stayEnv (List.replicate N 0)).meas ()).withCov (mat1 1))).setMeas ()) rfl rfl rfl rfl
      have h0 : TimeOps.sub (stayFilter (List.replicate N 0)).getStateTime (stayFilter (List.replicate N 0)).getStateTime = (0 : ℝ) :=
        sub_self _
      rw [h0]
      exact this)
  exact ⟨g, h1, h2, h3⟩

end Twice

/-- **C45 is false: repeating a state changes the estimate.**  One state, estimate 0 with variance 1, one measurement of
it, value 1 with variance 1.  `setActiveStates({0, ..., 0})` with `N` entries: the corrected variance is `1 / (N² + 1)`,
right (1/2) for `N = 1` only; any other number of repetitions makes the filter too certain of the same measurement. -/
theorem C45_refuted_repeated_overconfident (N : Nat) (hN : 1 < N) :
    ∃ g1 gN, (stayFilter [0]).correct (kfvsPlant stayClass fun _ => lookClass) (vec1 1) (mat1 1) 0 (some ()) = some g1 ∧
      (stayFilter (List.replicate N 0)).correct (kfvsPlant stayClass fun _ => lookClass) (vec1 1) (mat1 1) 0 (some ()) = some gN ∧
      g1.getState = vec1 (1 / 2) ∧ g1.getCovariance = mat1 (1 / 2) ∧
      gN.getState = vec1 (N / (N ^ 2 + 1)) ∧ gN.getCovariance = mat1 (1 / (N ^ 2 + 1)) ∧
      (1 : ℝ) / (N ^ 2 + 1) < 1 / 2 := by
  obtain ⟨g1, a1, a2, a3⟩ := stay_correct 1 Nat.one_pos
  obtain ⟨gN, b1, b2, b3⟩ := stay_correct N (by omega)
  refine ⟨g1, gN, a1, b1, ?_, ?_, b2, b3, ?_⟩
  · rw [a2]; norm_num
  · rw [a3]; norm_num
  · have : (2 : ℝ) ≤ N := by exact_mod_cast hN
    apply one_div_lt_one_div_of_lt <;> nlinarith

/-! ### C67 -/

section Grow
variable {T K X Y : Type} [DecidableEq K] [LinearOrder T] [ExactTime T]

theorem setCol_cols {A B : DMat} {j : Nat} {v : DVec} (h : A.setCol? j v = some B) : B.cols = A.cols ∧ j < A.cols := by
  unfold DMat.setCol? at h
  split at h
  next h' => injection h with h; rw [← h]; exact ⟨rfl, h'.1⟩
  next => cases h

/-- The sigma point loop writes column `2 a`; if there is no such column it stops with a failed assertion. -/
theorem ukfvsPredictLoop_overflow (sc : SysClass T NonlinSysData X) (L : DMat) (x u : DVec) (dt : T) (a : Nat) :
    ∀ (fuel i : Nat) (offset : DVec) (s : Sys NonlinSysData X) (pts : DMat), 0 < fuel → i + fuel = a → pts.cols ≤ 2 * a →
      ukfvsPredictLoop sc L x u dt a fuel i offset s pts = none := by
  intro fuel
  induction fuel with
  | zero => intro i _ _ _ h; omega
  | succ fuel ih =>
    intro i offset s pts _ hi hp
    unfold ukfvsPredictLoop
    cases hc : L.col? i with
    | none => rfl
    | some c =>
    refine bind_step rfl ?_
    cases ho : convertSubsetToFull c offset s.activeStates with
    | none => rfl
    | some o =>
    refine bind_step rfl ?_
    cases hh : sc.add s x o with
    | none => rfl
    | some xh =>
    refine bind_step rfl ?_
    cases hu : s.update sc xh u dt with
    | none => rfl
    | some s1 =>
    refine bind_step rfl ?_
    cases hs : pts.setCol? (i + 1) s1.der.g with
    | none => rfl
    | some p1 =>
    refine bind_step rfl ?_
    cases hl : sc.sub s1 x o with
    | none => rfl
    | some xl =>
    refine bind_step rfl ?_
    cases hu2 : s1.update sc xl u dt with
    | none => rfl
    | some s2 =>
    refine bind_step rfl ?_
    cases hs2 : p1.setCol? (i + 1 + a) s2.der.g with
    | none => rfl
    | some p2 =>
    refine bind_step rfl ?_
    have h1 := setCol_cols hs
    have h2 := setCol_cols hs2
    exact ih (i + 1) o s2 p2 (by omega) (by omega) (by omega)

theorem ukfvsPredict_overflow {Z : Type} (llt : DMat → Option DMat) (junk : Nat → Nat → ℝ) (sc : SysClass T NonlinSysData X)
    (sp : SigmaParams) (s : Sys NonlinSysData X) (x : DVec) (cov : DMat) (u : DVec) (dt : T)
    (back : Sys NonlinSysData X → Z) (ha : 0 < s.activeStateSize) (hn : sp.num ≤ 2 * s.activeStateSize) :
    ukfvsPredict llt junk sc sp s x cov u dt back = none := by
  unfold ukfvsPredict
  cases h1 : getSubset2 cov s.activeStates s.activeStates with
  | none => rfl
  | some covS =>
  refine bind_step rfl ?_
  cases h2 : llt (covS.smul (s.activeStateSize + sp.lambda)) with
  | none => rfl
  | some L =>
  refine bind_step rfl ?_
  cases h3 : s.update sc x u dt with
  | none => rfl
  | some s1 =>
  refine bind_step rfl ?_
  cases h4 : (DMat.uninit junk s.stateSize sp.num).setCol? 0 s1.der.g with
  | none => rfl
  | some p1 =>
  refine bind_step rfl ?_
  rw [ukfvsPredictLoop_overflow sc L x u dt s.activeStateSize s.activeStateSize 0 _ s1 p1 ha (by omega)
    (by rw [(setCol_cols h4).1]; exact hn)]
  rfl

/-- **C67 is false: activating more states than at construction makes every prediction of UKFVS fail.**  The filter
chose its sigma point parameters when it was constructed (or when `setSigmaPointParameters` was last called) for the
states active then; `setActiveStates(l)` with more states is accepted without complaint, and the next `predict(u, t)`
runs past the end of the sigma point matrix - for every model, every estimate and every control that is not stationary.
(Failure is a failed Eigen assertion; with assertions compiled out, a write outside the matrix.) -/
theorem C67_refuted_more_states (llt : DMat → Option DMat) (junk : Nat → Nat → ℝ) (sc : SysClass T NonlinSysData X)
    (mc : K → MeasClass T NonlinMeasData Y) (e : Env K NonlinSysData X NonlinMeasData Y) (sp : SigmaParams)
    (hsp : ukfvsInitSigma e = some sp) (l : List Nat)
    (hmore : e.sys.activeStateSize < (e.sys.setActiveStates l).activeStateSize)
    (f : Filter T DVec DMat K (Env K NonlinSysData X NonlinMeasData Y × SigmaParams))
    (hf : f.env = ({ e with sys := e.sys.setActiveStates l }, sp)) (hRc : e.sys.Rc.Is e.sys.controlDims e.sys.controlDims)
    (u : DVec) (hu : 0 < u.size) (t : T) (ht : f.getStateTime ≤ t)
    (hst : (e.sys.fm.checkStationary && e.sys.fm.isStationary f.getState u) = false) :
    f.predictControl (ukfvsPlant llt junk sc mc) u t = none := by
  have hnum : sp.num = 2 * e.sys.activeStateSize + 1 := by
    obtain ⟨lam, _, _, h⟩ := setSigma_eq hsp
    rw [h]
  rw [Filter.predictControl_inorder _ f u t ht, Filter.applyInput_eq]
  suffices h : Core.apply (ukfvsPlant llt junk sc mc) f.core (controlInput (ukfvsPlant llt junk sc mc) f u t) = none by
    rw [h]; rfl
  have hset : (ukfvsPlant llt junk sc mc).setRc f.env ((ukfvsPlant llt junk sc mc).rc f.env) = some f.env := by
    rw [hf]
    have := mkPlant_setRc (sc := sc) (mc := mc)
      (pr := fun e x cov u dt => ukfvsPredict llt junk sc sp e.sys x cov u dt fun s => { e with sys := s })
      (co := fun e x cov z k dt => ukfvsCorrect llt junk sc (mc k) sp e.sys (e.meas k) x cov z dt (e.setMeas k))
      { e with sys := e.sys.setActiveStates l } hRc
    show ((mkPlant sc mc _ _).setRc { e with sys := e.sys.setActiveStates l } _).map _ = _
    erw [this]; rfl
  have h2 : ((ukfvsPlant llt junk sc mc).sysCheck f.core.env && (ukfvsPlant llt junk sc mc).sysIsStationary f.core.env f.core.x u) = false := by
    have : f.core.env = ({ e with sys := e.sys.setActiveStates l }, sp) := hf
    rw [this]
    exact hst
  have h3 : (ukfvsPlant llt junk sc mc).myPredict f.core.env f.core.x f.core.cov u (TimeOps.sub t f.core.ts) = none := by
    have : f.core.env = ({ e with sys := e.sys.setActiveStates l }, sp) := hf
    rw [this]
    have h0 : ukfvsPredict llt junk sc sp (e.sys.setActiveStates l) f.core.x f.core.cov u (TimeOps.sub t f.core.ts)
        (fun s => ({ e with sys := s } : Env K NonlinSysData X NonlinMeasData Y)) = none :=
      ukfvsPredict_overflow llt junk sc sp _ _ _ _ _ _ (by omega) (by omega)
    show (ukfvsPredict llt junk sc sp (e.sys.setActiveStates l) f.core.x f.core.cov u (TimeOps.sub t f.core.ts)
        (fun s => ({ e with sys := s } : Env K NonlinSysData X NonlinMeasData Y))).map _ = none
    rw [h0]; rfl
  unfold Core.apply controlInput
  simp only [if_true]
  unfold Core.control
  have h1 : (ukfvsPlant llt junk sc mc).setRc f.core.env ((ukfvsPlant llt junk sc mc).rc f.env) = some f.env := hset
  have hu' : (ukfvsPlant llt junk sc mc).vsize u > 0 := hu
  have h3' : (ukfvsPlant llt junk sc mc).myPredict f.env f.core.x f.core.cov u (TimeOps.sub t f.core.ts) = none := h3
  simp only [hu', if_true, h1, h2, Bool.not_false, h3', Option.map_none]

/-- The situation arises: two states, `UKFVS` constructed with the first one active, then all of them made active. -/
example : ∃ e : Env Unit NonlinSysData Unit NonlinMeasData Unit, (∃ sp, ukfvsInitSigma e = some sp) ∧
    e.sys.activeStateSize < (e.sys.setActiveStates []).activeStateSize ∧ e.sys.Rc.Is e.sys.controlDims e.sys.controlDims := by
  refine ⟨{ sys := (Sys.constructNonlinear 2 1 1 ()).setActiveStates [0], meas := fun _ => Meas.constructNonlinear 2 1 () },
    ?_, by decide +kernel, ⟨rfl, rfl⟩⟩
  have h1 : ((Sys.constructNonlinear 2 1 1 () : Sys NonlinSysData Unit).setActiveStates [0]).activeStateSize = 1 := by decide +kernel
  unfold ukfvsInitSigma
  rw [h1]
  have : ((1 : ℕ) : ℝ) + (0.001 ^ 2 * (((1 : ℕ) : ℝ) + 0) - ((1 : ℕ) : ℝ)) ≠ 0 := by norm_num
  unfold setSigma
  simp only [this, if_false]
  exact ⟨_, rfl⟩

end Grow

section Shrink

/-- Two states; every prediction returns to zero. -/
noncomputable def resetClass : SysClass ℝ NonlinSysData Unit := SysClass.plain fun s _ _ _ => some s
noncomputable def blindClass : MeasClass ℝ NonlinMeasData Unit := MeasClass.plain fun s _ _ => some s
/-- Both states active. -/
noncomputable def resetEnv : Env Unit NonlinSysData Unit NonlinMeasData Unit :=
  { sys := Sys.constructNonlinear 2 1 1 (), meas := fun _ => Meas.constructNonlinear 2 1 () }

/-- `UKFVS` as constructed, then `setActiveStates({0})`. -/
noncomputable def resetFilter (llt : DMat → Option DMat) (junk : Nat → Nat → ℝ) (sp : SigmaParams) :
    Filter ℝ DVec DMat Unit (Env Unit NonlinSysData Unit NonlinMeasData Unit × SigmaParams) :=
  Filter.construct (ukfvsPlant llt junk resetClass fun _ => blindClass)
    { allowPast := false, rewindHistory := false, historyWindow := 0 }
    ({ resetEnv with sys := resetEnv.sys.setActiveStates [0] }, sp) (.zero 2) (.identity 2) 0

theorem resetClass_update (s : Sys NonlinSysData Unit) (x u : DVec) (dt : ℝ) (hx : x.size = s.stateSize)
    (hu : u.size = s.controlDims) : s.update resetClass x u dt = some s := by
  unfold Sys.update
  rw [if_pos ⟨hx, hu⟩]; rfl

theorem resetClass_ops (s : Sys NonlinSysData Unit) (a b : DVec) (w : DVec) (A : DMat) :
    resetClass.add s a b = a.add b ∧ resetClass.sub s a b = a.sub b ∧ resetClass.wsum s w A = weightedSum w A := ⟨rfl, rfl, rfl⟩

theorem sel0_selects : Selects [0] (fun _ : Fin 1 => (0 : Fin 2)) :=
  ⟨by decide, fun a b _ => Subsingleton.elim a b⟩

/-- **C67 is false: with fewer active states than at construction the estimate of UKFVS is uninitialised memory.**  Two
states, `UKFVS` constructed with both active, then `setActiveStates({0})`.  The system model returns the zero vector
whatever it is given, so every sigma point is zero, yet the predicted state is `500000 v` where `v` is the content of
freshly allocated memory: the sigma points of the second state are no longer computed but still averaged.  (Nothing is
assumed of `llt` except that it returns a matrix of the size of its argument, as Eigen's does also when the argument is
not positive definite - here it is not: `a + lambda < 0`.) -/
theorem C67_refuted_fewer_states (llt : DMat → Option DMat)
    (hllt : ∀ (n : Nat) (M : Matrix (Fin n) (Fin n) ℝ), ∃ L : Matrix (Fin n) (Fin n) ℝ, llt (.of M) = some (.of L)) (v : ℝ) :
    ∃ sp g, ukfvsInitSigma resetEnv = some sp ∧
      (resetFilter llt (fun _ _ => v) sp).predictControl (ukfvsPlant llt (fun _ _ => v) resetClass fun _ => blindClass) (vec1 0) 1
        = some g ∧ g.getState = .of fun _ : Fin 2 => 500000 * v := by
  obtain ⟨sp, hsp⟩ : ∃ sp, ukfvsInitSigma resetEnv = some sp := by
    have : ((2 : ℕ) : ℝ) + (0.001 ^ 2 * (((2 : ℕ) : ℝ) + 0) - ((2 : ℕ) : ℝ)) ≠ 0 := by norm_num
    show ∃ sp, setSigma 2 2 0.001 0 2 = some sp
    unfold setSigma
    simp only [this, if_false]
    exact ⟨_, rfl⟩
  obtain ⟨lam, hl1, hl2, hsp'⟩ := setSigma_eq (n := 2) hsp
  set s : Sys NonlinSysData Unit := resetEnv.sys.setActiveStates [0] with hs
  have hact : s.activeStates = [0] := by decide +kernel
  have hsz : s.stateSize = 2 := rfl
  have hctl : s.controlDims = 1 := rfl
  have hg : s.der.g = .of (0 : Fin 2 → ℝ) := rfl
  have hasz : s.activeStateSize = 1 := by decide +kernel
  have key : ∀ {Z : Type} (back : Sys NonlinSysData Unit → Z), ∃ c,
      ukfvsPredict llt (fun _ _ => v) resetClass sp s (.zero 2) (.identity 2) (vec1 0) (1 : ℝ) back
        = some (.of fun _ : Fin 2 => 500000 * v, c, back s) := by
    intro Z back
    unfold ukfvsPredict
    rw [hasz, hact]
    obtain ⟨L, hL⟩ := hllt 1 ((((1 : ℕ) : ℝ) + sp.lambda) • (1 : Matrix (Fin 2) (Fin 2) ℝ).submatrix (fun _ : Fin 1 => 0) (fun _ : Fin 1 => 0))
    have eS : getSubset2 (.identity 2) [0] [0] = some (.of ((1 : Matrix (Fin 2) (Fin 2) ℝ).submatrix (fun _ : Fin 1 => 0) (fun _ : Fin 1 => 0))) :=
      getSubset2_of sel0_selects sel0_selects 1
    have eN : sp.num = 5 := by rw [hsp']
    -- the sigma points: the first three columns are written, the last two are not
    set y : Nat → Fin 2 → ℝ := Function.update (Function.update (Function.update (fun _ _ => v) 0 0) 1 0) 2 0 with hy
    have hloop : ukfvsPredictLoop resetClass (.of L) (.zero 2) (vec1 0) (1 : ℝ) 1 1 0 (DVec.zero s.stateSize) s
          (ptsOf 5 (Function.update (fun _ (_ : Fin 2) => v) 0 (0 : Fin 2 → ℝ))) = some (s, ptsOf 5 y) := by
      unfold ukfvsPredictLoop
      refine bind_step (col_of L Nat.one_pos) ?_
      rw [hact, hsz]
      obtain ⟨o, ho, _⟩ := convertSubsetToFull_of sel0_selects (colsOf L 0) (0 : Fin 2 → ℝ)
      have ho' : convertSubsetToFull (.of (colsOf L 0)) (.zero 2) [0] = some (.of o) := ho
      refine bind_step (a := .of o) ho' ?_
      refine bind_step (a := .of (0 + o)) (by rw [(resetClass_ops s _ _ (.zero 0) (.zero 0 0)).1]; exact DVec.add_of _ _) ?_
      refine bind_step (resetClass_update s _ _ _ rfl rfl) ?_
      refine bind_step (by rw [hg]; exact setCol_pts _ (by decide) _) ?_
      refine bind_step (a := .of (0 - o)) (by rw [(resetClass_ops s _ _ (.zero 0) (.zero 0 0)).2.1]; exact DVec.sub_of _ _) ?_
      refine bind_step (resetClass_update s _ _ _ rfl rfl) ?_
      refine bind_step (by rw [hg]; exact setCol_pts _ (by decide) _) ?_
      rfl
    have hmean : ∑ j ∈ Finset.range 5, wm 2 lam j • y j = fun _ => 500000 * v := by
      have hy0 : y 0 = 0 := by simp [hy, Function.update]
      have hy1 : y 1 = 0 := by simp [hy, Function.update]
      have hy2 : y 2 = 0 := by simp [hy, Function.update]
      have hy3 : y 3 = fun _ => v := by simp [hy, Function.update]
      have hy4 : y 4 = fun _ => v := by simp [hy, Function.update]
      simp only [Finset.sum_range_succ, Finset.sum_range_zero, hy0, hy1, hy2, hy3, hy4, smul_zero, add_zero, zero_add]
      have h2l : ((2 : ℕ) : ℝ) + lam = 0.000002 := by rw [hl1]; norm_num
      have e3 : wm 2 lam 3 = 250000 := by rw [wm_succ, h2l]; norm_num
      have e4 : wm 2 lam 4 = 250000 := by rw [wm_succ, h2l]; norm_num
      rw [e3, e4]
      funext i
      simp only [Pi.add_apply, Pi.smul_apply, smul_eq_mul]
      ring
    obtain ⟨N, hN, hN2⟩ := noiseCov_is (P := DMat.zero 1 1) (Rp := s.Rp) (V := .zero 1 1) (Rc := s.Rc) (n := 1) (m := 1) (p := 1)
      ⟨rfl, rfl⟩ ⟨rfl, rfl⟩ ⟨rfl, rfl⟩ ⟨rfl, rfl⟩
    obtain ⟨B, hB, hB2⟩ := covLoop_is (N := 5) (w := sp.wCov) (by rw [hsp'])
      (f := fun i => do
        let c ← (ptsOf 5 y).col? i
        let dx ← resetClass.sub s c (.of fun _ : Fin 2 => 500000 * v)
        let dxS ← getSubset dx [0]
        some (dxS, dxS)) (r := 1) (c := 1)
      (by
        intro i hi
        refine ⟨.of ((y i - fun _ => 500000 * v) ∘ fun _ : Fin 1 => 0), .of ((y i - fun _ => 500000 * v) ∘ fun _ : Fin 1 => 0), ?_, rfl, rfl⟩
        refine bind_step (col_pts y hi) ?_
        refine bind_step (a := .of (y i - fun _ => 500000 * v))
          (by rw [(resetClass_ops s _ _ (.zero 0) (.zero 0 0)).2.1]; exact DVec.sub_of _ _) ?_
        exact bind_step (getSubset_of sel0_selects _) rfl)
      5 0 N (by omega) hN2
    obtain ⟨B, rfl⟩ := hB2.exists_of
    obtain ⟨C, hC, _⟩ := convertSubsetToFullSq_of sel0_selects B (1 : Matrix (Fin 2) (Fin 2) ℝ)
    refine ⟨.of C, ?_⟩
    refine bind_step eS ?_
    refine bind_step hL ?_
    refine bind_step (resetClass_update s _ _ _ rfl rfl) ?_
    rw [hg, eN]
    refine bind_step (setCol_pts (N := 5) (n := 2) (fun _ _ => v) (by decide) 0) ?_
    refine bind_step hloop ?_
    refine bind_step (a := .of fun _ : Fin 2 => 500000 * v) ?_ ?_
    · rw [(resetClass_ops s (.zero 0) (.zero 0) _ _).2.2, hsp']
      refine (weightedSum_pts (N := 5) (wm 2 lam) y).trans ?_
      rw [hmean]
    dsimp only
    have hactc : s.activeControls = [] := rfl
    rw [hactc, hact]
    refine bind_step (a := s.Rc) rfl ?_
    refine bind_step (a := .zero 1 1) ?_ ?_
    · trivial
    refine bind_step (a := .zero 1 1) ?_ ?_
    · trivial
    refine bind_step hN ?_
    refine bind_step hB ?_
    exact bind_step hC rfl
  obtain ⟨c, hc⟩ := key (fun s => ({ resetEnv with sys := s } : Env Unit NonlinSysData Unit NonlinMeasData Unit))
  obtain ⟨g, h1, h2, _⟩ := with_predict_now (resetFilter llt (fun _ _ => v) sp) (vec1 0) Nat.one_pos 1 (show (0 : ℝ) ≤ 1 from zero_le_one)
    (sc := resetClass) (mc := fun _ => blindClass) ⟨rfl, rfl⟩ rfl
    (predict := fun sp e x cov u dt => ukfvsPredict llt (fun _ _ => v) resetClass sp e.sys x cov u dt fun s => { e with sys := s })
    (correct := fun sp e x cov z k dt => ukfvsCorrect llt (fun _ _ => v) resetClass blindClass sp e.sys (e.meas k) x cov z dt (e.setMeas k))
    (x := .of fun _ : Fin 2 => 500000 * v) (c := c) (e := { resetEnv with sys := s })
    (by
      have h0 : TimeOps.sub (1 : ℝ) (resetFilter llt (fun _ _ => v) sp).getStateTime = (1 : ℝ) := sub_zero _
      rw [h0]
      exact hc)
  exact ⟨sp, g, hsp, h1, h2⟩

end Shrink

section Reset
open Matrix
variable {T K X Y : Type} [DecidableEq K] [LinearOrder T] [ExactTime T] {n m ns ms : Nat}

/-- **C67, the part that holds.**  Whatever was active before and whatever the sigma point parameters were, if the user follows
`setActiveStates(l)` by `setSigmaPointParameters(alpha, kappa, beta)` with `alpha² (ns + kappa) > 0` and `beta ≥ alpha²`
(`ns` the number of states active now), then the next `predict(u, t)` works, refers to the states active now and leaves all
covariance entries of the others alone.  Missing from C67: without the second call it is false (above). -/
theorem C67_new_parameters_partial {llt : DMat → Option DMat} (hllt : LltSpec llt) (junk : Nat → Nat → ℝ)
    {sc : SysClass T NonlinSysData X} {mc : K → MeasClass T NonlinMeasData Y}
    (hsc : SysContract NonlinSysData.Sized sc) (hso : sc.PlainOps) (sort)
    (f : Filter T DVec DMat K (Env K NonlinSysData X NonlinMeasData Y × SigmaParams))
    (hs : f.env.1.sys.Sized NonlinSysData.Sized n m) (l : List Nat)
    {σ : Fin ns → Fin n} (hσ : Selects (f.env.1.sys.setActiveStates l).activeStates σ) {τ : Fin ms → Fin m}
    (hτ : Selects f.env.1.sys.activeControls τ)
    {al ka be : ℝ} (hal : 0 < al ^ 2 * (ns + ka)) (hbe : al ^ 2 ≤ be)
    {x : Fin n → ℝ} {P : Matrix (Fin n) (Fin n) ℝ} (hx : f.getState = .of x) (hP : f.getCovariance = .of P)
    (hPd : (P.submatrix σ σ).PosDef) (u : Fin m → ℝ) (hm : 0 < m) (t : T) (ht : f.getStateTime ≤ t)
    (hst : (f.env.1.sys.fm.checkStationary && f.env.1.sys.fm.isStationary (.of x) (.of u)) = false) :
    ∃ g, ∃ (L : Matrix (Fin ns) (Fin ns) ℝ) (y : Nat → Fin n → ℝ) (P' : Matrix (Fin n) (Fin n) ℝ),
      f.run (ukfvsPlant llt junk sc mc) sort
        [.userModel (fun e => ukfvsSetSigma al ka be ({ e.1 with sys := e.1.sys.setActiveStates l }, e.2)),
         .predictControl (.of u) t] = some g ∧ g.getStateTime = t ∧
      L * Lᵀ = (al ^ 2 * (ns + ka)) • P.submatrix σ σ ∧
      SysImage sc n m (f.env.1.sys.setActiveStates l) (.of x) (.of u) (TimeOps.sub t f.getStateTime) (y 0) ∧
      (∀ i < ns, SysImage sc n m (f.env.1.sys.setActiveStates l) (.of (x + spread σ (colsOf L i))) (.of u)
          (TimeOps.sub t f.getStateTime) (y (i + 1)) ∧
        SysImage sc n m (f.env.1.sys.setActiveStates l) (.of (x - spread σ (colsOf L i))) (.of u)
          (TimeOps.sub t f.getStateTime) (y (i + 1 + ns))) ∧
      g.getState = .of (mean ns (al ^ 2 * (ns + ka) - ns) y) ∧ g.getCovariance = .of P' ∧
      ∀ a b, (∀ i j, ¬ (σ i = a ∧ σ j = b)) → P' a b = P a b := by
  have hs' : (f.env.1.sys.setActiveStates l).Sized NonlinSysData.Sized n m := ⟨hs.states, hs.controls, hs.der, hs.P, hs.Rp, hs.V, hs.Rc⟩
  obtain ⟨sp, hsp⟩ : ∃ sp, setSigma ns ns al ka be = some sp := by
    have : (ns : ℝ) + (al ^ 2 * (ns + ka) - ns) ≠ 0 := by
      have e : (ns : ℝ) + (al ^ 2 * (ns + ka) - ns) = al ^ 2 * (ns + ka) := by ring
      rw [e]; exact hal.ne'
    unfold setSigma
    simp only [this, if_false]
    exact ⟨_, rfl⟩
  have hset : ukfvsSetSigma al ka be ({ f.env.1 with sys := f.env.1.sys.setActiveStates l }, f.env.2) =
      some ({ f.env.1 with sys := f.env.1.sys.setActiveStates l }, sp) := by
    have ha : (f.env.1.sys.setActiveStates l).activeStateSize = ns := hs'.active hσ
    unfold ukfvsSetSigma
    show (setSigma (f.env.1.sys.setActiveStates l).activeStateSize (f.env.1.sys.setActiveStates l).activeStateSize al ka be).map _ = _
    rw [ha, hsp]; rfl
  obtain ⟨g, p, L, y, W, V, Rp, Rc, P', h1, h2, _, h3, h4, h5, _, _, _, _, h6, h7, h8, _⟩ :=
    C41_ukfvs_predict hllt junk (mc := mc) hsc hso
    ({ f with env := ({ f.env.1 with sys := f.env.1.sys.setActiveStates l }, sp) }) hs' hσ hτ hsp hal hbe
    (x := x) (P := P) hx hP hPd u hm t ht hst
  refine ⟨g, L, y, P', ?_, h2, h3, h4, h5, h6, h7, h8.others⟩
  have hstep : f.step (ukfvsPlant llt junk sc mc) sort
      (.userModel fun e => ukfvsSetSigma al ka be ({ e.1 with sys := e.1.sys.setActiveStates l }, e.2)) =
      some { f with env := ({ f.env.1 with sys := f.env.1.sys.setActiveStates l }, sp) } := by
    show (ukfvsSetSigma al ka be ({ f.env.1 with sys := f.env.1.sys.setActiveStates l }, f.env.2)).map _ = _
    rw [hset]; rfl
  rw [Filter.run, hstep]
  dsimp only
  rw [Filter.run]
  have hstep2 : Filter.step (ukfvsPlant llt junk sc mc) sort
    { f with env := ({ f.env.1 with sys := f.env.1.sys.setActiveStates l }, sp) } (.predictControl (.of u) t) = some g := h1
  rw [hstep2]
  rfl

/-- A case that meets the hypotheses on the parameters: two active states, the default parameters. -/
example : (0 : ℝ) < 0.001 ^ 2 * (((2 : ℕ) : ℝ) + 0) ∧ (0.001 : ℝ) ^ 2 ≤ 2 ∧
    Selects ((Sys.constructNonlinear 2 1 1 () : Sys NonlinSysData Unit).setActiveStates [1, 0]).activeStates (id : Fin 2 → Fin 2) := by
  refine ⟨by norm_num, by norm_num, ?_, fun a b h => h⟩
  decide +kernel

end Reset

end Props
end StateEstimation
