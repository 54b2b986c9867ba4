import Verif.Lemmas.Asking
import Verif.Props.LateBest
import Verif.Props.Modes

/-!
# C108: asking for predictions in between does not change the estimate

`predict(t)` moves the filter on, so a user who only wanted to look changes the filter.  For linear models that describe time
properly this makes no difference later on; in general, and for the models of this repository, it does.
-/

set_option linter.unusedSectionVars false

namespace StateEstimation
namespace Props

open Filter Matrix

variable {T K X Y : Type} [LinearOrder T] [ExactTime T] [DecidableEq K]

private theorem ask_opSame {V M E : Type} {P : Plant T V M K E} {RE : E → E → Prop} {op : Op T V M K E} (h1 : op.NamesSensor)
    (h2 : op.LeavesModels) : OpSame P False (fun _ _ => True) RE (fun _ => True) (fun _ _ _ => True) op op := by
  cases op with
  | init x c t => exact ⟨rfl, rfl, rfl, trivial⟩
  | predictTime t => exact rfl
  | predictControl u t => exact ⟨rfl, rfl, fun _ => trivial⟩
  | correct z c t m => exact ⟨rfl, rfl, rfl, rfl, _, (Option.some_get h1).symm, trivial⟩
  | enqueueControl u t => exact ⟨rfl, rfl, fun _ => trivial⟩
  | enqueueMeasurement z c t m => exact ⟨rfl, rfl, rfl, rfl, _, (Option.some_get h1).symm, trivial⟩
  | processQueues => trivial
  | clearControlQueue => trivial
  | clearMeasurementQueue => trivial
  | revertToState t => exact rfl
  | setParams p => exact rfl
  | userModel g => exact absurd h2 not_false

/-- The user's calls: they name sensors, do not change the model objects, and leave `rewind_history` off. -/
def PlainUse {V M E : Type} (ops : List (Op T V M K E)) : Prop := ∀ op ∈ ops, op.NamesSensor ∧ op.LeavesModels ∧ op.StaysOff

/-- What the filter reports. -/
def report {V M E : Type} (f : Filter T V M K E) : V × M × T := (f.getState, f.getCovariance, f.getStateTime)

private theorem ask_run {V M E : Type} {P : Plant T V M K E} {RE : E → E → Prop} {R : M → Prop}
    (h : AskOk P RE (fun _ => True) R (fun _ _ _ => True)) (sort : List (FilterInput T V M K) → List (FilterInput T V M K))
    (hs : ∀ l, (sort l).Perm l) (params : Params T) (hp : params.rewindHistory = false) (e : E) (he : RE e e) (x : V) (c : M)
    (t : T) {ops ops' : List (Op T V M K E)} (hops : PlainUse ops) (hA : Asked ops ops') :
    ((construct P params e x c t).run P sort ops).map report = ((construct P params e x c t).run P sort ops').map report := by
  have hr : h.sim.sim.RF (construct P params e x c t) (construct P params e x c t) := by
    refine SimRel.RF.init (R := h.sim.sim) rfl ⟨rfl, rfl, he, fun hv => ?_⟩ ⟨rfl, rfl, trivial⟩ t
    exact absurd hv (by show ¬ P.vsize P.emptyV > 0; rw [h.sim.empty]; exact Nat.lt_irrefl 0)
  have := (h.run sort hs hA (fun op ho => ⟨(hops op ho).2.2, ask_opSame (hops op ho).1 (hops op ho).2.1⟩)
    (construct P params e x c t) (construct P params e x c t)).1 ⟨hp, rfl⟩ ⟨hp, rfl⟩ hr
  rcases OptRel.elim this with ⟨h1, h2, _⟩ | ⟨a, b, h1, h2, h3⟩
  · rw [h1, h2]
  · rw [h1, h2, Option.map_some, Option.map_some]
    obtain ⟨k1, k2, k3, _⟩ := sameEstimates_of_RF h.sim h3
    unfold report
    rw [k1, k2, k3]

section general

variable {Gm Gs : Type}

private theorem env_like {DS XS DM XM : Type} {cfgS : Sys DS XS → Gs} {cfg : K → Meas DM XM → Gm} {e0 : Env K DS XS DM XM}
    {e e' : Env K DS XS DM XM} (h : EnvLike (fun s s' => cfgS s = cfgS e0.sys ∧ cfgS s' = cfgS e0.sys) cfg e0.meas e e') :
    SameSetup cfgS cfg e0 e ∧ SameSetup cfgS cfg e0 e' :=
  ⟨⟨h.1.1, fun k => (h.2 k).1⟩, h.1.2, fun k => (h.2 k).2⟩

private theorem like_env {DS XS DM XM : Type} {cfgS : Sys DS XS → Gs} {cfg : K → Meas DM XM → Gm} {e0 : Env K DS XS DM XM}
    {e e' : Env K DS XS DM XM} (h : SameSetup cfgS cfg e0 e) (h' : SameSetup cfgS cfg e0 e') :
    EnvLike (fun s s' => cfgS s = cfgS e0.sys ∧ cfgS s' = cfgS e0.sys) cfg e0.meas e e' :=
  ⟨⟨h.1, h'.1⟩, fun k => ⟨h.2 k, h'.2 k⟩⟩

/-- **C108 (Kalman filter, partial).**  Filter without rewind mode, model classes that compute their matrices from the
configuration, the state, the control and the time step (sensors: without the time step), no stationarity check in the system
model, and predictions that compose (`SplitsTime`).  Calls `predict(t)` inserted before measurements or predictions of time `t`
or later do not change what the filter reports in the end, whatever the calls are, and trip no assertion the calls without
them do not trip.  Missing: questions before a new control, models that do not compose; see `C108_control_refuted`,
`C108_noise_refuted`, `C108_six_d_refuted`. -/
theorem C108_kf_partial {sc : SysClass T LinSysData X} {mc : K → MeasClass T LinMeasData Y} (cfgS : Sys LinSysData X → Gs)
    (hsc : sc.Stateless cfgS) (cfg : K → Meas LinMeasData Y → Gm) (hmc : ∀ k, (mc k).Stateless (cfg k))
    (hdt : ∀ k s x (a b : T), (mc k).myUpdate s x a = (mc k).myUpdate s x b) (e0 : Env K LinSysData X LinMeasData Y)
    (hq : e0.sys.fm.checkStationary = false) (hsplit : SplitsTime (kfPlant sc mc) (SameSetup cfgS cfg e0))
    (sort : List (FilterInput T DVec DMat K) → List (FilterInput T DVec DMat K)) (hs : ∀ l, (sort l).Perm l)
    (params : Params T) (hp : params.rewindHistory = false) (x : DVec) (c : DMat) (t : T)
    {ops ops' : List (Op T DVec DMat K (Env K LinSysData X LinMeasData Y))} (hops : PlainUse ops) (hA : Asked ops ops') :
    ((construct (kfPlant sc mc) params e0 x c t).run (kfPlant sc mc) sort ops).map report
      = ((construct (kfPlant sc mc) params e0 x c t).run (kfPlant sc mc) sort ops').map report := by
  refine ask_run ⟨kf_sim (m0 := e0.meas) sc mc (sysRel_cfg hsc e0.sys) cfg hmc,
    fun e e' h h' => like_env (env_like h).1 (env_like h').1, fun e e' h => like_env (env_like h).1 (env_like h).1,
    fun e e' h => like_env (env_like h).2 (env_like h).2, ?_, ?_, ?_⟩ sort hs params hp e0
    (like_env ⟨rfl, fun _ => rfl⟩ ⟨rfl, fun _ => rfl⟩) x c t hops hA
  · intro e h
    show e.sys.fm.checkStationary = false
    rw [(hsc.seen _ _ h.1.1).1, hq]
  · intro e x c u t0 t1 t2 h h1 h2
    exact hsplit e x c u t0 t1 t2 (env_like h).1 h1 h2
  · intro e x c z k a b
    show kfCorrect _ _ _ _ _ _ _ _ _ = kfCorrect _ _ _ _ _ _ _ _ _
    unfold kfCorrect Meas.update
    rw [hdt k _ _ a b]

/-- **C108 (EKF, partial)**, see `C108_kf_partial`. -/
theorem C108_ekf_partial {sc : SysClass T NonlinSysData X} {mc : K → MeasClass T NonlinMeasData Y}
    (cfgS : Sys NonlinSysData X → Gs) (hsc : sc.Stateless cfgS) (cfg : K → Meas NonlinMeasData Y → Gm)
    (hmc : ∀ k, (mc k).Stateless (cfg k)) (hdt : ∀ k s x (a b : T), (mc k).myUpdate s x a = (mc k).myUpdate s x b)
    (e0 : Env K NonlinSysData X NonlinMeasData Y) (hq : e0.sys.fm.checkStationary = false)
    (hsplit : SplitsTime (ekfPlant sc mc) (SameSetup cfgS cfg e0))
    (sort : List (FilterInput T DVec DMat K) → List (FilterInput T DVec DMat K)) (hs : ∀ l, (sort l).Perm l)
    (params : Params T) (hp : params.rewindHistory = false) (x : DVec) (c : DMat) (t : T)
    {ops ops' : List (Op T DVec DMat K (Env K NonlinSysData X NonlinMeasData Y))} (hops : PlainUse ops) (hA : Asked ops ops') :
    ((construct (ekfPlant sc mc) params e0 x c t).run (ekfPlant sc mc) sort ops).map report
      = ((construct (ekfPlant sc mc) params e0 x c t).run (ekfPlant sc mc) sort ops').map report := by
  refine ask_run ⟨ekf_sim (n0 := e0.meas) sc mc (sysRel_cfg hsc e0.sys) cfg hmc,
    fun e e' h h' => like_env (env_like h).1 (env_like h').1, fun e e' h => like_env (env_like h).1 (env_like h).1,
    fun e e' h => like_env (env_like h).2 (env_like h).2, ?_, ?_, ?_⟩ sort hs params hp e0
    (like_env ⟨rfl, fun _ => rfl⟩ ⟨rfl, fun _ => rfl⟩) x c t hops hA
  · intro e h
    show e.sys.fm.checkStationary = false
    rw [(hsc.seen _ _ h.1.1).1, hq]
  · intro e x c u t0 t1 t2 h h1 h2
    exact hsplit e x c u t0 t1 t2 (env_like h).1 h1 h2
  · intro e x c z k a b
    show ekfCorrect _ _ _ _ _ _ _ _ _ = ekfCorrect _ _ _ _ _ _ _ _ _
    unfold ekfCorrect Meas.update
    rw [hdt k _ _ a b]

end general

/-! ### Linear models in continuous time -/

section linear

variable {n m p : Nat} {kd : K → Nat} (L : LinearUse T K n m p kd)

private theorem ask_setup {s : Sys LinSysData Unit} (h : late_cfgS n m p s = late_cfgS n m p L.env.sys) :
    (s.stateSize = n ∧ s.controlDims = m ∧ s.Rp.rows = p) ∧ s.Rp = .of L.Rp ∧ s.Rc = .of L.Rc := by
  have h := (Prod.mk.inj h).1
  simp only [sysConfig, Prod.mk.injEq] at h
  obtain ⟨h1, h2, _, _, h5, h6, _⟩ := h
  unfold Sys.stateSize
  rw [h1, h2, h5, h6]
  exact ⟨⟨rfl, rfl, rfl⟩, rfl, rfl⟩

private theorem ask_predict {Z : Type} {s : Sys LinSysData Unit} (h : late_cfgS n m p s = late_cfgS n m p L.env.sys)
    (x : DVec) (c : DMat) (u : DVec) (dt : T) (back : Sys LinSysData Unit → Z) :
    (¬ (x.size = n ∧ c.Is n n ∧ u.size = m) → kfPredict L.sysClass s x c u dt back = none) ∧
    ∀ (x' : Fin n → ℝ) (c' : Matrix (Fin n) (Fin n) ℝ) (u' : Fin m → ℝ), x = .of x' → c = .of c' → u = .of u' →
      ∃ s', late_cfgS n m p s' = late_cfgS n m p L.env.sys ∧ kfPredict L.sysClass s x c u dt back
        = some (.of (L.A dt *ᵥ x' + L.B dt *ᵥ u'), .of (L.A dt * c' * (L.A dt)ᵀ + L.W dt * L.Rp * (L.W dt)ᵀ
          + L.V dt * L.Rc * (L.V dt)ᵀ), back s') := by
  obtain ⟨hsh, hRp, hRc⟩ := ask_setup L h
  have hup : ∀ x u, L.sysClass.myUpdate s x u dt
      = some { s with der := ⟨.of (L.A dt), .of (L.B dt)⟩, P := .of (L.W dt), V := .of (L.V dt) } := by
    intro x u
    simp only [LinearUse.sysClass, SysClass.plain, if_pos hsh]
  constructor
  · intro hno
    cases hk : kfPredict L.sysClass s x c u dt back with
    | none => rfl
    | some r =>
      exfalso
      apply hno
      unfold kfPredict Sys.update at hk
      simp only [Option.bind_eq_bind, Option.bind_eq_some_iff] at hk
      obtain ⟨s', h1, _, _, _, _, _, _, c', h5, _⟩ := hk
      split at h1
      · rename_i hsz
        rw [hup] at h1
        obtain rfl := Option.some.inj h1
        refine ⟨by rw [← hsh.1]; exact hsz.1, ?_, by rw [← hsh.2.1]; exact hsz.2⟩
        unfold propagateCov at h5
        simp only [Option.bind_eq_bind, Option.bind_eq_some_iff] at h5
        obtain ⟨a, k1, b, k2, _⟩ := h5
        have a1 := DMat.mul_eq_some k1
        have a2 := DMat.mul_eq_some k2
        have e1 : (DMat.of (L.A dt)).cols = n := rfl
        have e2 : (DMat.of (L.A dt)).transpose.rows = n := rfl
        exact ⟨by omega, by omega⟩
      · cases h1
  · rintro x' c' u' rfl rfl rfl
    refine ⟨{ s with der := ⟨.of (L.A dt), .of (L.B dt)⟩, P := .of (L.W dt), V := .of (L.V dt) }, ?_, ?_⟩
    · have := (L.stateless).update s s (.of x') (.of u') dt rfl
      rw [hup] at this
      exact this.2.2.2.1.trans h
    · unfold kfPredict Sys.update
      rw [if_pos (show _ ∧ _ from ⟨hsh.1.symm, hsh.2.1.symm⟩), hup]
      simp only [Option.bind_eq_bind, Option.bind_some, DMat.mulVec_of]
      have ea : L.sysClass.add { s with der := ⟨.of (L.A dt), .of (L.B dt)⟩, P := .of (L.W dt), V := .of (L.V dt) }
          (.of (L.A dt *ᵥ x')) (.of (L.B dt *ᵥ u')) = some (.of (L.A dt *ᵥ x' + L.B dt *ᵥ u')) := DVec.add_of _ _
      rw [ea, hRp, hRc, propagateCov_of]
      rfl

/-- Linear models in continuous time compose. -/
theorem _root_.StateEstimation.LinearUse.Flows.splits (hL : L.Flows) :
    SplitsTime (kfPlant L.sysClass L.measClass) (SameSetup (late_cfgS n m p) (fun j => late_cfgM n (kd j)) L.env) := by
  intro e x c u t0 t1 t2 he h1 h2
  simp only [kfPlant, mkPlant]
  by_cases hz : x.size = n ∧ c.Is n n ∧ u.size = m
  · obtain ⟨hx, hc, hu⟩ := hz
    obtain ⟨x, rfl⟩ := x.exists_of hx
    obtain ⟨c, rfl⟩ := hc.exists_of
    obtain ⟨u, rfl⟩ := u.exists_of hu
    obtain ⟨s1, k1, e1⟩ := (ask_predict L he.1 (.of x) (.of c) (.of u) (TimeOps.sub t1 t0)
      (fun s => { e with sys := s })).2 x c u rfl rfl rfl
    obtain ⟨s2, k2, e2⟩ := (ask_predict L he.1 (.of x) (.of c) (.of u) (TimeOps.sub t2 t0)
      (fun s => { e with sys := s })).2 x c u rfl rfl rfl
    rw [e1, e2, Option.bind_some]
    dsimp only
    obtain ⟨s3, k3, e3⟩ := (ask_predict L k1 _ _ (.of u) (TimeOps.sub t2 t1)
      (fun s => ({ e with sys := s } : Env K LinSysData Unit LinMeasData Unit))).2 _ _ u rfl rfl rfl
    rw [e3]
    refine ⟨congrArg DVec.of ?_, congrArg DMat.of ?_⟩
    · rw [hL.state t0 t1 t2 h1 h2, hL.control t0 t1 t2 h1 h2]
      simp only [mulVec_add, mulVec_mulVec, add_mulVec, add_assoc]
    · have hn := hL.noise t0 t1 t2 h1 h2
      dsimp only at hn
      rw [add_assoc (L.A (TimeOps.sub t2 t0) * c * _), hn, hL.state t0 t1 t2 h1 h2]
      simp only [Matrix.transpose_mul, Matrix.mul_add, Matrix.add_mul, Matrix.mul_assoc, add_assoc]
  · have e1 := (ask_predict L he.1 x c u (TimeOps.sub t1 t0)
      (fun s => ({ e with sys := s } : Env K LinSysData Unit LinMeasData Unit))).1 hz
    have e2 := (ask_predict L he.1 x c u (TimeOps.sub t2 t0)
      (fun s => ({ e with sys := s } : Env K LinSysData Unit LinMeasData Unit))).1 hz
    rw [e1, e2]
    trivial

/-- **C108 (linear models in continuous time, partial).**  For linear models in continuous time (`Flows`), a user of the
Kalman filter (without rewind mode) may ask for predictions before any measurement or other question: the report in the end
is the same, for every initial belief and every sequence of calls, and no assertion trips that would not trip without the
questions. -/
theorem C108_linear_partial (hL : L.Flows) (sort : List (FilterInput T DVec DMat K) → List (FilterInput T DVec DMat K))
    (hs : ∀ l, (sort l).Perm l) (params : Params T) (hp : params.rewindHistory = false) (x : DVec) (c : DMat) (t : T)
    {ops ops' : List (Op T DVec DMat K (Env K LinSysData Unit LinMeasData Unit))} (hops : PlainUse ops) (hA : Asked ops ops') :
    ((construct (kfPlant L.sysClass L.measClass) params L.env x c t).run (kfPlant L.sysClass L.measClass) sort ops).map report
      = ((construct (kfPlant L.sysClass L.measClass) params L.env x c t).run (kfPlant L.sysClass L.measClass) sort ops').map
        report :=
  C108_kf_partial (late_cfgS n m p) L.stateless (fun j => late_cfgM n (kd j)) L.mstateless (fun _ _ _ _ _ => rfl) L.env rfl
    hL.splits sort hs params hp x c t hops hA

end linear

/-- **C108 (every mode, in order, partial).**  The same in every mode, for calls that are in order (no input older than the
state, no revert, no change of the parameters), questions included. -/
theorem C108_linear_in_order_partial {n m p : Nat} {kd : K → Nat} (L : LinearUse T K n m p kd) (hL : L.Flows)
    (sort : List (FilterInput T DVec DMat K) → List (FilterInput T DVec DMat K)) (hs : IsTimeSort sort) (params : Params T)
    (x : DVec) (c : DMat) (t : T) {ops ops' : List (Op T DVec DMat K (Env K LinSysData Unit LinMeasData Unit))}
    (hops : PlainUse ops) (hA : Asked ops ops')
    (ho : (construct (kfPlant L.sysClass L.measClass) params L.env x c t).InOrderRun (kfPlant L.sysClass L.measClass) sort ops)
    (ho' : (construct (kfPlant L.sysClass L.measClass) params L.env x c t).InOrderRun (kfPlant L.sysClass L.measClass) sort ops') :
    ((construct (kfPlant L.sysClass L.measClass) params L.env x c t).run (kfPlant L.sysClass L.measClass) sort ops).map report
      = ((construct (kfPlant L.sysClass L.measClass) params L.env x c t).run (kfPlant L.sysClass L.measClass) sort ops').map
        report := by
  have key : ∀ l : List (Op T DVec DMat K (Env K LinSysData Unit LinMeasData Unit)),
      (construct (kfPlant L.sysClass L.measClass) params L.env x c t).InOrderRun (kfPlant L.sysClass L.measClass) sort l →
      ((construct (kfPlant L.sysClass L.measClass) params L.env x c t).run (kfPlant L.sysClass L.measClass) sort l).map report
      = ((construct (kfPlant L.sysClass L.measClass) { params with rewindHistory := false } L.env x c t).run
          (kfPlant L.sysClass L.measClass) sort l).map report := by
    intro l hl
    have := C21_modes_agree_in_order (kfPlant L.sysClass L.measClass) sort hs
      (construct (kfPlant L.sysClass L.measClass) params L.env x c t) { params with rewindHistory := false } rfl l hl
    have := congrArg (Option.map fun r => (r.1, r.2.1, r.2.2.1)) this
    rw [Option.map_map, Option.map_map] at this
    exact this
  rw [key ops ho, key ops' ho']
  exact C108_linear_partial L hL sort (fun l => (hs l).1) { params with rewindHistory := false } rfl x c t
    hops hA

/-! ### A case that meets the hypotheses -/

/-- A body on a line, pushed about by white noise of unit intensity, with a position sensor: `W Wᵀ` is the covariance
`[dt³/3, dt²/2; dt²/2, dt]` that the noise builds up in position and velocity over `dt`. -/
noncomputable def pushedLine : LinearUse ℝ Unit 2 0 2 (fun _ => 1) where
  A dt := !![1, dt; 0, 1]
  B _ := 0
  W dt := Real.sqrt dt • !![dt * Real.sqrt 3 / 3, 0; Real.sqrt 3 / 2, 1 / 2]
  V _ := 0
  Rp := 1
  Rc := 0
  C _ := !![1, 0]

theorem pushedLine_flows : pushedLine.Flows where
  state t0 t1 t2 _ _ := by
    show (!![1, t2 - t0; 0, 1] : Matrix (Fin 2) (Fin 2) ℝ) = !![1, t2 - t1; 0, 1] * !![1, t1 - t0; 0, 1]
    ext i j
    fin_cases i <;> fin_cases j <;> simp
  control t0 t1 t2 _ _ := by ext i j; exact j.elim0
  noise t0 t1 t2 h1 h2 := by
    have tr : ∀ a b c d : ℝ, (!![a, b; c, d])ᵀ = !![a, c; b, d] := by
      intro a b c d
      ext i j
      fin_cases i <;> fin_cases j <;> rfl
    have key : ∀ d : ℝ, 0 < d → pushedLine.W d * pushedLine.Rp * (pushedLine.W d)ᵀ
        + pushedLine.V d * pushedLine.Rc * (pushedLine.V d)ᵀ = !![d ^ 3 / 3, d ^ 2 / 2; d ^ 2 / 2, d] := by
      intro d hd
      have h3 : Real.sqrt 3 * Real.sqrt 3 = 3 := Real.mul_self_sqrt (by norm_num)
      have hd' : Real.sqrt d * Real.sqrt d = d := Real.mul_self_sqrt hd.le
      have e : (pushedLine.V d * pushedLine.Rc * (pushedLine.V d)ᵀ : Matrix (Fin 2) (Fin 2) ℝ) = 0 := by
        ext i j; rw [Matrix.mul_apply]; exact Finset.sum_of_isEmpty _
      rw [e, add_zero]
      show (Real.sqrt d • !![d * Real.sqrt 3 / 3, 0; Real.sqrt 3 / 2, 1 / 2] : Matrix (Fin 2) (Fin 2) ℝ) * 1
        * (Real.sqrt d • !![d * Real.sqrt 3 / 3, 0; Real.sqrt 3 / 2, 1 / 2])ᵀ = _
      rw [Matrix.mul_one, Matrix.transpose_smul, Matrix.smul_mul, Matrix.mul_smul, smul_smul, hd']
      rw [tr, Matrix.mul_fin_two]
      ext i j
      fin_cases i <;> fin_cases j <;> simp
      · linear_combination d ^ 3 / 9 * h3
      · linear_combination d ^ 2 / 6 * h3
      · linear_combination d ^ 2 / 6 * h3
      · linear_combination d / 4 * h3
    dsimp only
    have g1 : (0 : ℝ) < t1 - t0 := sub_pos.mpr h1
    have g2 : (0 : ℝ) < t2 - t1 := sub_pos.mpr h2
    have g3 : (0 : ℝ) < t2 - t0 := by linarith
    have e1 := key (TimeOps.sub t1 t0) g1
    have e2 := key (TimeOps.sub t2 t1) g2
    have e3 := key (TimeOps.sub t2 t0) g3
    rw [e1, e2, e3]
    show (!![(t2 - t0) ^ 3 / 3, (t2 - t0) ^ 2 / 2; (t2 - t0) ^ 2 / 2, t2 - t0] : Matrix (Fin 2) (Fin 2) ℝ)
      = !![1, t2 - t1; 0, 1] * !![(t1 - t0) ^ 3 / 3, (t1 - t0) ^ 2 / 2; (t1 - t0) ^ 2 / 2, t1 - t0] * (!![1, t2 - t1; 0, 1])ᵀ
        + !![(t2 - t1) ^ 3 / 3, (t2 - t1) ^ 2 / 2; (t2 - t1) ^ 2 / 2, t2 - t1]
    rw [tr, Matrix.mul_fin_two, Matrix.mul_fin_two]
    ext i j
    fin_cases i <;> fin_cases j <;> simp <;> ring

/-- Position measurements at times 2 and 5, with questions for times 1, 3 and 4 in between. -/
example (sort : List (FilterInput ℝ DVec DMat Unit) → List (FilterInput ℝ DVec DMat Unit)) (hs : ∀ l, (sort l).Perm l)
    (x : DVec) (c : DMat) :
    ((construct (kfPlant pushedLine.sysClass pushedLine.measClass) ⟨false, 10, false⟩ pushedLine.env x c 0).run
      (kfPlant pushedLine.sysClass pushedLine.measClass) sort
      [.correct (.of ![3]) (.identity 1) 2 (some ()), .correct (.of ![4]) (.identity 1) 5 (some ())]).map report
    = ((construct (kfPlant pushedLine.sysClass pushedLine.measClass) ⟨false, 10, false⟩ pushedLine.env x c 0).run
      (kfPlant pushedLine.sysClass pushedLine.measClass) sort
      [.predictTime 1, .correct (.of ![3]) (.identity 1) 2 (some ()), .predictTime 3, .predictTime 4,
        .correct (.of ![4]) (.identity 1) 5 (some ())]).map report := by
  refine C108_linear_partial pushedLine pushedLine_flows sort hs ⟨false, 10, false⟩ rfl x c 0 ?_ ?_
  · intro op hop
    simp only [List.mem_cons, List.not_mem_nil, or_false] at hop
    rcases hop with rfl | rfl <;> exact ⟨rfl, trivial, trivial⟩
  · refine .ask 1 (show (1 : ℝ) ≤ 2 by norm_num) (.call _ (.ask 3 (show (3 : ℝ) ≤ 5 by norm_num)
      (.ask 4 (show (4 : ℝ) ≤ 5 by norm_num) (.call _ .nil))))

/-! ### Where it is not so -/

section refuted

variable {n m p : Nat} {kd : K → Nat} (L : LinearUse T K n m p kd)

/-- going on without a control -/
private theorem ask_goOn {d : Core T DVec DMat (Env K LinSysData Unit LinMeasData Unit)}
    (hs : late_cfgS n m p d.env.sys = late_cfgS n m p L.env.sys) (hp : d.pc.size = 0) {x : Fin n → ℝ}
    {c : Matrix (Fin n) (Fin n) ℝ} (hx : d.x = .of x) (hc : d.cov = .of c) (t : T) :
    ∃ g, d.goOn (kfPlant L.sysClass L.measClass) t = some g ∧ late_cfgS n m p g.env.sys = late_cfgS n m p L.env.sys ∧
      g.pc = d.pc ∧ g.ts = t ∧ g.x = .of (L.A (TimeOps.sub t d.ts) *ᵥ x) ∧
      g.cov = .of (L.A (TimeOps.sub t d.ts) * c * (L.A (TimeOps.sub t d.ts))ᵀ
        + L.W (TimeOps.sub t d.ts) * L.Rp * (L.W (TimeOps.sub t d.ts))ᵀ
        + L.V (TimeOps.sub t d.ts) * L.Rc * (L.V (TimeOps.sub t d.ts))ᵀ) := by
  obtain ⟨hsh, hRp, hRc⟩ := ask_setup L hs
  have hin : d.inUse (kfPlant L.sysClass L.measClass) = (.of (0 : Fin m → ℝ), .of L.Rc) := by
    unfold Core.inUse
    rw [if_neg (by show ¬ d.pc.size > 0; omega)]
    show (DVec.zero d.env.sys.controlDims, d.env.sys.Rc) = _
    rw [hsh.2.1, hRc]
    rfl
  have hset : (kfPlant L.sysClass L.measClass).setRc d.env (.of L.Rc) = some d.env := by
    show (d.env.sys.setControlCovariance (.of L.Rc)).map _ = _
    unfold Sys.setControlCovariance
    rw [if_pos (by rw [hsh.2.1]; exact ⟨rfl, rfl⟩), Option.map_some, ← hRc]
  obtain ⟨s', h1, h2⟩ := (ask_predict L hs d.x d.cov (.of 0) (TimeOps.sub t d.ts)
    (fun s => ({ d.env with sys := s } : Env K LinSysData Unit LinMeasData Unit))).2 x c 0 hx hc rfl
  refine ⟨⟨.of (L.A (TimeOps.sub t d.ts) *ᵥ x + L.B (TimeOps.sub t d.ts) *ᵥ (0 : Fin m → ℝ)), _, t, d.pc, d.pcc, { d.env with sys := s' }⟩, ?_, h1, rfl, rfl, ?_, rfl⟩
  · unfold Core.goOn
    rw [hin, hset, Option.bind_some]
    have e : (kfPlant L.sysClass L.measClass).myPredict d.env d.x d.cov (.of (0 : Fin m → ℝ)) (TimeOps.sub t d.ts) = _ := h2
    rw [e]
    rfl
  · show DVec.of _ = _
    rw [mulVec_zero, add_zero]

/-- a new control -/
private theorem ask_control {d : Core T DVec DMat (Env K LinSysData Unit LinMeasData Unit)}
    (hs : late_cfgS n m p d.env.sys = late_cfgS n m p L.env.sys) (hm : 0 < m) {x : Fin n → ℝ}
    {c : Matrix (Fin n) (Fin n) ℝ} (hx : d.x = .of x) (hc : d.cov = .of c) (u : Fin m → ℝ) (t : T) :
    ∃ g, d.apply (kfPlant L.sysClass L.measClass) ⟨.of u, (kfPlant L.sysClass L.measClass).rc d.env, t, true, none⟩ = some g ∧
      g.x = .of (L.A (TimeOps.sub t d.ts) *ᵥ x + L.B (TimeOps.sub t d.ts) *ᵥ u) := by
  obtain ⟨hsh, hRp, hRc⟩ := ask_setup L hs
  have hq : d.env.sys.fm.checkStationary = false := by
    rw [(L.stateless.seen _ _ hs).1]
    rfl
  have hrc : (kfPlant L.sysClass L.measClass).rc d.env = .of L.Rc := hRc
  have hset : (kfPlant L.sysClass L.measClass).setRc d.env (.of L.Rc) = some d.env := by
    show (d.env.sys.setControlCovariance (.of L.Rc)).map _ = _
    unfold Sys.setControlCovariance
    rw [if_pos (by rw [hsh.2.1]; exact ⟨rfl, rfl⟩), Option.map_some, ← hRc]
  obtain ⟨s', h1, h2⟩ := (ask_predict L hs d.x d.cov (.of u) (TimeOps.sub t d.ts)
    (fun s => ({ d.env with sys := s } : Env K LinSysData Unit LinMeasData Unit))).2 x c u hx hc rfl
  have e : (kfPlant L.sysClass L.measClass).myPredict d.env d.x d.cov (.of u) (TimeOps.sub t d.ts) = _ := h2
  have hq' : (kfPlant L.sysClass L.measClass).sysCheck d.env = false := hq
  rw [hrc]
  unfold Core.apply Core.control
  dsimp only
  rw [if_pos rfl, if_pos (show (kfPlant L.sysClass L.measClass).vsize (.of u) > 0 from hm), hset, hq']
  dsimp only
  simp only [Bool.false_and, Bool.not_false, if_true]
  rw [e]
  exact ⟨_, rfl, rfl⟩

/-- **C108 (questions before a new control).**  The control `u` that arrives with time stamp `t2` is applied to the whole time
since the state, and without the question to all of `t0` to `t2`; after a question for `t1` only to `t1` to `t2`. -/
theorem C108_question_before_control (hm : 0 < m)
    (sort : List (FilterInput T DVec DMat K) → List (FilterInput T DVec DMat K)) (params : Params T) (x : Fin n → ℝ)
    (c : Matrix (Fin n) (Fin n) ℝ) (u : Fin m → ℝ) (t0 t1 t2 : T) (h1 : t0 < t1) (h2 : t1 < t2) :
    ((construct (kfPlant L.sysClass L.measClass) params L.env (.of x) (.of c) t0).run (kfPlant L.sysClass L.measClass) sort
      [.predictControl (.of u) t2]).map getState
        = some (.of (L.A (TimeOps.sub t2 t0) *ᵥ x + L.B (TimeOps.sub t2 t0) *ᵥ u)) ∧
    ((construct (kfPlant L.sysClass L.measClass) params L.env (.of x) (.of c) t0).run (kfPlant L.sysClass L.measClass) sort
      [.predictTime t1, .predictControl (.of u) t2]).map getState
        = some (.of (L.A (TimeOps.sub t2 t1) *ᵥ (L.A (TimeOps.sub t1 t0) *ᵥ x) + L.B (TimeOps.sub t2 t1) *ᵥ u)) := by
  have fin : ∀ f : Filter T DVec DMat K (Env K LinSysData Unit LinMeasData Unit), ∀ y : Fin n → ℝ, ∀ b : Matrix (Fin n) (Fin n) ℝ,
      f.state.timestamp ≤ t2 → late_cfgS n m p f.env.sys = late_cfgS n m p L.env.sys → f.state.x = .of y →
      f.state.covariance = .of b → (f.run (kfPlant L.sysClass L.measClass) sort [.predictControl (.of u) t2]).map getState
        = some (.of (L.A (TimeOps.sub t2 f.state.timestamp) *ᵥ y + L.B (TimeOps.sub t2 f.state.timestamp) *ᵥ u)) := by
    intro f y b ht hs hy hb
    have e1 := predictControl_core (P := kfPlant L.sysClass L.measClass) f (.of u) t2 ht
    obtain ⟨g, e2, e3⟩ := ask_control L (d := f.core) hs hm hy hb u t2
    have e2' : f.core.apply (kfPlant L.sysClass L.measClass) ⟨.of u, (kfPlant L.sysClass L.measClass).rc f.env, t2, true, none⟩
      = some g := e2
    rw [e2'] at e1
    obtain ⟨f', k1, k2⟩ := Option.map_eq_some_iff.mp e1
    have k3 : f.step (kfPlant L.sysClass L.measClass) sort (.predictControl (.of u) t2) = some f' := k1
    unfold Filter.run
    rw [k3]
    unfold Filter.run
    rw [Option.map_some]
    refine congrArg some ?_
    rw [← k2] at e3
    exact e3
  constructor
  · exact fin _ x c (h1.trans h2).le rfl rfl rfl
  · have e1 := predictTime_core (P := kfPlant L.sysClass L.measClass) rfl
      (construct (kfPlant L.sysClass L.measClass) params L.env (.of x) (.of c) t0) t1 rfl h1
    obtain ⟨g, e2, e3, e4, e5, e6, e7⟩ := ask_goOn L
      (d := (construct (kfPlant L.sysClass L.measClass) params L.env (.of x) (.of c) t0).core) rfl rfl rfl rfl t1
    rw [e2] at e1
    obtain ⟨f', k1, k2⟩ := Option.map_eq_some_iff.mp e1
    have k3 : (construct (kfPlant L.sysClass L.measClass) params L.env (.of x) (.of c) t0).step
      (kfPlant L.sysClass L.measClass) sort (.predictTime t1) = some f' := k1
    subst k2
    unfold Filter.run
    rw [k3]
    have e5' : f'.state.timestamp = t1 := e5
    have := fin f' _ _ (by rw [e5']; exact h2.le) e3 e6 e7
    rw [e5'] at this
    exact this

/-- A position that moves at the speed the control says; an exact sensor-free model in continuous time. -/
noncomputable def cart : LinearUse ℝ Unit 1 1 1 (fun _ => 1) where
  A _ := 1
  B dt := !![dt]
  W _ := 0
  V _ := 0
  Rp := 0
  Rc := 0
  C _ := 1

theorem cart_flows : cart.Flows where
  state t0 t1 t2 _ _ := (Matrix.mul_one (1 : Matrix (Fin 1) (Fin 1) ℝ)).symm
  control t0 t1 t2 _ _ := by
    show (!![t2 - t0] : Matrix (Fin 1) (Fin 1) ℝ) = 1 * !![t1 - t0] + !![t2 - t1]
    rw [Matrix.one_mul]
    ext i j
    fin_cases i; fin_cases j
    simp
  noise t0 t1 t2 _ _ := by
    dsimp only
    have hW : ∀ d, cart.W d = 0 := fun _ => rfl
    have hV : ∀ d, cart.V d = 0 := fun _ => rfl
    simp only [hW, hV, Matrix.zero_mul, Matrix.mul_zero, add_zero]

/-- **C108 (refuted for questions before a control).**  Speed 1 is commanded at time 2: the filter says the cart is at 2; if it
has been asked at time 1 in between, it says 1, although the model is exact and in continuous time.  (A control applies to the
time before it.) -/
theorem C108_control_refuted (sort : List (FilterInput ℝ DVec DMat Unit) → List (FilterInput ℝ DVec DMat Unit)) (params : Params ℝ)
    (c : Matrix (Fin 1) (Fin 1) ℝ) :
    cart.Flows ∧
    ((construct (kfPlant cart.sysClass cart.measClass) params cart.env (.of ![0]) (.of c) 0).run
      (kfPlant cart.sysClass cart.measClass) sort [.predictControl (.of ![1]) 2]).map getState = some (.of ![2]) ∧
    ((construct (kfPlant cart.sysClass cart.measClass) params cart.env (.of ![0]) (.of c) 0).run
      (kfPlant cart.sysClass cart.measClass) sort [.predictTime 1, .predictControl (.of ![1]) 2]).map getState
        = some (.of ![1]) := by
  obtain ⟨h1, h2⟩ := C108_question_before_control cart one_pos sort params ![0] c ![1] 0 1 2 one_pos one_lt_two
  refine ⟨cart_flows, ?_, ?_⟩
  · refine h1.trans (congrArg some (congrArg DVec.of ?_))
    show (1 : Matrix (Fin 1) (Fin 1) ℝ) *ᵥ ![0] + !![(2 : ℝ) - 0] *ᵥ ![1] = ![2]
    funext i
    fin_cases i
    simp
  · refine h2.trans (congrArg some (congrArg DVec.of ?_))
    show (1 : Matrix (Fin 1) (Fin 1) ℝ) *ᵥ ((1 : Matrix (Fin 1) (Fin 1) ℝ) *ᵥ ![0]) + !![(2 : ℝ) - 1] *ᵥ ![1] = ![1]
    funext i
    fin_cases i
    norm_num

/-- **C108 (refuted: noise per call).**  A model of values that do not move, with a noise matrix that does not depend on the
time step: every question adds the noise once more.  After `k` questions at increasing times the covariance is the first one
plus `k` times the noise, whatever the times are. -/
theorem C108_noise_refuted (hA : ∀ d, L.A d = 1) (W : Matrix (Fin n) (Fin p) ℝ) (hW : ∀ d, L.W d = W)
    (hV : ∀ d, L.V d = 0) (sort : List (FilterInput T DVec DMat K) → List (FilterInput T DVec DMat K)) (params : Params T)
    (x : Fin n → ℝ) (c : Matrix (Fin n) (Fin n) ℝ) (t0 : T) (ts : List T) (hts : (t0 :: ts).Pairwise (· < ·)) :
    ((construct (kfPlant L.sysClass L.measClass) params L.env (.of x) (.of c) t0).run (kfPlant L.sysClass L.measClass) sort
      (ts.map .predictTime)).map (fun f => (f.getState, f.getCovariance))
        = some (.of x, .of (c + (ts.length : ℝ) • (W * L.Rp * Wᵀ))) := by
  have key : ∀ (ts : List T) (f : Filter T DVec DMat K (Env K LinSysData Unit LinMeasData Unit)) (c : Matrix (Fin n) (Fin n) ℝ),
      (f.state.timestamp :: ts).Pairwise (· < ·) → late_cfgS n m p f.env.sys = late_cfgS n m p L.env.sys →
      f.prevControl.size = 0 → f.state.x = .of x → f.state.covariance = .of c →
      (f.run (kfPlant L.sysClass L.measClass) sort (ts.map .predictTime)).map (fun f => (f.getState, f.getCovariance))
        = some (.of x, .of (c + (ts.length : ℝ) • (W * L.Rp * Wᵀ))) := by
    intro ts
    induction ts with
    | nil =>
      intro f c _ _ _ hx hc
      rw [List.map_nil, Filter.run, Option.map_some]
      simp only [getState, getCovariance, hx, hc, List.length_nil, Nat.cast_zero, zero_smul, add_zero]
    | cons t ts ih =>
      intro f c ht hs hp hx hc
      obtain ⟨ht1, ht2⟩ := List.pairwise_cons.mp ht
      have hq : f.env.sys.fm.checkStationary = false := by
        rw [(L.stateless.seen _ _ hs).1]
        rfl
      have e1 := predictTime_core (P := kfPlant L.sysClass L.measClass) rfl f t hq (ht1 t List.mem_cons_self)
      obtain ⟨g, e2, e3, e4, e5, e6, e7⟩ := ask_goOn L (d := f.core) hs hp hx hc t
      rw [e2] at e1
      obtain ⟨f', k1, k2⟩ := Option.map_eq_some_iff.mp e1
      have k3 : f.step (kfPlant L.sysClass L.measClass) sort (.predictTime t) = some f' := k1
      subst k2
      rw [List.map_cons, Filter.run, k3]
      have e5' : f'.state.timestamp = t := e5
      have e4' : f'.prevControl = f.prevControl := e4
      have := ih f' _ (by rw [e5']; exact ht2) e3 (by rw [e4']; exact hp) (by
        refine e6.trans ?_
        rw [hA, Matrix.one_mulVec]) e7
      refine this.trans ?_
      rw [hA, hW, hV, Matrix.one_mul, Matrix.transpose_one, Matrix.mul_one, Matrix.zero_mul, Matrix.zero_mul, add_zero,
        List.length_cons, Nat.cast_succ]
      congr 3
      module
  exact key ts _ c hts rfl rfl rfl rfl

end refuted

/-- A value that drifts by noise of variance 1 "per step". -/
noncomputable def drift : LinearUse ℝ Unit 1 0 1 (fun _ => 1) where
  A _ := 1
  B _ := 0
  W _ := 1
  V _ := 0
  Rp := 1
  Rc := 0
  C _ := 1

/-- Asked at times 1, 2 and 3 the filter says the variance at time 3 is 4; asked at time 3 only, it says 2. -/
example (sort : List (FilterInput ℝ DVec DMat Unit) → List (FilterInput ℝ DVec DMat Unit)) (params : Params ℝ) :
    ((construct (kfPlant drift.sysClass drift.measClass) params drift.env (.of ![0]) (.of !![1]) 0).run
      (kfPlant drift.sysClass drift.measClass) sort [.predictTime 1, .predictTime 2, .predictTime 3]).map
        (fun f => (f.getState, f.getCovariance)) = some (.of ![0], .of !![4]) ∧
    ((construct (kfPlant drift.sysClass drift.measClass) params drift.env (.of ![0]) (.of !![1]) 0).run
      (kfPlant drift.sysClass drift.measClass) sort [.predictTime 3]).map
        (fun f => (f.getState, f.getCovariance)) = some (.of ![0], .of !![2]) := by
  have h1 := C108_noise_refuted drift (fun _ => rfl) 1 (fun _ => rfl) (fun _ => rfl) sort params ![0] !![1] 0 [1, 2, 3]
    (by simp; norm_num)
  have h2 := C108_noise_refuted drift (fun _ => rfl) 1 (fun _ => rfl) (fun _ => rfl) sort params ![0] !![1] 0 [3] (by simp)
  have hR : drift.Rp = 1 := rfl
  rw [hR] at h1 h2
  refine ⟨h1.trans (congrArg some (Prod.ext rfl (congrArg DMat.of ?_))), h2.trans (congrArg some (Prod.ext rfl (congrArg DMat.of ?_)))⟩ <;>
  · ext i j
    fin_cases i; fin_cases j
    simp
    norm_num

end Props
end StateEstimation
