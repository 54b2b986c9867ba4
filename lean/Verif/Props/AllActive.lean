import Verif.Lemmas.AllActive
import Verif.Lemmas.UKFApi
import Verif.Props.UnscentedLinear

/-!
# C39: with everything active, the variable-state filters are the plain filters
-/

set_option linter.unusedSectionVars false

namespace StateEstimation

open Matrix

section Sim

variable {T V M K E : Type} [TimeOps T] {tot : Prop} {S : V → M → Prop} {Ge : E → Prop} {U : V → Prop} {R : M → Prop}
  {Z : V → M → K → Prop} {P Q : Plant T V M K E}

theorem OptP.rel {α : Type} {p : α → Prop} {o : Option α} (h : OptP tot p o) : OptRel tot (fun a b => a = b ∧ p a) o o := by
  cases o with
  | none => exact h
  | some a => exact ⟨rfl, h⟩

/-- Two plants that differ in `myPredict`, `myCorrect` only, and agree there wherever the invariant holds, behave alike. -/
theorem PlantInv.agree (hP : PlantInv P tot S Ge U R Z)
    (hQ : Q = { P with myPredict := Q.myPredict, myCorrect := Q.myCorrect })
    (hpred : ∀ e x c u dt, Ge e → S x c → U u → Q.myPredict e x c u dt = P.myPredict e x c u dt)
    (hcorr : ∀ e m z c, Ge e → Z z c m → ∀ e', P.setMeasCov e m c = some e' → ∀ x p dt, S x p →
      Q.myCorrect e' x p z m dt = P.myCorrect e' x p z m dt) :
    PlantSim P Q tot S (fun e e' => e = e' ∧ Ge e) U R Z where
  vsize := by rw [hQ]
  emptyV := by rw [hQ]
  zeroV := by rw [hQ]
  empty := hP.empty
  controlSize := by rintro e _ ⟨rfl, he⟩; rw [hQ]
  rc := by rintro e _ ⟨rfl, he⟩; refine ⟨by rw [hQ], hP.rc e he⟩
  zero := by rintro e _ ⟨rfl, he⟩; exact hP.zero e he
  setRc := by
    rintro e _ c ⟨rfl, he⟩ hc
    rw [show Q.setRc = P.setRc by rw [hQ]]
    exact (hP.setRc e c he hc).rel
  sysSt := by rintro e _ x c d ⟨rfl, he⟩ hx; rw [hQ]
  predict := by
    rintro e _ x c u dt ⟨rfl, he⟩ hx hu
    rw [hpred e x c u dt he hx hu]
    refine OptRel.mono (hP.predict e x c u dt he hx hu).rel ?_
    rintro r _ ⟨rfl, h⟩
    exact ⟨rfl, rfl, h.1, rfl, h.2⟩
  sysStationary := by
    rintro e _ x c d ⟨rfl, he⟩ hx hd
    rw [show Q.sysProcess = P.sysProcess by rw [hQ], show Q.sysMake = P.sysMake by rw [hQ]]
    refine OptRel.mono (hP.sysStationary e x c d he hx hd).rel ?_
    rintro r _ ⟨rfl, h⟩
    exact ⟨⟨rfl, h.1⟩, h.2.rel⟩
  setMeasCov := by
    rintro e _ m z c ⟨rfl, he⟩ hz
    rw [show Q.setMeasCov = P.setMeasCov by rw [hQ], show Q.measCheck = P.measCheck by rw [hQ],
      show Q.measIsStationary = P.measIsStationary by rw [hQ], show Q.measProcess = P.measProcess by rw [hQ],
      show Q.measMake = P.measMake by rw [hQ]]
    have h0 := hP.setMeasCov e m z c he hz
    cases hm : P.setMeasCov e m c with
    | none => rw [hm] at h0; exact h0
    | some e' =>
      rw [hm] at h0
      obtain ⟨h1, h2, h3⟩ := h0
      refine ⟨⟨rfl, h1⟩, fun x p _ => rfl, ?_, ?_⟩
      · intro x p dt hx
        rw [hcorr e m z c he hz e' hm x p dt hx]
        refine OptRel.mono (h2 x p dt hx).rel ?_
        rintro r _ ⟨rfl, h⟩
        exact ⟨rfl, rfl, h.1, rfl, h.2⟩
      · intro x p hx
        refine OptRel.mono (h3 x p hx).rel ?_
        rintro r _ ⟨rfl, h⟩
        exact ⟨⟨rfl, h.1⟩, h.2.rel⟩

end Sim

variable {T K X Y DS XS DM XM : Type} [DecidableEq K] {n m : Nat}

theorem setMeasCov_mk {sc : SysClass T DS XS} {mc : K → MeasClass T DM XM} {predict correct}
    {e e' : Env K DS XS DM XM} {j : K} {R : DMat}
    (h : (mkPlant sc mc predict correct).setMeasCov e j R = some e') : e' = e.setMeas j ((e.meas j).withCov R) := by
  have h' : ((e.meas j).setCovariance R).map (e.setMeas j) = some e' := h
  unfold Meas.setCovariance at h'
  split at h'
  · injection h' with h'
    exact h'.symm
  · cases h'

theorem OpSame.of_wellFormed [TimeOps T] {E : Type} {P : Plant T DVec DMat K E} (hv : P.vsize = DVec.size) {tot : Prop}
    {S : DVec → DMat → Prop} {Ge : E → Prop} {kd : K → Nat} {NM : DMat → Prop} {op : Op T DVec DMat K E}
    (h : op.WellFormed S Ge m kd NM) :
    OpSame P tot S (fun e e' => e = e' ∧ Ge e) (fun u => u.size = m)
      (fun z c k => z.size = kd k ∧ c.Is (kd k) (kd k) ∧ NM c) op op := by
  cases op with
  | init x c t => exact ⟨rfl, rfl, rfl, h⟩
  | predictTime t => rfl
  | predictControl u t =>
    refine ⟨rfl, rfl, fun hu => ?_⟩
    rw [hv] at hu
    rcases h with h | h
    · exact h
    · omega
  | correct z c t mdl => exact ⟨rfl, rfl, rfl, rfl, h⟩
  | enqueueControl u t =>
    refine ⟨rfl, rfl, fun hu => ?_⟩
    rw [hv] at hu
    rcases h with h | h
    · exact h
    · omega
  | enqueueMeasurement z c t mdl => exact ⟨rfl, rfl, rfl, rfl, h⟩
  | processQueues => trivial
  | clearControlQueue => trivial
  | clearMeasurementQueue => trivial
  | revertToState t => rfl
  | setParams p => rfl
  | userModel g =>
    rintro e _ ⟨rfl, he⟩
    obtain ⟨e', h1, h2⟩ := h e he
    rw [h1]; exact ⟨rfl, h2⟩

theorem run_same [TimeOps T] [SaneTime T] {E : Type} {P Q : Plant T DVec DMat K E} (hv : P.vsize = DVec.size)
    {S : DVec → DMat → Prop} {Ge : E → Prop} {kd : K → Nat} {NC NM : DMat → Prop}
    (h : PlantSim P Q False S (fun e e' => e = e' ∧ Ge e) (fun u => u.size = m) (fun R => R.Is m m ∧ NC R)
      (fun z c k => z.size = kd k ∧ c.Is (kd k) (kd k) ∧ NM c)) (hM : P.emptyM = Q.emptyM)
    (sort : List (FilterInput T DVec DMat K) → List (FilterInput T DVec DMat K)) (hsort : ∀ l, (sort l).Perm l)
    (params : Params T) (e : E) (he : Ge e) (x : DVec) (c : DMat) (t : T) (hx : S x c)
    (ops : List (Op T DVec DMat K E)) (hops : ∀ op ∈ ops, op.WellFormed S Ge m kd NM) :
    OptRel False (fun g g' => g.retained.map (fun s => (s.x, s.covariance, s.timestamp)) =
        g'.retained.map (fun s => (s.x, s.covariance, s.timestamp)))
      ((Filter.construct P params e x c t).run P sort ops) ((Filter.construct Q params e x c t).run Q sort ops) := by
  have := h.run sort hsort
    { params := params, state := (Filter.construct P params e x c t).state, history := [],
      prevControl := P.emptyV, prevControlCov := P.emptyM, controlQueue := [], measQueue := [], env := e }
    { params := params, state := (Filter.construct Q params e x c t).state, history := [],
      prevControl := Q.emptyV, prevControlCov := Q.emptyM, controlQueue := [], measQueue := [], env := e }
    rfl ⟨rfl, he⟩ h.emptyV hM (fun h' => absurd h' (by
      show ¬ P.vsize P.emptyV > 0
      rw [h.empty]; exact Nat.lt_irrefl 0)) x c t hx (ops := ops) (ops' := ops)
    (List.forall₂_same.mpr fun op hop => OpSame.of_wellFormed hv (hops op hop))
  exact OptRel.mono this fun _ _ h => h.2.2.2.2

section
variable {llt : DMat → Option DMat} {junk : Nat → Nat → ℝ} {sc : SysClass T NonlinSysData X} {mc : K → MeasClass T NonlinMeasData Y}
  {e : Env K NonlinSysData X NonlinMeasData Y × SigmaParams} {x u : DVec} {cov : DMat} {dt : T} {j : K}

theorem ukfvsPlant_myPredict : (ukfvsPlant llt junk sc mc).myPredict e x cov u dt
    = (ukfvsPredict llt junk sc e.2 e.1.sys x cov u dt fun s => { e.1 with sys := s }).map fun r => (r.1, r.2.1, r.2.2, e.2) := rfl

theorem ukfvsPlant_myCorrect : (ukfvsPlant llt junk sc mc).myCorrect e x cov u j dt
    = (ukfvsCorrect llt junk sc (mc j) e.2 e.1.sys (e.1.meas j) x cov u dt (e.1.setMeas j)).map
        fun r => (r.1, r.2.1, r.2.2, e.2) := rfl

end

/-- Sizes are an invariant of the UKF, whatever the vector operations. -/
theorem ukf_inv_size [TimeOps T] {llt : DMat → Option DMat} (hllt : LltSize llt) (junk : Nat → Nat → ℝ)
    {sc : SysClass T NonlinSysData X} {mc : K → MeasClass T NonlinMeasData Y}
    (hsc : SysContract NonlinSysData.Sized sc) (hmc : ∀ j, MeasContract NonlinMeasData.Sized (mc j)) (kd : K → Nat)
    {A : Env K NonlinSysData X NonlinMeasData Y → Prop} (hA : Env.Closed A) :
    PlantInv (ukfPlant llt junk sc mc) False (Estimate n)
      (fun e => (Env.Ok NonlinSysData.Sized NonlinMeasData.Sized AnyNoise (Estimate n) n m kd e.1 ∧ A e.1) ∧ SigmaSized n e.2)
      (fun u => u.size = m) (fun R => R.Is m m ∧ True) (fun z c k => z.size = kd k ∧ c.Is (kd k) (kd k) ∧ True) := by
  unfold ukfPlant
  refine mkPlantWith_inv (T := T)
    (Ge := fun e => Env.Ok NonlinSysData.Sized NonlinMeasData.Sized AnyNoise (Estimate n) n m kd e ∧ A e)
    (SigmaSized n) fun o ho => ?_
  refine mkPlant_inv_closed (NM := fun _ => True) hA hsc hmc (fun _ _ h => h.1)
    (fun _ _ _ _ _ => trivial) (fun _ _ _ => trivial) ?_ ?_
  · intro e x c u dt he ha hx hu
    refine Props.OptP.of_bind (fun r hr => ?_) id
    cases hL : llt (c.smul (e.sys.stateSize + o.lambda)) with
    | none =>
      exfalso
      have : ukfPredict llt junk sc o e.sys x c u dt (fun s => ({ e with sys := s } : Env K NonlinSysData X NonlinMeasData Y)) = none := by
        unfold ukfPredict; rw [hL]; rfl
      rw [this] at hr; cases hr
    | some L =>
      obtain ⟨r', h0, h1, s', h2, h3, h4⟩ := ukfPredict_is hsc hllt junk he.sys ho hx hu dt
        (fun s => ({ e with sys := s } : Env K NonlinSysData X NonlinMeasData Y)) hL
      rw [h0] at hr; injection hr with hr; subst hr
      rw [h2]
      exact ⟨h1, he.setSys h3 h4, hA.of_same ha h4.fm h4.activeControls⟩
  · intro e x c z j dt he ha hx hz _
    refine Props.OptP.of_bind (fun r hr => ?_) id
    obtain ⟨h1, s', h2, h3, h4⟩ := ukfCorrect_size hsc (hmc j) hllt junk he.sys (he.meas j) ho hx hz dt _ hr
    rw [h2]
    exact ⟨h1, he.setMeas j h3 h4, hA.setMeas ha j h4.activeMeasurements⟩

namespace Props

variable [TimeOps T] [SaneTime T]

/-- **C39 (KalmanFilterVS).**  If every state, control and measurement is active (the lists are empty or list every index),
then for every sequence of well-sized API calls (any time stamps, rewinds, queues, user changes to the models that keep
everything active) `KalmanFilterVS` and `KalmanFilter` both fail, or both succeed with the same remembered states, covariances
and time stamps.  No assumption on the covariances. -/
theorem C39_kfvs_all_active {sc : SysClass T LinSysData X} {mc : K → MeasClass T LinMeasData Y}
    (hsc : SysContract LinSysData.Sized sc) (hmc : ∀ j, MeasContract LinMeasData.Sized (mc j)) (kd : K → Nat)
    (sort : List (FilterInput T DVec DMat K) → List (FilterInput T DVec DMat K)) (hsort : ∀ l, (sort l).Perm l)
    (params : Params T) (e : Env K LinSysData X LinMeasData Y)
    (he : e.Ok LinSysData.Sized LinMeasData.Sized AnyNoise (Estimate n) n m kd) (hall : e.AllActive n m kd)
    (x : DVec) (c : DMat) (t : T) (hx : Estimate n x c)
    (ops : List (Op T DVec DMat K (Env K LinSysData X LinMeasData Y)))
    (hops : ∀ op ∈ ops, op.WellFormed (Estimate n)
      (fun e => Env.Ok LinSysData.Sized LinMeasData.Sized AnyNoise (Estimate n) n m kd e ∧ e.AllActive n m kd) m kd
      (fun _ => True)) :
    match (Filter.construct (kfPlant sc mc) params e x c t).run (kfPlant sc mc) sort ops,
          (Filter.construct (kfvsPlant sc mc) params e x c t).run (kfvsPlant sc mc) sort ops with
    | none, none => True
    | some g, some g' =>
        g.retained.map (fun s => (s.x, s.covariance, s.timestamp)) = g'.retained.map (fun s => (s.x, s.covariance, s.timestamp))
    | _, _ => False := by
  have hinv : PlantInv (kfPlant sc mc) False (Estimate n)
      (fun e => Env.Ok LinSysData.Sized LinMeasData.Sized AnyNoise (Estimate n) n m kd e ∧ e.AllActive n m kd)
      (fun u => u.size = m) (fun R => R.Is m m ∧ True) (fun z c k => z.size = kd k ∧ c.Is (kd k) (kd k) ∧ True) := by
    refine mkPlant_inv_closed (NM := fun _ => True) (Env.closed_allActive n m kd) hsc hmc (fun _ _ h => h.1)
      (fun _ _ _ _ _ => trivial) (fun _ _ _ => trivial) ?_ ?_
    · intro e x c u dt he ha hx hu
      refine OptP.of_bind (fun r hr => ?_) id
      obtain ⟨h1, s', h2, h3, h4⟩ := kfPredict_size hsc he.sys hx hu dt _ hr
      rw [h2]
      exact ⟨h1, he.setSys h3 h4, (Env.closed_allActive n m kd).of_same ha h4.fm h4.activeControls⟩
    · intro e x c z j dt he ha hx hz _
      refine OptP.of_bind (fun r hr => ?_) id
      obtain ⟨h1, s', h2, h3, h4⟩ := kfCorrect_size hsc (hmc j) he.sys (he.meas j) hx hz dt _ hr
      rw [h2]
      exact ⟨h1, he.setMeas j h3 h4, (Env.closed_allActive n m kd).setMeas ha j h4.activeMeasurements⟩
  have hsim := hinv.agree (Q := kfvsPlant sc mc) rfl
    (fun e x c u dt h hx hu => kfvsPredict_all hsc h.1.sys h.2.states h.2.controls hx hu dt _)
    (by
      intro e j z R h hz e' he' x p dt hx
      have h0 : OptP False _ _ := hinv.setMeasCov e j z R h hz
      rw [he'] at h0
      have h1 := h0.1
      exact kfvsCorrect_all (hmc j) h1.1.sys (h1.1.meas j) h1.2.states (h1.2.meas j) hx hz.1 dt _)
  have := run_same (NC := fun _ => True) (NM := fun _ => True) rfl hsim rfl sort hsort params e ⟨he, hall⟩ x c t hx ops hops
  rcases OptRel.elim this with ⟨h1, h2, _⟩ | ⟨g, g', h1, h2, h3⟩
  · rw [h1, h2]; trivial
  · rw [h1, h2]; exact h3

/-- **C39 (EKFVS).**  If every state, control and measurement is active (the lists are empty or list every index),
then for every sequence of well-sized API calls (any time stamps, rewinds, queues, user changes to the models that keep
everything active) `EKFVS` and `EKF` both fail, or both succeed with the same remembered states, covariances
and time stamps.  No assumption on the covariances. -/
theorem C39_ekfvs_all_active {sc : SysClass T NonlinSysData X} {mc : K → MeasClass T NonlinMeasData Y}
    (hsc : SysContract NonlinSysData.Sized sc) (hmc : ∀ j, MeasContract NonlinMeasData.Sized (mc j)) (kd : K → Nat)
    (sort : List (FilterInput T DVec DMat K) → List (FilterInput T DVec DMat K)) (hsort : ∀ l, (sort l).Perm l)
    (params : Params T) (e : Env K NonlinSysData X NonlinMeasData Y)
    (he : e.Ok NonlinSysData.Sized NonlinMeasData.Sized AnyNoise (Estimate n) n m kd) (hall : e.AllActive n m kd)
    (x : DVec) (c : DMat) (t : T) (hx : Estimate n x c)
    (ops : List (Op T DVec DMat K (Env K NonlinSysData X NonlinMeasData Y)))
    (hops : ∀ op ∈ ops, op.WellFormed (Estimate n)
      (fun e => Env.Ok NonlinSysData.Sized NonlinMeasData.Sized AnyNoise (Estimate n) n m kd e ∧ e.AllActive n m kd) m kd
      (fun _ => True)) :
    match (Filter.construct (ekfPlant sc mc) params e x c t).run (ekfPlant sc mc) sort ops,
          (Filter.construct (ekfvsPlant sc mc) params e x c t).run (ekfvsPlant sc mc) sort ops with
    | none, none => True
    | some g, some g' =>
        g.retained.map (fun s => (s.x, s.covariance, s.timestamp)) = g'.retained.map (fun s => (s.x, s.covariance, s.timestamp))
    | _, _ => False := by
  have hinv : PlantInv (ekfPlant sc mc) False (Estimate n)
      (fun e => Env.Ok NonlinSysData.Sized NonlinMeasData.Sized AnyNoise (Estimate n) n m kd e ∧ e.AllActive n m kd)
      (fun u => u.size = m) (fun R => R.Is m m ∧ True) (fun z c k => z.size = kd k ∧ c.Is (kd k) (kd k) ∧ True) := by
    refine mkPlant_inv_closed (NM := fun _ => True) (Env.closed_allActive n m kd) hsc hmc (fun _ _ h => h.1)
      (fun _ _ _ _ _ => trivial) (fun _ _ _ => trivial) ?_ ?_
    · intro e x c u dt he ha hx hu
      refine OptP.of_bind (fun r hr => ?_) id
      obtain ⟨h1, s', h2, h3, h4⟩ := ekfPredict_size hsc he.sys hx hu dt _ hr
      rw [h2]
      exact ⟨h1, he.setSys h3 h4, (Env.closed_allActive n m kd).of_same ha h4.fm h4.activeControls⟩
    · intro e x c z j dt he ha hx hz _
      refine OptP.of_bind (fun r hr => ?_) id
      obtain ⟨h1, s', h2, h3, h4⟩ := ekfCorrect_size hsc (hmc j) he.sys (he.meas j) hx hz dt _ hr
      rw [h2]
      exact ⟨h1, he.setMeas j h3 h4, (Env.closed_allActive n m kd).setMeas ha j h4.activeMeasurements⟩
  have hsim := hinv.agree (Q := ekfvsPlant sc mc) rfl
    (fun e x c u dt h hx hu => ekfvsPredict_all hsc h.1.sys h.2.states h.2.controls hx hu dt _)
    (by
      intro e j z R h hz e' he' x p dt hx
      have h0 : OptP False _ _ := hinv.setMeasCov e j z R h hz
      rw [he'] at h0
      have h1 := h0.1
      exact ekfvsCorrect_all (hmc j) h1.1.sys (h1.1.meas j) h1.2.states (h1.2.meas j) hx hz.1 dt _)
  have := run_same (NC := fun _ => True) (NM := fun _ => True) rfl hsim rfl sort hsort params e ⟨he, hall⟩ x c t hx ops hops
  rcases OptRel.elim this with ⟨h1, h2, _⟩ | ⟨g, g', h1, h2, h3⟩
  · rw [h1, h2]; trivial
  · rw [h1, h2]; exact h3

/-- **C39 (UKFVS).**  Same for `UKFVS` and `UKF`, whose sigma point parameters were set for all `n` states (`SigmaSized`; the
constructors and `setSigmaPointParameters` do so, see `C39_sigma`).  Nothing is assumed of the vector operations of the models
or of the matrix factorisation, except that a factor of an `n × n` matrix is `n × n`. -/
theorem C39_ukfvs_all_active {llt : DMat → Option DMat} (hllt : LltSize llt) (junk : Nat → Nat → ℝ)
    {sc : SysClass T NonlinSysData X} {mc : K → MeasClass T NonlinMeasData Y}
    (hsc : SysContract NonlinSysData.Sized sc) (hmc : ∀ j, MeasContract NonlinMeasData.Sized (mc j)) (kd : K → Nat)
    (sort : List (FilterInput T DVec DMat K) → List (FilterInput T DVec DMat K)) (hsort : ∀ l, (sort l).Perm l)
    (params : Params T) (e : Env K NonlinSysData X NonlinMeasData Y) (sp : SigmaParams) (hsp : SigmaSized n sp)
    (he : e.Ok NonlinSysData.Sized NonlinMeasData.Sized AnyNoise (Estimate n) n m kd) (hall : e.AllActive n m kd)
    (x : DVec) (c : DMat) (t : T) (hx : Estimate n x c)
    (ops : List (Op T DVec DMat K (Env K NonlinSysData X NonlinMeasData Y × SigmaParams)))
    (hops : ∀ op ∈ ops, op.WellFormed (Estimate n)
      (fun e => (Env.Ok NonlinSysData.Sized NonlinMeasData.Sized AnyNoise (Estimate n) n m kd e.1 ∧ e.1.AllActive n m kd) ∧
        SigmaSized n e.2) m kd (fun _ => True)) :
    match (Filter.construct (ukfPlant llt junk sc mc) params (e, sp) x c t).run (ukfPlant llt junk sc mc) sort ops,
          (Filter.construct (ukfvsPlant llt junk sc mc) params (e, sp) x c t).run (ukfvsPlant llt junk sc mc) sort ops with
    | none, none => True
    | some g, some g' =>
        g.retained.map (fun s => (s.x, s.covariance, s.timestamp)) = g'.retained.map (fun s => (s.x, s.covariance, s.timestamp))
    | _, _ => False := by
  have hinv := ukf_inv_size hllt junk hsc hmc (n := n) (m := m) kd (Env.closed_allActive n m kd)
  have hsim := hinv.agree (Q := ukfvsPlant llt junk sc mc) rfl
    (fun e x c u dt h hx hu => by
      rw [ukfvsPlant_myPredict, ukfPlant_myPredict, ukfvsPredict_all hsc hllt junk h.1.1.sys h.1.2.states h.1.2.controls h.2 hx hu dt])
    (by
      intro e j z R h hz e' he' x p dt hx
      have h0 : OptP False _ _ := hinv.setMeasCov e j z R h hz
      rw [he'] at h0
      have h1 := h0.1
      rw [ukfvsPlant_myCorrect, ukfPlant_myCorrect, ukfvsCorrect_all hsc (hmc j) hllt junk h1.1.1.sys (h1.1.1.meas j) h1.1.2.states (h1.1.2.meas j) h1.2 hx hz.1 dt])
  have := run_same (NC := fun _ => True) (NM := fun _ => True) rfl hsim rfl sort hsort params (e, sp) ⟨⟨he, hall⟩, hsp⟩ x c t hx ops hops
  rcases OptRel.elim this with ⟨h1, h2, _⟩ | ⟨g, g', h1, h2, h3⟩
  · rw [h1, h2]; trivial
  · rw [h1, h2]; exact h3

omit [TimeOps T] [SaneTime T] in
/-- A `UKF` and a `UKFVS` with all states active compute the same sigma point parameters, and they are those for `n` states. -/
theorem C39_sigma {kd : K → Nat} {N : DMat → DMat → Prop} {Q : DVec → DMat → Prop} (al ka be : ℝ)
    (e : Env K NonlinSysData X NonlinMeasData Y × SigmaParams) (he : e.1.Ok NonlinSysData.Sized NonlinMeasData.Sized N Q n m kd)
    (hall : e.1.AllActive n m kd) :
    ukfvsSetSigma al ka be e = ukfSetSigma al ka be e ∧ ukfvsInitSigma e.1 = ukfInitSigma e.1 ∧
      (∀ e', ukfSetSigma al ka be e = some e' → e'.1 = e.1 ∧ SigmaSized n e'.2) ∧
      ∀ sp, ukfInitSigma e.1 = some sp → SigmaSized n sp := by
  have h1 := activeStateSize_all he.sys.states hall.states
  have h2 : e.1.sys.der.g.size = n := he.sys.der.1
  unfold ukfvsSetSigma ukfSetSigma ukfvsInitSigma ukfInitSigma
  rw [h1, h2, he.sys.states]
  refine ⟨rfl, rfl, fun e' h => ?_, fun sp h => setSigma_sized h⟩
  cases h3 : setSigma n n al ka be with
  | none => rw [h3] at h; cases h
  | some sp => rw [h3] at h; injection h with h; subst h; exact ⟨rfl, setSigma_sized h3⟩

omit [TimeOps T] [SaneTime T] in
/-- How everything comes to be active: no list at all, or a list of all indices in any order, handed to the setters. -/
theorem C39_lists (f : FilterModel) (l : List Nat) (h : l = [] ∨ l.Perm (List.range f.stateDims)) :
    Selects (f.setActiveStates l).activeStates (id : Fin f.stateDims → Fin f.stateDims) := by
  have hv : validIndices f.stateDims l = l := by
    have : ∀ i ∈ l, i < f.stateDims := by
      rcases h with rfl | h
      · intro i hi; cases hi
      · intro i hi; exact List.mem_range.mp (h.mem_iff.mp hi)
    clear h
    induction l with
    | nil => rfl
    | cons i is ih =>
      unfold validIndices
      rw [if_pos (this i (List.mem_cons_self ..)), ih fun j hj => this j (List.mem_cons_of_mem _ hj)]
  show Selects (sortIndices (validIndices f.stateDims l)) _
  rw [hv]
  rcases h with rfl | h
  · exact selects_nil
  · have : sortIndices l = List.range f.stateDims := by
      refine List.Perm.eq_of_pairwise (le := (· ≤ ·)) ?_ (List.pairwise_insertionSort _ _) ?_ ?_
      · intro a b _ _ h1 h2; exact Nat.le_antisymm h1 h2
      · exact List.pairwise_lt_range.imp (fun h => Nat.le_of_lt h)
      · exact (List.perm_insertionSort _ l).trans h
    rw [this]
    refine ⟨?_, Function.injective_id⟩
    have hr : List.range f.stateDims = List.ofFn fun i : Fin f.stateDims => (id i).val := by
      apply List.ext_getElem <;> simp
    split
    · exact hr
    · exact hr

section Example
open Examples

/-- Non-vacuity: the constant-velocity model as constructed, and with an explicit list of both states. -/
example : cvEnv.Ok LinSysData.Sized LinMeasData.Sized AnyNoise (Estimate 2) 2 1 (fun _ => 1) ∧ cvEnv.AllActive 2 1 (fun _ => 1) :=
  ⟨⟨cvEnv_ok (Q := Estimate 2).sys, trivial, cvEnv_ok.sysMake, cvEnv_ok (Q := Estimate 2).meas, cvEnv_ok.measMake⟩,
    selects_nil, selects_nil, fun _ => selects_nil⟩

example : ({ cvEnv with sys := cvEnv.sys.setActiveStates [1, 0] } : Env Unit LinSysData Unit LinMeasData Unit).AllActive 2 1
    (fun _ => 1) :=
  ⟨C39_lists cvEnv.sys.fm [1, 0] (Or.inr (by decide)), selects_nil, fun _ => selects_nil⟩

end Example

end Props
end StateEstimation
