import Verif.Spec.Sharing
import Verif.Lemmas.PlantSim
import Verif.Lemmas.UKFApi

/-!
# Fleets of filters
-/

set_option linter.unusedSectionVars false

namespace StateEstimation

open Filter

variable {ι T V M K E C : Type} [DecidableEq ι] [TimeOps T]

theorem PlantSim.hsort {E' : Type} {P : Plant T V M K E} {Q : Plant T V M K E'} {tot : Prop} {S RE U R Z}
    (h : PlantSim P Q tot S RE U R Z) (sort : List (FilterInput T V M K) → List (FilterInput T V M K))
    (hs : ∀ l, (sort l).Perm l) : ∀ l l', List.Forall₂ h.sim.RI l l' → List.Forall₂ h.sim.RI (sort l) (sort l') := by
  intro l l' hl
  have : l = l' ∧ ∀ i ∈ l, InputOk P U R Z i := by
    induction hl with
    | nil => simp
    | cons a _ ih =>
      obtain ⟨rfl, ha⟩ := a
      refine ⟨by rw [ih.1], ?_⟩
      intro i hi
      rcases List.mem_cons.mp hi with rfl | hi
      · exact ha
      · exact ih.2 i hi
  obtain ⟨rfl, hl2⟩ := this
  exact List.forall₂_same.mpr (fun i hi => ⟨rfl, hl2 i ((hs l).mem_iff.mp hi)⟩)

theorem sameEstimates_of_RF {P Q : Plant T V M K E} {tot : Prop} {S RE U R Z} (h : PlantSim P Q tot S RE U R Z)
    {f g : Filter T V M K E} (hfg : h.sim.RF f g) : SameEstimates f g := by
  refine ⟨hfg.state.2.1, hfg.state.2.2.1, hfg.state.1, ?_⟩
  have hF := hfg.ret.1
  generalize f.retained = l at hF ⊢
  generalize g.retained = l' at hF ⊢
  clear * - hF
  induction hF with
  | nil => rfl
  | cons a _ ih => rw [List.map_cons, List.map_cons, ih, a.1, a.2.1, a.2.2.1]

theorem callsOn_cons_self {α : Type} (i : ι) (a : α) (l : List (ι × α)) : callsOn i ((i, a) :: l) = a :: callsOn i l := by
  simp [callsOn]

theorem callsOn_cons_ne {α : Type} (i j : ι) (h : i ≠ j) (a : α) (l : List (ι × α)) :
    callsOn j ((i, a) :: l) = callsOn j l := by
  simp [callsOn, h]

/-- If a call cannot tell the shared objects apart and leaves them as they should be, filters do not notice each other. -/
theorem fleet_run [SaneTime T] (P : Plant T V M K E) (L : Sharing E C) {RE U R Z}
    (h : PlantSim P P False (fun _ _ => True) RE U R Z) (Cok : C → Prop) (hget : ∀ e e', RE e e' → Cok (L.get e))
    (hput : ∀ e e' c, RE e e' → Cok c → RE (L.put e c) e')
    (sort : List (FilterInput T V M K) → List (FilterInput T V M K)) (hs : ∀ l, (sort l).Perm l)
    (calls : List (ι × Op T V M K E)) (hcalls : ∀ c ∈ calls, OpSame P False (fun _ _ => True) RE U Z c.2 c.2) :
    ∀ (fl : Fleet ι T V M K E C) (alone : ι → Filter T V M K E), (∀ i, h.sim.RF (fl.filters i) (alone i)) → Cok fl.shared →
    match fl.run P L sort calls with
    | some fl' => ∀ i, ∃ g, (alone i).run P sort (callsOn i calls) = some g ∧ SameEstimates (fl'.filters i) g
    | none => ∃ i, (alone i).run P sort (callsOn i calls) = none := by
  induction calls with
  | nil =>
    intro fl alone hR _
    exact fun i => ⟨alone i, rfl, sameEstimates_of_RF h (hR i)⟩
  | cons c calls ih =>
    intro fl alone hR hC
    obtain ⟨i, op⟩ := c
    have hRi : h.sim.RF { fl.filters i with env := L.put (fl.filters i).env fl.shared } (alone i) := by
      obtain ⟨h1, ⟨g1, g2, g3, g4⟩, h3, h4, h5⟩ := hR i
      exact ⟨h1, ⟨g1, g2, hput _ _ _ g3 hC, g4⟩, h3, h4, h5⟩
    have hst := hRi.step (h.hsort sort hs) (h.rop (hcalls (i, op) (by simp)))
    rw [Fleet.run]
    unfold Fleet.step
    dsimp only
    generalize hF : Filter.step P sort { fl.filters i with env := L.put (fl.filters i).env fl.shared } op = o1 at hst
    rcases OptRel.elim hst with ⟨rfl, hn, _⟩ | ⟨g1, a1, rfl, ha, hga⟩
    · rw [Option.map_none, Option.bind_none]
      refine ⟨i, ?_⟩
      rw [callsOn_cons_self, Filter.run, hn]
    · rw [Option.map_some, Option.bind_some]
      have key := ih (fun c hc => hcalls c (by simp [hc])) ⟨fun j => if j = i then g1 else fl.filters j, L.get g1.env⟩
        (fun j => if j = i then a1 else alone j) (fun j => by
          by_cases hji : j = i
          · simp only [hji, if_true]; exact hga
          · simp only [hji, if_false]; exact hR j) (hget _ _ hga.glob.2.2.1)
      have hal : ∀ j, (if j = i then a1 else alone j).run P sort (callsOn j calls)
          = (alone j).run P sort (callsOn j ((i, op) :: calls)) := fun j => by
        by_cases hji : j = i
        · subst hji
          rw [if_pos rfl, callsOn_cons_self, Filter.run, ha]
        · rw [if_neg hji, callsOn_cons_ne i j (Ne.symm hji)]
      cases hrun : Fleet.run P L sort ⟨fun j => if j = i then g1 else fl.filters j, L.get g1.env⟩ calls with
      | none =>
        rw [hrun] at key
        obtain ⟨j, hj⟩ := key
        exact ⟨j, (hal j).symm.trans hj⟩
      | some fl' =>
        rw [hrun] at key
        intro j
        obtain ⟨g, hg, hsame⟩ := key j
        exact ⟨g, (hal j).symm.trans hg, hsame⟩

/-! ### Plants -/

variable {X Y DS XS DM XM O : Type}

/-- What a relation between two system model objects must satisfy. -/
structure SysRel (sc : SysClass T DS XS) (RS : Sys DS XS → Sys DS XS → Prop) (R : DMat → Prop) : Prop where
  fm : ∀ s s', RS s s' → s.fm = s'.fm
  dims : ∀ s s', RS s s' → s.controlDims = s'.controlDims
  act : ∀ s s', RS s s' → s.activeControls = s'.activeControls
  rp : ∀ s s', RS s s' → s.Rp = s'.Rp
  rc : ∀ s s', RS s s' → s.Rc = s'.Rc ∧ R s.Rc
  setRc : ∀ s s' c, RS s s' → R c → OptRel False RS (s.setControlCovariance c) (s'.setControlCovariance c)
  update : ∀ s s' x u dt, RS s s' → OptRel False (fun r r' => RS r r' ∧ r.der = r'.der ∧ r.P = r'.P ∧ r.V = r'.V)
    (sc.myUpdate s x u dt) (sc.myUpdate s' x u dt)
  add : ∀ s s', RS s s' → sc.add s = sc.add s'
  sub : ∀ s s', RS s s' → sc.sub s = sc.sub s'
  wsum : ∀ s s', RS s s' → sc.wsum s = sc.wsum s'
  stationary : ∀ s s' x u, RS s s' → OptRel False RS (sc.processStationary s x u) (sc.processStationary s' x u)

theorem SysRel.upd {sc : SysClass T DS XS} {RS R} (h : SysRel sc RS R) (s s' : Sys DS XS) (x u : DVec) (dt : T) (hs : RS s s') :
    OptRel False (fun r r' => RS r r' ∧ r.der = r'.der ∧ r.P = r'.P ∧ r.V = r'.V) (s.update sc x u dt) (s'.update sc x u dt) := by
  unfold Sys.update Sys.stateSize
  rw [h.fm s s' hs, h.dims s s' hs]
  split
  · exact h.update s s' x u dt hs
  · exact not_false

theorem sysRel_eq (sc : SysClass T DS XS) : SysRel sc Eq (fun _ => True) where
  fm := by rintro s _ rfl; rfl
  dims := by rintro s _ rfl; rfl
  act := by rintro s _ rfl; rfl
  rp := by rintro s _ rfl; rfl
  rc := by rintro s _ rfl; exact ⟨rfl, trivial⟩
  setRc := by
    rintro s _ c rfl _
    cases s.setControlCovariance c
    · exact not_false
    · exact rfl
  update := by
    rintro s _ x u dt rfl
    cases sc.myUpdate s x u dt
    · exact not_false
    · exact ⟨rfl, rfl, rfl, rfl⟩
  add := by rintro s _ rfl; rfl
  sub := by rintro s _ rfl; rfl
  wsum := by rintro s _ rfl; rfl
  stationary := by
    rintro s _ x u rfl
    cases sc.processStationary s x u
    · exact not_false
    · exact rfl

theorem sysRel_cfg {G : Type} {sc : SysClass T DS XS} {cfg : Sys DS XS → G} (h : sc.Stateless cfg) (s0 : Sys DS XS) :
    SysRel sc (fun s s' => cfg s = cfg s0 ∧ cfg s' = cfg s0) (fun c => c = s0.Rc) where
  fm := fun s s' hs => (h.seen s s' (hs.1.trans hs.2.symm)).1
  dims := fun s s' hs => (h.seen s s' (hs.1.trans hs.2.symm)).2.1
  act := fun s s' hs => (h.seen s s' (hs.1.trans hs.2.symm)).2.2.2.2
  rp := fun s s' hs => (h.seen s s' (hs.1.trans hs.2.symm)).2.2.2.1
  rc := fun s s' hs => ⟨(h.seen s s' (hs.1.trans hs.2.symm)).2.2.1, (h.seen s s0 hs.1).2.2.1⟩
  setRc := by
    rintro s s' c hs rfl
    have hd := (h.seen s s' (hs.1.trans hs.2.symm)).2.1
    unfold Sys.setControlCovariance
    by_cases hr : s0.Rc.rows = s.controlDims ∧ s0.Rc.cols = s.controlDims
    · rw [if_pos hr, if_pos (by rw [← hd]; exact hr)]
      show cfg { s with Rc := s0.Rc } = _ ∧ cfg { s' with Rc := s0.Rc } = _
      have e1 : ({ s with Rc := s0.Rc } : Sys DS XS) = s := by rw [← (h.seen s s0 hs.1).2.2.1]
      have e2 : ({ s' with Rc := s0.Rc } : Sys DS XS) = s' := by rw [← (h.seen s' s0 hs.2).2.2.1]
      rw [e1, e2]
      exact hs
    · rw [if_neg hr, if_neg (by rw [← hd]; exact hr)]
      exact not_false
  update := by
    rintro s s' x u dt ⟨h1, h2⟩
    have := h.update s s' x u dt (h1.trans h2.symm)
    revert this
    cases sc.myUpdate s x u dt <;> cases sc.myUpdate s' x u dt <;> intro this
    · exact not_false
    · exact this
    · exact this
    · exact ⟨⟨this.2.2.2.1.trans h1, this.2.2.2.2.trans h1⟩, this.1, this.2.1, this.2.2.1⟩
  add := fun s s' hs => h.add s s' (hs.1.trans hs.2.symm)
  sub := fun s s' hs => h.sub s s' (hs.1.trans hs.2.symm)
  wsum := fun s s' hs => h.wsum s s' (hs.1.trans hs.2.symm)
  stationary := by
    rintro s s' x u ⟨h1, h2⟩
    have := h.stationary s s' x u (h1.trans h2.symm)
    revert this
    cases sc.processStationary s x u <;> cases sc.processStationary s' x u <;> intro this
    · exact not_false
    · exact this
    · exact this
    · exact ⟨this.1.trans h1, this.2.trans h1⟩

/-- related measurement models: configured as `m0` -/
def MeasLike {G : Type} (cfg : Meas DM XM → G) (m0 m m' : Meas DM XM) : Prop := cfg m = cfg m0 ∧ cfg m' = cfg m0

theorem measLike_upd {G : Type} {mc : MeasClass T DM XM} {cfg : Meas DM XM → G} (h : mc.Stateless cfg) (m0 m m' : Meas DM XM)
    (hm : MeasLike cfg m0 m m') (hc : m.cov = m'.cov) (x : DVec) (dt : T) :
    OptRel False (fun r r' => MeasLike cfg m0 r r' ∧ r.cov = r'.cov ∧ r.der = r'.der) (m.update mc x dt) (m'.update mc x dt) := by
  unfold Meas.update Meas.stateSize
  rw [(h.seen m m' (hm.1.trans hm.2.symm)).1]
  split
  · have := h.update m m' x dt (hm.1.trans hm.2.symm) hc
    revert this
    cases mc.myUpdate m x dt <;> cases mc.myUpdate m' x dt <;> intro this
    · exact not_false
    · exact this
    · exact this
    · exact ⟨⟨this.2.2.2.1.trans hm.1, this.2.2.2.2.trans hm.1⟩, this.2.1.trans this.2.2.1.symm, this.1⟩
  · exact not_false

/-- related models of two filters -/
def EnvLike {Gm : Type} (RS : Sys DS XS → Sys DS XS → Prop) (cfg : K → Meas DM XM → Gm) (m0 : K → Meas DM XM)
    (e e' : Env K DS XS DM XM) : Prop := RS e.sys e'.sys ∧ ∀ k, MeasLike (cfg k) (m0 k) (e.meas k) (e'.meas k)

theorem EnvLike.setMeas [DecidableEq K] {Gm : Type} {RS : Sys DS XS → Sys DS XS → Prop} {cfg : K → Meas DM XM → Gm}
    {m0 : K → Meas DM XM} {e e' : Env K DS XS DM XM} (h : EnvLike RS cfg m0 e e') (k : K) (m m' : Meas DM XM)
    (hm : MeasLike (cfg k) (m0 k) m m') : EnvLike RS cfg m0 (e.setMeas k m) (e'.setMeas k m') := by
  refine ⟨h.1, fun j => ?_⟩
  unfold Env.setMeas
  dsimp only
  by_cases hj : j = k
  · subst hj; rw [if_pos rfl, if_pos rfl]; exact hm
  · rw [if_neg hj, if_neg hj]; exact h.2 j

/-- results of the filter equations -/
def StepLike (RE : E → E → Prop) (r q : DVec × DMat × E) : Prop := r.1 = q.1 ∧ r.2.1 = q.2.1 ∧ RE r.2.2 q.2.2

theorem mkPlant_sim [DecidableEq K] {Gm : Type} (sc : SysClass T DS XS) (mc : K → MeasClass T DM XM)
    {RS : Sys DS XS → Sys DS XS → Prop} {R : DMat → Prop} (hS : SysRel sc RS R) (cfg : K → Meas DM XM → Gm)
    (hM : ∀ k, (mc k).Stateless (cfg k)) (m0 : K → Meas DM XM)
    (predict : Env K DS XS DM XM → DVec → DMat → DVec → T → Option (DVec × DMat × Env K DS XS DM XM))
    (correct : Env K DS XS DM XM → DVec → DMat → DVec → K → T → Option (DVec × DMat × Env K DS XS DM XM))
    (hp : ∀ e e' x c u dt, EnvLike RS cfg m0 e e' →
      OptRel False (StepLike (EnvLike RS cfg m0)) (predict e x c u dt) (predict e' x c u dt))
    (hc : ∀ e e' x c z k dt, EnvLike RS cfg m0 e e' → (e.meas k).cov = (e'.meas k).cov →
      OptRel False (StepLike (EnvLike RS cfg m0)) (correct e x c z k dt) (correct e' x c z k dt)) :
    PlantSim (mkPlant sc mc predict correct) (mkPlant sc mc predict correct) False (fun _ _ => True) (EnvLike RS cfg m0)
      (fun _ => True) R (fun _ _ _ => True) where
  vsize := rfl
  emptyV := rfl
  zeroV := rfl
  empty := rfl
  controlSize := fun e e' he => hS.dims _ _ he.1
  rc := fun e e' he => hS.rc _ _ he.1
  zero := fun _ _ _ => trivial
  setRc := fun e e' c he hc => OptRel.map (hS.setRc _ _ c he.1 hc) fun s s' hs => ⟨hs, he.2⟩
  sysSt := fun e e' x c d he _ => by
    show (e.sys.fm.checkStationary && e.sys.fm.isStationary x d) = _
    rw [hS.fm _ _ he.1]; rfl
  predict := fun e e' x c u dt he _ _ => OptRel.mono (hp e e' x c u dt he) fun r q h => ⟨h.1, h.2.1, trivial, h.2.2⟩
  sysStationary := fun e e' x c d he _ _ => by
    refine OptRel.map (hS.stationary _ _ x d he.1) fun s s' hs => ⟨⟨hs, he.2⟩, ?_⟩
    show OptRel False _ (s.fm.makeStationary x c) (s'.fm.makeStationary x c)
    rw [hS.fm _ _ hs]
    cases s'.fm.makeStationary x c
    · exact not_false
    · exact ⟨rfl, trivial⟩
  setMeasCov := fun e e' k z c he _ => by
    have hk := he.2 k
    have hseen := (hM k).seen _ _ (hk.1.trans hk.2.symm)
    have h1 : OptRel False (fun m m' => MeasLike (cfg k) (m0 k) m m' ∧ m.cov = m'.cov)
        ((e.meas k).setCovariance c) ((e'.meas k).setCovariance c) := by
      unfold Meas.setCovariance
      by_cases hr : c.rows = (e.meas k).measDims ∧ c.cols = (e.meas k).measDims
      · rw [if_pos hr, if_pos (by rw [← hseen.2.1]; exact hr)]
        exact ⟨⟨((hM k).setCov _ c).trans hk.1, ((hM k).setCov _ c).trans hk.2⟩, rfl⟩
      · rw [if_neg hr, if_neg (by rw [← hseen.2.1]; exact hr)]
        exact not_false
    refine OptRel.map h1 ?_
    rintro m m' ⟨hm, hcov⟩
    have hE := he.setMeas k m m' hm
    have hfm := ((hM k).seen _ _ (hm.1.trans hm.2.symm)).1
    have ek : ∀ (e : Env K DS XS DM XM) m, (e.setMeas k m).meas k = m := fun e m => if_pos rfl
    refine ⟨hE, fun x p _ => ?_, fun x p dt _ => ?_, fun x p _ => ?_⟩
    · show (((e.setMeas k m).meas k).fm.checkStationary && ((e.setMeas k m).meas k).fm.isStationary x z)
        = (((e'.setMeas k m').meas k).fm.checkStationary && ((e'.setMeas k m').meas k).fm.isStationary x z)
      rw [ek, ek, hfm]
    · refine OptRel.mono (hc _ _ x p z k dt hE ?_) fun r q h => ⟨h.1, h.2.1, trivial, h.2.2⟩
      rw [ek, ek]; exact hcov
    · have hst := (hM k).stationary m m' x z (hm.1.trans hm.2.symm)
      show OptRel False _ (((mc k).processStationary ((e.setMeas k m).meas k) x z).map ((e.setMeas k m).setMeas k))
        (((mc k).processStationary ((e'.setMeas k m').meas k) x z).map ((e'.setMeas k m').setMeas k))
      rw [ek, ek]
      have hst' : OptRel False (fun r r' => MeasLike (cfg k) (m0 k) r r') ((mc k).processStationary m x z)
          ((mc k).processStationary m' x z) := by
        revert hst
        cases (mc k).processStationary m x z <;> cases (mc k).processStationary m' x z <;> intro hst
        · exact not_false
        · exact hst
        · exact hst
        · exact ⟨hst.1.trans hm.1, hst.2.trans hm.1⟩
      refine OptRel.map hst' fun r r' hr => ⟨hE.setMeas k r r' hr, ?_⟩
      show OptRel False _ ((((e.setMeas k m).setMeas k r).meas k).fm.makeStationary x p)
        ((((e'.setMeas k m').setMeas k r').meas k).fm.makeStationary x p)
      rw [ek, ek, ((hM k).seen _ _ (hr.1.trans hr.2.symm)).1]
      cases r'.fm.makeStationary x p
      · exact not_false
      · exact ⟨rfl, trivial⟩

theorem OptRel.refl_map {α β γ : Type} {R : β → γ → Prop} (o : Option α) (f : α → Option β) (g : α → Option γ)
    (h : ∀ a, OptRel False R (f a) (g a)) : OptRel False R (o.bind f) (o.bind g) := by
  cases o
  · exact not_false
  · exact h _

theorem OptRel.of_eq {α : Type} {R : α → α → Prop} {a b : Option α} (h : a = b) (hr : ∀ x, R x x) : OptRel False R a b := by
  subst h
  cases a
  · exact not_false
  · exact hr _

section filters
variable [DecidableEq K] {Gm : Type} {R : DMat → Prop} {m0 : K → Meas LinMeasData Y} {n0 : K → Meas NonlinMeasData Y}

theorem kf_sim (sc : SysClass T LinSysData X) (mc : K → MeasClass T LinMeasData Y)
    {RS : Sys LinSysData X → Sys LinSysData X → Prop} (hS : SysRel sc RS R) (cfg : K → Meas LinMeasData Y → Gm)
    (hM : ∀ k, (mc k).Stateless (cfg k)) :
    PlantSim (kfPlant sc mc) (kfPlant sc mc) False (fun _ _ => True) (EnvLike RS cfg m0) (fun _ => True) R
      (fun _ _ _ => True) := by
  refine mkPlant_sim sc mc hS cfg hM m0 _ _ ?_ ?_
  · intro e e' x c u dt he
    unfold kfPredict
    refine OptRel.bind (hS.upd _ _ x u dt he.1) ?_
    rintro s s' ⟨hs, hder, hP, hV⟩
    rw [hder, hP, hV, hS.add s s' hs, hS.rp s s' hs, (hS.rc s s' hs).1]
    refine OptRel.refl_map _ _ _ fun _ => OptRel.refl_map _ _ _ fun _ => OptRel.refl_map _ _ _ fun _ =>
      OptRel.refl_map _ _ _ fun _ => ?_
    exact ⟨rfl, rfl, hs, he.2⟩
  · intro e e' x c z k dt he hcov
    unfold kfCorrect
    refine OptRel.bind (measLike_upd (hM k) (m0 k) _ _ (he.2 k) hcov x dt) ?_
    rintro m m' ⟨hm, hc, hder⟩
    rw [hder, hc, (hM k).sub m m' (hm.1.trans hm.2.symm), hS.add _ _ he.1]
    refine OptRel.refl_map _ _ _ fun _ => OptRel.refl_map _ _ _ fun _ => OptRel.refl_map _ _ _ fun _ =>
      OptRel.refl_map _ _ _ fun _ => OptRel.refl_map _ _ _ fun _ => OptRel.refl_map _ _ _ fun _ => ?_
    exact ⟨rfl, rfl, he.setMeas k m m' hm⟩

theorem ekf_sim (sc : SysClass T NonlinSysData X) (mc : K → MeasClass T NonlinMeasData Y)
    {RS : Sys NonlinSysData X → Sys NonlinSysData X → Prop} (hS : SysRel sc RS R) (cfg : K → Meas NonlinMeasData Y → Gm)
    (hM : ∀ k, (mc k).Stateless (cfg k)) :
    PlantSim (ekfPlant sc mc) (ekfPlant sc mc) False (fun _ _ => True) (EnvLike RS cfg n0) (fun _ => True) R
      (fun _ _ _ => True) := by
  refine mkPlant_sim sc mc hS cfg hM n0 _ _ ?_ ?_
  · intro e e' x c u dt he
    unfold ekfPredict
    refine OptRel.bind (hS.upd _ _ x u dt he.1) ?_
    rintro s s' ⟨hs, hder, hP, hV⟩
    rw [hder, hP, hV, hS.rp s s' hs, (hS.rc s s' hs).1]
    refine OptRel.refl_map _ _ _ fun _ => ?_
    exact ⟨rfl, rfl, hs, he.2⟩
  · intro e e' x c z k dt he hcov
    unfold ekfCorrect
    refine OptRel.bind (measLike_upd (hM k) (n0 k) _ _ (he.2 k) hcov x dt) ?_
    rintro m m' ⟨hm, hc, hder⟩
    rw [hder, hc, (hM k).sub m m' (hm.1.trans hm.2.symm), hS.add _ _ he.1]
    refine OptRel.refl_map _ _ _ fun _ => OptRel.refl_map _ _ _ fun _ => OptRel.refl_map _ _ _ fun _ =>
      OptRel.refl_map _ _ _ fun _ => OptRel.refl_map _ _ _ fun _ => ?_
    exact ⟨rfl, rfl, he.setMeas k m m' hm⟩

/-- agreement of two system model objects right after an update -/
def Upd (RS : Sys NonlinSysData X → Sys NonlinSysData X → Prop) (r r' : Sys NonlinSysData X) : Prop :=
  RS r r' ∧ r.der = r'.der ∧ r.P = r'.P ∧ r.V = r'.V

theorem ukfPredictLoop_sim (sc : SysClass T NonlinSysData X) {RS : Sys NonlinSysData X → Sys NonlinSysData X → Prop}
    (hS : SysRel sc RS R) (L : DMat) (x u : DVec) (dt : T) (fuel : Nat) : ∀ (i : Nat) (s s' : Sys NonlinSysData X) (pts : DMat),
    Upd RS s s' → OptRel False (fun r r' => Upd RS r.1 r'.1 ∧ r.2 = r'.2) (ukfPredictLoop sc L x u dt fuel i s pts)
      (ukfPredictLoop sc L x u dt fuel i s' pts) := by
  induction fuel with
  | zero => exact fun i s s' pts hs => ⟨hs, rfl⟩
  | succ fuel ih =>
    intro i s s' pts hs
    unfold ukfPredictLoop
    refine OptRel.refl_map _ _ _ fun c => ?_
    rw [hS.add s s' hs.1]
    refine OptRel.refl_map _ _ _ fun xh => ?_
    refine OptRel.bind (hS.upd _ _ xh u dt hs.1) ?_
    rintro s1 s1' ⟨h1, h2, h3, h4⟩
    rw [h2]
    refine OptRel.refl_map _ _ _ fun pts1 => ?_
    rw [hS.sub s1 s1' h1]
    refine OptRel.refl_map _ _ _ fun xl => ?_
    refine OptRel.bind (hS.upd _ _ xl u dt h1) ?_
    rintro s2 s2' ⟨k1, k2, k3, k4⟩
    have hsz : s2.stateSize = s2'.stateSize := congrArg FilterModel.stateDims (hS.fm _ _ k1)
    rw [k2, hsz]
    refine OptRel.refl_map _ _ _ fun pts2 => ?_
    exact ih (i + 1) s2 s2' pts2 ⟨k1, k2, k3, k4⟩

theorem ukfCorrectLoop_sim (sc : SysClass T NonlinSysData X) (mc : MeasClass T NonlinMeasData Y)
    {RS : Sys NonlinSysData X → Sys NonlinSysData X → Prop} (hS : SysRel sc RS R) {cfg : Meas NonlinMeasData Y → Gm}
    (hM : mc.Stateless cfg) (k0 : Meas NonlinMeasData Y) (s s' : Sys NonlinSysData X) (hs : RS s s') (L : DMat) (x : DVec)
    (dt : T) (fuel : Nat) : ∀ (i : Nat) (m m' : Meas NonlinMeasData Y) (pts obs : DMat),
    MeasLike cfg k0 m m' → m.cov = m'.cov → OptRel False
      (fun r r' => (MeasLike cfg k0 r.1 r'.1 ∧ r.1.cov = r'.1.cov) ∧ r.2 = r'.2)
      (ukfCorrectLoop sc mc s L x dt fuel i m pts obs) (ukfCorrectLoop sc mc s' L x dt fuel i m' pts obs) := by
  have hsz : s.stateSize = s'.stateSize := congrArg FilterModel.stateDims (hS.fm _ _ hs)
  induction fuel with
  | zero => exact fun i m m' pts obs hm hc => ⟨⟨hm, hc⟩, rfl⟩
  | succ fuel ih =>
    intro i m m' pts obs hm hc
    unfold ukfCorrectLoop
    rw [hS.add s s' hs, hS.sub s s' hs, hsz]
    refine OptRel.refl_map _ _ _ fun c => OptRel.refl_map _ _ _ fun xh => OptRel.refl_map _ _ _ fun pts1 =>
      OptRel.refl_map _ _ _ fun p => ?_
    refine OptRel.bind (measLike_upd hM k0 m m' hm hc p dt) ?_
    rintro m1 m1' ⟨h1, h2, h3⟩
    rw [h3]
    refine OptRel.refl_map _ _ _ fun obs1 => OptRel.refl_map _ _ _ fun xl => OptRel.refl_map _ _ _ fun pts2 =>
      OptRel.refl_map _ _ _ fun p => ?_
    refine OptRel.bind (measLike_upd hM k0 m1 m1' h1 h2 p dt) ?_
    rintro m2 m2' ⟨k1, k2, k3⟩
    rw [k3]
    refine OptRel.refl_map _ _ _ fun obs2 => ?_
    exact ih (i + 1) m2 m2' pts2 obs2 k1 k2

theorem mkPlantWith_sim {DS' XS' DM' XM' : Type} (sc : SysClass T DS' XS') (mc : K → MeasClass T DM' XM')
    (predict : O → Env K DS' XS' DM' XM' → DVec → DMat → DVec → T → Option (DVec × DMat × Env K DS' XS' DM' XM'))
    (correct : O → Env K DS' XS' DM' XM' → DVec → DMat → DVec → K → T → Option (DVec × DMat × Env K DS' XS' DM' XM'))
    {RE : Env K DS' XS' DM' XM' → Env K DS' XS' DM' XM' → Prop}
    (h : ∀ o, PlantSim (mkPlant sc mc (predict o) (correct o)) (mkPlant sc mc (predict o) (correct o)) False
      (fun _ _ => True) RE (fun _ => True) R (fun _ _ _ => True)) :
    PlantSim (mkPlantWith sc mc predict correct) (mkPlantWith sc mc predict correct) False (fun _ _ => True)
      (fun e e' => RE e.1 e'.1 ∧ e.2 = e'.2) (fun _ => True) R (fun _ _ _ => True) where
  vsize := rfl
  emptyV := rfl
  zeroV := rfl
  empty := rfl
  controlSize := by rintro ⟨e, o⟩ ⟨e', _⟩ ⟨he, rfl⟩; exact (h o).controlSize e e' he
  rc := by rintro ⟨e, o⟩ ⟨e', _⟩ ⟨he, rfl⟩; exact (h o).rc e e' he
  zero := fun _ _ _ => trivial
  setRc := by
    rintro ⟨e, o⟩ ⟨e', _⟩ c ⟨he, rfl⟩ hc
    exact OptRel.map ((h o).setRc e e' c he hc) fun _ _ h => ⟨h, rfl⟩
  sysSt := by rintro ⟨e, o⟩ ⟨e', _⟩ x c d ⟨he, rfl⟩ _; exact (h o).sysSt e e' x c d he trivial
  predict := by
    rintro ⟨e, o⟩ ⟨e', _⟩ x c u dt ⟨he, rfl⟩ _ _
    exact OptRel.map ((h o).predict e e' x c u dt he trivial trivial) fun _ _ h => ⟨h.1, h.2.1, trivial, h.2.2.2, rfl⟩
  sysStationary := by
    rintro ⟨e, o⟩ ⟨e', _⟩ x c d ⟨he, rfl⟩ _ _
    exact OptRel.map ((h o).sysStationary e e' x c d he trivial (fun _ => trivial)) fun _ _ h => ⟨⟨h.1, rfl⟩, h.2⟩
  setMeasCov := by
    rintro ⟨e, o⟩ ⟨e', _⟩ m z c ⟨he, rfl⟩ _
    refine OptRel.map ((h o).setMeasCov e e' m z c he trivial) ?_
    rintro e1 e1' ⟨h1, h2, h3, h4⟩
    refine ⟨⟨h1, rfl⟩, h2, fun x p dt hx => ?_, fun x p hx => ?_⟩
    · exact OptRel.map (h3 x p dt hx) fun _ _ h => ⟨h.1, h.2.1, trivial, h.2.2.2, rfl⟩
    · exact OptRel.map (h4 x p hx) fun _ _ h => ⟨⟨h.1, rfl⟩, h.2⟩

theorem ukf_sim (llt : DMat → Option DMat) (junk : Nat → Nat → ℝ) (sc : SysClass T NonlinSysData X)
    (mc : K → MeasClass T NonlinMeasData Y)
    {RS : Sys NonlinSysData X → Sys NonlinSysData X → Prop} (hS : SysRel sc RS R) (cfg : K → Meas NonlinMeasData Y → Gm)
    (hM : ∀ k, (mc k).Stateless (cfg k)) :
    PlantSim (ukfPlant llt junk sc mc) (ukfPlant llt junk sc mc) False (fun _ _ => True)
      (fun e e' => EnvLike RS cfg n0 e.1 e'.1 ∧ e.2 = e'.2) (fun _ => True) R (fun _ _ _ => True) := by
  refine mkPlantWith_sim sc mc _ _ fun sp => mkPlant_sim sc mc hS cfg hM n0 _ _ ?_ ?_
  · intro e e' x c u dt he
    have hsz : e.sys.stateSize = e'.sys.stateSize := congrArg FilterModel.stateDims (hS.fm _ _ he.1)
    unfold ukfPredict
    rw [hsz]
    refine OptRel.refl_map _ _ _ fun L => ?_
    refine OptRel.bind (hS.upd _ _ x u dt he.1) ?_
    rintro s s' ⟨h1, h2, h3, h4⟩
    have hsz' : s.stateSize = s'.stateSize := congrArg FilterModel.stateDims (hS.fm _ _ h1)
    rw [h2, hsz']
    refine OptRel.refl_map _ _ _ fun pts => ?_
    refine OptRel.bind (ukfPredictLoop_sim sc hS L x u dt _ 0 s s' pts ⟨h1, h2, h3, h4⟩) ?_
    rintro ⟨r, pts1⟩ ⟨r', _⟩ ⟨⟨k1, k2, k3, k4⟩, rfl⟩
    dsimp only
    rw [hS.wsum r r' k1, hS.sub r r' k1, k3, k4, hS.rp r r' k1, (hS.rc r r' k1).1]
    refine OptRel.refl_map _ _ _ fun _ => OptRel.refl_map _ _ _ fun _ => OptRel.refl_map _ _ _ fun _ => ?_
    exact ⟨rfl, rfl, k1, he.2⟩
  · intro e e' x c z k dt he hcov
    have hsz : e.sys.stateSize = e'.sys.stateSize := congrArg FilterModel.stateDims (hS.fm _ _ he.1)
    have hms : ∀ m m', MeasLike (cfg k) (n0 k) m m' → m.stateSize = m'.stateSize ∧ m.measurementSize = m'.measurementSize :=
      fun m m' hm => ⟨congrArg FilterModel.stateDims ((hM k).seen _ _ (hm.1.trans hm.2.symm)).1,
        ((hM k).seen _ _ (hm.1.trans hm.2.symm)).2.1⟩
    unfold ukfCorrect
    rw [hsz, (hms _ _ (he.2 k)).2]
    refine OptRel.refl_map _ _ _ fun L => OptRel.refl_map _ _ _ fun pts => ?_
    refine OptRel.bind (measLike_upd (hM k) (n0 k) _ _ (he.2 k) hcov x dt) ?_
    rintro m m' ⟨h1, h2, h3⟩
    rw [h3]
    refine OptRel.refl_map _ _ _ fun obs => ?_
    refine OptRel.bind (ukfCorrectLoop_sim sc (mc k) hS (hM k) (n0 k) _ _ he.1 L x dt _ 0 m m' pts obs h1 h2) ?_
    rintro ⟨r, po⟩ ⟨r', _⟩ ⟨⟨k1, k2⟩, rfl⟩
    dsimp only at k1 k2 ⊢
    rw [(hM k).wsum r r' (k1.1.trans k1.2.symm), (hM k).sub r r' (k1.1.trans k1.2.symm), hS.sub _ _ he.1, hS.add _ _ he.1, k2,
      (hms r r' k1).1, (hms r r' k1).2]
    refine OptRel.refl_map _ _ _ fun _ => OptRel.refl_map _ _ _ fun _ => OptRel.refl_map _ _ _ fun _ =>
      OptRel.refl_map _ _ _ fun _ => OptRel.refl_map _ _ _ fun _ => OptRel.refl_map _ _ _ fun _ =>
      OptRel.refl_map _ _ _ fun _ => OptRel.refl_map _ _ _ fun _ => OptRel.refl_map _ _ _ fun _ =>
      OptRel.refl_map _ _ _ fun _ => OptRel.refl_map _ _ _ fun _ => ?_
    exact ⟨rfl, rfl, he.setMeas k r r' k1⟩

end filters

end StateEstimation
