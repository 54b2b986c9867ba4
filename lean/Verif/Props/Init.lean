import Verif.Lemmas.Sim
import Verif.Examples.Toy

/-! # C16, C17: what survives `initialize` -/

set_option linter.unusedSectionVars false

namespace StateEstimation
namespace Props

open Filter

variable {T V M K E : Type} [TimeOps T]

/-- Two filters nobody can tell apart now: same estimate and time, parameters, models, queues, remembered times and
states, and the same inputs to replay. -/
structure SameObservable (f g : Filter T V M K E) : Prop where
  state : f.getState = g.getState
  covariance : f.getCovariance = g.getCovariance
  time : f.getStateTime = g.getStateTime
  params : f.params = g.params
  env : f.env = g.env
  control : f.prevControl = g.prevControl
  controlQueue : f.controlQueue = g.controlQueue
  measQueue : f.measQueue = g.measQueue
  retained : f.retained.map (fun s => (s.x, s.covariance, s.timestamp))
    = g.retained.map (fun s => (s.x, s.covariance, s.timestamp))
  inputs : f.inputs = g.inputs

/-- Same outcome of every sequence of calls: both terminate abnormally, or both end indistinguishable. -/
def SameBehaviour (P : Plant T V M K E) (f g : Filter T V M K E) : Prop :=
  ∀ (sort : List (FilterInput T V M K) → List (FilterInput T V M K)) (ops : List (Op T V M K E)),
    (f.run P sort ops = none ∧ g.run P sort ops = none) ∨
    ∃ f' g', f.run P sort ops = some f' ∧ g.run P sort ops = some g' ∧ SameObservable f' g'

/-- remembered control: same vector, same covariance unless the vector is empty -/
abbrev SamePc (P : Plant T V M K E) (pc : V) (pcc : M) (e : E) (pc' : V) (pcc' : M) (e' : E) : Prop :=
  pc = pc' ∧ e = e' ∧ (P.vsize pc > 0 → pcc = pcc')

theorem control_samePc (P : Plant T V M K E) (c d : Core T V M E) (i j : FilterInput T V M K)
    (h1 : c.ts = d.ts) (h2 : c.x = d.x ∧ c.cov = d.cov)
    (h3 : SamePc P c.pc c.pcc c.env d.pc d.pcc d.env)
    (hi : i.data = j.data ∧ i.timestamp = j.timestamp ∧ (P.vsize i.data > 0 → i.covariance = j.covariance)) :
    OptRel False (fun c' d' : Core T V M E => c'.ts = d'.ts ∧ (c'.x = d'.x ∧ c'.cov = d'.cov) ∧
      SamePc P c'.pc c'.pcc c'.env d'.pc d'.pcc d'.env) (c.control P i) (d.control P j) := by
  obtain ⟨x, cov, ts, pc, pcc, env⟩ := c
  obtain ⟨x', cov', ts', pc', pcc', env'⟩ := d
  obtain ⟨data, icov, its, ic, im⟩ := i
  obtain ⟨data', icov', its', ic', im'⟩ := j
  dsimp only at h1 h2 h3 hi
  obtain ⟨rfl, rfl⟩ := h2
  obtain ⟨rfl, rfl, h3⟩ := h3
  obtain ⟨rfl, rfl, hi⟩ := hi
  subst h1
  unfold Core.control
  dsimp only
  by_cases hd : P.vsize data > 0
  · have := hi hd
    subst this
    simp only [hd, if_true]
    split
    · cases P.setRc env icov with
      | none => exact not_false
      | some e =>
        dsimp only
        cases P.myPredict e x cov data (TimeOps.sub its ts) with
        | none => exact not_false
        | some r => exact ⟨rfl, ⟨rfl, rfl⟩, rfl, rfl, fun _ => rfl⟩
    · cases P.sysProcess env x data with
      | none => exact not_false
      | some e =>
        dsimp only
        cases P.sysMake e x cov with
        | none => exact not_false
        | some r => exact ⟨rfl, ⟨rfl, rfl⟩, rfl, rfl, fun _ => rfl⟩
  · simp only [hd, if_false]
    by_cases hp : P.vsize pc > 0
    · have := h3 hp
      subst this
      simp only [hp, if_true]
      split
      · cases P.setRc env pcc with
        | none => exact not_false
        | some e =>
          dsimp only
          cases P.myPredict e x cov pc (TimeOps.sub its ts) with
          | none => exact not_false
          | some r => exact ⟨rfl, ⟨rfl, rfl⟩, rfl, rfl, fun _ => rfl⟩
      · cases P.sysProcess env x data with
        | none => exact not_false
        | some e =>
          dsimp only
          cases P.sysMake e x cov with
          | none => exact not_false
          | some r => exact ⟨rfl, ⟨rfl, rfl⟩, rfl, rfl, fun _ => rfl⟩
    · simp only [hp, if_false]
      split
      · cases P.setRc env (P.rc env) with
        | none => exact not_false
        | some e =>
          dsimp only
          cases P.myPredict e x cov (P.zeroV (P.controlSize env)) (TimeOps.sub its ts) with
          | none => exact not_false
          | some r => exact ⟨rfl, ⟨rfl, rfl⟩, rfl, rfl, fun h => absurd h hp⟩
      · cases P.sysProcess env x data with
        | none => exact not_false
        | some e =>
          dsimp only
          cases P.sysMake e x cov with
          | none => exact not_false
          | some r => exact ⟨rfl, ⟨rfl, rfl⟩, rfl, rfl, fun h => absurd h hp⟩

theorem meas_samePc (P : Plant T V M K E) (c d : Core T V M E) (i : FilterInput T V M K) (dt : T)
    (h1 : c.ts = d.ts) (h2 : c.x = d.x ∧ c.cov = d.cov)
    (h3 : SamePc P c.pc c.pcc c.env d.pc d.pcc d.env) :
    OptRel False (fun c' d' : Core T V M E => c'.ts = d'.ts ∧ (c'.x = d'.x ∧ c'.cov = d'.cov) ∧
      SamePc P c'.pc c'.pcc c'.env d'.pc d'.pcc d'.env) (c.meas P i dt) (d.meas P i dt) := by
  obtain ⟨x, cov, ts, pc, pcc, env⟩ := c
  obtain ⟨x', cov', ts', pc', pcc', env'⟩ := d
  dsimp only at h1 h2 h3
  obtain ⟨rfl, rfl⟩ := h2
  obtain ⟨rfl, rfl, h3⟩ := h3
  subst h1
  unfold Core.meas
  dsimp only
  cases i.model with
  | none => exact not_false
  | some m =>
    dsimp only
    cases P.setMeasCov env m i.covariance with
    | none => exact not_false
    | some e =>
      dsimp only
      split
      · cases P.myCorrect e x cov i.data m dt with
        | none => exact not_false
        | some r => exact ⟨rfl, ⟨rfl, rfl⟩, rfl, rfl, h3⟩
      · cases P.measProcess e m x i.data with
        | none => exact not_false
        | some e2 =>
          dsimp only
          cases P.measMake e2 m x cov with
          | none => exact not_false
          | some r => exact ⟨rfl, ⟨rfl, rfl⟩, rfl, rfl, h3⟩

/-- the simulation used for C16 and C17: everything equal, except the covariance remembered with an empty control -/
def samePcSim (P : Plant T V M K E) : SimRel P P where
  tot := False
  RS x c x' c' := x = x' ∧ c = c'
  RG := SamePc P
  RI i j := i = j
  RU u u' := u = u'
  ts_eq := by rintro i _ rfl; rfl
  apply := by
    rintro c d i _ h1 h2 h3 rfl
    unfold Core.apply
    dsimp only
    rw [← h1]
    split
    · refine OptRel.map (control_samePc P c d i i h1 h2 h3 ⟨rfl, rfl, fun _ => rfl⟩) ?_
      intro a b hab
      exact ⟨by simp only [Core.tick]; rw [hab.1], hab.2.1, hab.2.2⟩
    · split
      · refine OptRel.bind (OptRel.map (control_samePc P c d _ _ h1 h2 h3
          ⟨h3.1, rfl, fun hv => h3.2.2 hv⟩) (S := fun c' d' : Core T V M E => c'.ts = d'.ts ∧
            (c'.x = d'.x ∧ c'.cov = d'.cov) ∧ SamePc P c'.pc c'.pcc c'.env d'.pc d'.pcc d'.env) ?_) ?_
        · intro a b hab
          exact ⟨by simp only [Core.tick]; rw [hab.1], hab.2.1, hab.2.2⟩
        · intro a b hab
          exact meas_samePc P a b i _ hab.1 hab.2.1 hab.2.2
      · exact meas_samePc P c d i _ h1 h2 h3
  ctrl := by
    rintro pc pcc e pc' pcc' e' u _ t ⟨_, rfl, _⟩ rfl
    rfl
  empty := rfl

theorem samePc_rop (P : Plant T V M K E) (op : Op T V M K E) : (samePcSim P).ROp op op := by
  cases op with
  | init x c t => exact .init t ⟨rfl, rfl⟩
  | predictTime t => exact .predictTime t
  | predictControl u t => exact .predictControl t rfl
  | correct z c t m => exact .correct rfl
  | enqueueControl u t => exact .enqueueControl t rfl
  | enqueueMeasurement z c t m => exact .enqueueMeasurement rfl
  | processQueues => exact .processQueues
  | clearControlQueue => exact .clearControlQueue
  | clearMeasurementQueue => exact .clearMeasurementQueue
  | revertToState t => exact .revertToState t
  | setParams p => exact .setParams p
  | userModel g =>
    refine .userModel ?_
    rintro pc pcc e pc' pcc' e' ⟨rfl, rfl, h⟩
    cases g e with
    | none => exact not_false
    | some e1 => exact ⟨rfl, rfl, h⟩

theorem samePc_observable (P : Plant T V M K E) (f g : Filter T V M K E) (h : (samePcSim P).RF f g) :
    SameObservable f g := by
  have heq : ∀ l l' : List (FilterInput T V M K), List.Forall₂ (samePcSim P).RI l l' → l = l' := by
    intro l l' h
    have : List.Forall₂ Eq l l' := h
    rwa [List.forall₂_eq_eq_eq] at this
  refine ⟨h.state.2.1, h.state.2.2, h.state.1, h.params, h.glob.2.1, h.glob.1, heq _ _ h.cq, heq _ _ h.mq, ?_, ?_⟩
  · have := h.ret.1
    generalize f.retained = l at this
    generalize g.retained = l' at this
    induction this with
    | nil => rfl
    | cons a _ ih => rw [List.map_cons, List.map_cons, ih, a.1, a.2.1, a.2.2]
  · exact heq _ _ (SimRel.forall₂_prev h.ret.2)

theorem samePc_behaviour [SaneTime T] (P : Plant T V M K E) (f g : Filter T V M K E) (h : (samePcSim P).RF f g) :
    SameBehaviour P f g := by
  intro sort ops
  have := SimRel.RF.run (R := samePcSim P) (sort := sort) (sort' := sort)
    (by
      intro l l' hl
      have : List.Forall₂ Eq l l' := hl
      rw [List.forall₂_eq_eq_eq] at this
      subst this
      exact List.forall₂_same.mpr (fun _ _ => rfl))
    (List.forall₂_same.mpr (fun op _ => samePc_rop P op)) (ops := ops) h
  generalize f.run P sort ops = x at this ⊢
  generalize g.run P sort ops = y at this ⊢
  cases x <;> cases y <;> simp only [OptRel] at this
  · left; exact ⟨rfl, rfl⟩
  · right; exact ⟨_, _, rfl, rfl, samePc_observable P _ _ this⟩

/-- **C16 (partial).**  If no control is remembered (none was ever applied), `initialize` gives a filter that behaves,
for every later sequence of calls, exactly like a newly constructed one with the same parameters and models.
Missing from C16: a remembered control survives `initialize` (`C16_refuted`).
`hempty` says that two vectors of size 0 are equal, which holds for `Eigen::VectorXd`. -/
theorem C16_initialize_fresh_partial [SaneTime T] (P : Plant T V M K E) (hempty : ∀ v, P.vsize v = 0 → v = P.emptyV)
    (f : Filter T V M K E) (hf : P.vsize f.prevControl = 0) (x : V) (c : M) (t : T) :
    SameBehaviour P (f.init x c t) (construct P f.params f.env x c t) := by
  refine samePc_behaviour P _ _ (SimRel.RF.init (R := samePcSim P) (f := f)
    (g := construct P f.params f.env x c t) rfl ⟨hempty _ hf, rfl, ?_⟩ ⟨rfl, rfl⟩ t)
  intro h
  omega

/-- **C16 (partial), the only leak.**  For every filter: `initialize` gives a filter that behaves exactly like a newly
constructed one that additionally remembers the old control and its covariance. -/
theorem C16_only_control_leaks_partial [SaneTime T] (P : Plant T V M K E) (f : Filter T V M K E) (x : V) (c : M) (t : T) :
    SameBehaviour P (f.init x c t)
      { construct P f.params f.env x c t with prevControl := f.prevControl, prevControlCov := f.prevControlCov } :=
  samePc_behaviour P _ _
    ⟨rfl, ⟨rfl, rfl, fun _ => rfl⟩, ⟨List.Forall₂.cons ⟨rfl, rfl, rfl⟩ List.Forall₂.nil, List.Forall₂.nil⟩,
      List.Forall₂.nil, List.Forall₂.nil⟩

/-- a filter that was only given measurements -/
def toyMeasured : Filter ℤ (List ℤ) ℤ Unit ℤ :=
  (toyRun toyRewind [.correct [4] 1 2 (some ()), .predictTime 5, .enqueueMeasurement [1] 1 3 (some ())]).getD toyRewind

/-- The hypotheses of the first form hold for it, and it is a busy filter. -/
example : toy.vsize toyMeasured.prevControl = 0 ∧ toyMeasured.history.length = 2 ∧
      toyMeasured.measQueue.length = 1 ∧ (∀ v, toy.vsize v = 0 → v = toy.emptyV) :=
  ⟨by decide, by decide, by decide, fun _ hv => List.eq_nil_of_length_eq_zero hv⟩

/-- a filter that was given a control -/
def toyControlled : Filter ℤ (List ℤ) ℤ Unit ℤ := (toyRun toyPlain [.predictControl [5] 3]).getD toyPlain

/-- **C16 refuted.**  After `predict([5], 3)` and `initialize([0], 0, 0)`, `predict(2)` moves the state to `[10]`,
while a newly constructed filter (same parameters, models, initial values) stays at `[0]`: the control given before
`initialize` is still applied. -/
theorem C16_refuted :
    estimate (toyRun toyPlain [.predictControl [5] 3, .init [0] 0 0, .predictTime 2]) = some ([10], 1, 2) ∧
    estimate (toyRun toyPlain [.predictTime 2]) = some ([0], 1, 2) ∧
    toyRun toyPlain [.predictControl [5] 3] = some toyControlled ∧
    ¬ SameBehaviour toy (toyControlled.init [0] 0 0)
        (construct toy toyControlled.params toyControlled.env [0] 0 0) := by
  refine ⟨by decide, by decide, by decide, ?_⟩
  intro h
  rcases h insSort [.predictTime 2] with ⟨h1, _⟩ | ⟨f', g', h1, h2, h3⟩
  · revert h1; decide
  · have e1 : f'.getState = [10] := by
      have : estimate (some f') = some ([10], 1, 2) := by rw [← h1]; decide
      simp only [estimate, Option.map_some, Option.some.injEq, Prod.mk.injEq] at this
      exact this.1
    have e2 : g'.getState = [0] := by
      have : estimate (some g') = some ([0], 1, 2) := by rw [← h2]; decide
      simp only [estimate, Option.map_some, Option.some.injEq, Prod.mk.injEq] at this
      exact this.1
    have := h3.state
    rw [e1, e2] at this
    exact absurd this (by decide)

/-- **C17.**  Nothing of the history, the queues or the last input survives `initialize`: two filters that differ in
all of these, and agree only in parameters, models and remembered control, behave identically after `initialize`,
whatever calls follow.  In particular no input supplied before is replayed. -/
theorem C17_history_forgotten [SaneTime T] (P : Plant T V M K E) (f g : Filter T V M K E)
    (hp : f.params = g.params) (he : f.env = g.env) (hc : f.prevControl = g.prevControl)
    (hcc : f.prevControlCov = g.prevControlCov) (x : V) (c : M) (t : T) :
    SameBehaviour P (f.init x c t) (g.init x c t) :=
  samePc_behaviour P _ _ (SimRel.RF.init (R := samePcSim P) (f := f) (g := g) hp ⟨hc, he, fun _ => hcc⟩ ⟨rfl, rfl⟩ t)

/-- the simulation used for the tagging form of C17 -/
def taggedSim (P : Plant T V M K E) (A : FilterInput T V M K → Prop)
    (U : V → Prop) (hA : ∀ u R t, U u → A ⟨u, R, t, true, none⟩) (hU : U P.emptyV) : SimRel P P where
  tot := False
  RS x c x' c' := x = x' ∧ c = c'
  RG pc pcc e pc' pcc' e' := pc = pc' ∧ pcc = pcc' ∧ e = e'
  RI i j := i = j ∧ A i
  RU u u' := u = u' ∧ U u
  ts_eq := by rintro i _ ⟨rfl, _⟩; rfl
  apply := by
    rintro ⟨x, cov, ts, pc, pcc, env⟩ ⟨x', cov', ts', pc', pcc', env'⟩ i _ h1 ⟨h2, h3⟩ ⟨h4, h5, h6⟩ ⟨rfl, _⟩
    dsimp only at h1 h2 h3 h4 h5 h6
    subst h1 h2 h3 h4 h5 h6
    generalize Core.apply P _ i = r
    cases r with
    | none => exact not_false
    | some c => exact ⟨rfl, ⟨rfl, rfl⟩, rfl, rfl, rfl⟩
  ctrl := by
    rintro pc pcc e pc' pcc' e' u _ t ⟨_, _, rfl⟩ ⟨rfl, hu⟩
    exact ⟨rfl, hA u _ t hu⟩
  empty := ⟨rfl, hU⟩

/-- Every control in the calls satisfies `U` and every measurement input satisfies `A`. -/
def SuppliesOnly (A : FilterInput T V M K → Prop) (U : V → Prop) : Op T V M K E → Prop
  | .predictControl u _ | .enqueueControl u _ => U u
  | .correct z c t m | .enqueueMeasurement z c t m => A (measurementInput z c t m)
  | _ => True

/-- **C17, tagging form.**  Tag inputs with any predicate `A` (say: "made after the restart"; `U` is the tag on control
vectors, which the empty control of `predict(t)` must carry).  If every input supplied after `initialize` is tagged,
then every input the filter holds ready for replay, or in its queues, is tagged, however it is used. -/
theorem C17_replays_only_new_inputs [SaneTime T] (P : Plant T V M K E)
    (sort : List (FilterInput T V M K) → List (FilterInput T V M K)) (hsort : ∀ l, (sort l).Perm l)
    (A : FilterInput T V M K → Prop) (U : V → Prop) (hA : ∀ u R t, U u → A ⟨u, R, t, true, none⟩)
    (hU : U P.emptyV) (f g : Filter T V M K E) (x : V) (c : M) (t : T) (ops : List (Op T V M K E))
    (hops : ∀ op ∈ ops, SuppliesOnly A U op) (hrun : (f.init x c t).run P sort ops = some g) :
    ∀ i ∈ g.inputs ++ g.queued, A i := by
  have h0 : (taggedSim P A U hA hU).RF (f.init x c t) (f.init x c t) :=
    SimRel.RF.init (R := taggedSim P A U hA hU) (f := f) (g := f) rfl ⟨rfl, rfl, rfl⟩ ⟨rfl, rfl⟩ t
  have hrel : ∀ l l' : List (FilterInput T V M K), List.Forall₂ (taggedSim P A U hA hU).RI l l' →
      l = l' ∧ ∀ i ∈ l, A i := by
    intro l l' h
    induction h with
    | nil => simp
    | cons a _ ih =>
      obtain ⟨rfl, ha⟩ := a
      refine ⟨by rw [ih.1], ?_⟩
      intro i hi
      rcases List.mem_cons.mp hi with rfl | hi
      · exact ha
      · exact ih.2 i hi
  have := SimRel.RF.run (R := taggedSim P A U hA hU) (sort := sort) (sort' := sort)
    (by
      intro l l' hl
      obtain ⟨rfl, hl2⟩ := hrel l l' hl
      refine List.forall₂_same.mpr (fun i hi => ⟨rfl, hl2 i ((hsort l).mem_iff.mp hi)⟩))
    (ops := ops) (ops' := ops)
    (List.forall₂_same.mpr (by
      intro op hop
      have hs := hops op hop
      cases op with
      | init x c t => exact .init t ⟨rfl, rfl⟩
      | predictTime t => exact .predictTime t
      | predictControl u t => exact .predictControl t ⟨rfl, hs⟩
      | correct z c t m => exact .correct ⟨rfl, hs⟩
      | enqueueControl u t => exact .enqueueControl t ⟨rfl, hs⟩
      | enqueueMeasurement z c t m => exact .enqueueMeasurement ⟨rfl, hs⟩
      | processQueues => exact .processQueues
      | clearControlQueue => exact .clearControlQueue
      | clearMeasurementQueue => exact .clearMeasurementQueue
      | revertToState t => exact .revertToState t
      | setParams p => exact .setParams p
      | userModel g =>
        refine .userModel ?_
        rintro pc pcc e pc' pcc' e' ⟨rfl, rfl, rfl⟩
        cases g e with
        | none => exact not_false
        | some e1 => exact ⟨rfl, rfl, rfl⟩)) h0
  rw [hrun] at this
  have h : (taggedSim P A U hA hU).RF g g := this
  intro i hi
  rcases List.mem_append.mp hi with hi | hi
  · exact (hrel _ _ (SimRel.forall₂_prev h.ret.2)).2 i hi
  · unfold queued at hi
    rcases List.mem_append.mp hi with hi | hi
    · exact (hrel _ _ h.cq).2 i hi
    · exact (hrel _ _ h.mq).2 i hi

/-- a filter with two inputs to replay and one queued -/
def toyOld : Filter ℤ (List ℤ) ℤ Unit ℤ :=
  (toyRun toyRewind [.predictControl [5] 3, .predictControl [6] 4, .enqueueControl [7] 9]).getD toyRewind

/-- the same filter re-initialised and given two new controls, the second one late -/
def toyNew : Filter ℤ (List ℤ) ℤ Unit ℤ :=
  (toyRun (toyOld.init [0] 0 0) [.predictControl [1] 2, .predictControl [1] 1]).getD toyRewind

/-- Concrete case: the old filter holds inputs for replay and in its queues; after `initialize` and two new
calls with a rewind among them, the two new inputs are the ones held. -/
example : toyOld.inputs.length = 2 ∧ toyOld.queued.length = 1 ∧
    toyNew.inputs.map FilterInput.data = [[1], [1]] ∧
    (∀ i ∈ toyNew.inputs ++ toyNew.queued, i.data = [1] ∨ i.data = []) := by
  refine ⟨by decide, by decide, by decide, ?_⟩
  exact C17_replays_only_new_inputs toy insSort (fun l => (insSort_isTimeSort l).1)
    (fun i => i.data = [1] ∨ i.data = []) (fun u => u = [1] ∨ u = []) (fun _ _ _ h => h) (Or.inr rfl)
    toyOld toyNew [0] 0 0 [.predictControl [1] 2, .predictControl [1] 1]
    (by simp [SuppliesOnly]) (by decide)

end Props
end StateEstimation
