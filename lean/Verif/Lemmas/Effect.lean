import Verif.Spec.Effect
import Verif.Lemmas.InOrder

/-! # The model implements the specification of Spec/Effect.lean -/

set_option linter.unusedSectionVars false

namespace StateEstimation

variable {T V M K E : Type} [TimeOps T]

/-- the same data -/
def Core.est (c : Core T V M E) : Est T V M E := ⟨c.x, c.cov, c.ts, c.pc, c.pcc, c.env⟩

/-- the same data -/
def Est.core (a : Est T V M E) : Core T V M E := ⟨a.x, a.cov, a.time, a.control, a.controlCov, a.models⟩

@[simp] theorem Core.est_core (c : Core T V M E) : c.est.core = c := rfl
@[simp] theorem Est.core_est (a : Est T V M E) : a.core.est = a := rfl

theorem Filter.core_estimateOf (f : Filter T V M K E) : f.estimateOf.core = f.core := rfl
theorem Filter.estimateOf_core (f : Filter T V M K E) : f.core.est = f.estimateOf := rfl

theorem Core.control_iff (P : Plant T V M K E) (a : Est T V M E) (inp : FilterInput T V M K) (b : Est T V M E) :
    (Core.control P a.core inp).map (·.tick (TimeOps.sub inp.timestamp a.time)) = some b.core ↔
      a.ControlEffect P inp.data inp.covariance inp.timestamp b := by
  obtain ⟨bx, bc, bt, bu, bR, be⟩ := b
  unfold Core.control Est.ControlEffect Est.PropagatesTo Est.ControlUsed Est.core Core.tick
  dsimp only
  by_cases hst : P.sysCheck a.models = true ∧ P.sysIsStationary a.models a.x inp.data = true
  · rw [if_pos hst]
    simp only [hst.1, hst.2, Bool.and_self, Bool.not_true, Bool.false_eq_true, if_false]
    cases h1 : P.sysProcess a.models a.x inp.data with
    | none => simp
    | some e =>
      dsimp only
      cases h2 : P.sysMake e a.x a.cov with
      | none =>
        simp only [Option.map_none, Option.some.injEq, reduceCtorEq, false_iff]
        rintro ⟨⟨rfl, h⟩, _⟩
        rw [h2] at h; cases h
      | some r =>
        obtain ⟨x, c⟩ := r
        simp only [Option.map_some, Option.some.injEq, Core.mk.injEq]
        by_cases hd : P.vsize inp.data > 0
        · simp only [hd, if_true]
          constructor
          · rintro ⟨rfl, rfl, rfl, rfl, rfl, rfl⟩; exact ⟨⟨rfl, h2⟩, rfl, rfl, rfl⟩
          · rintro ⟨⟨rfl, h⟩, rfl, rfl, rfl⟩
            rw [h2] at h; cases h; exact ⟨rfl, rfl, rfl, rfl, rfl, rfl⟩
        · simp only [hd, if_false]
          have : ∀ (q : Prop) [Decidable q], (if q then (a.control, a.controlCov, a.control, a.controlCov)
              else (P.zeroV (P.controlSize a.models), P.rc a.models, a.control, a.controlCov)).2.2
              = (a.control, a.controlCov) := by intro q _; split <;> rfl
          rw [this]
          constructor
          · rintro ⟨rfl, rfl, rfl, rfl, rfl, rfl⟩; exact ⟨⟨rfl, h2⟩, rfl, rfl, rfl⟩
          · rintro ⟨⟨rfl, h⟩, rfl, rfl, rfl⟩
            rw [h2] at h; cases h; exact ⟨rfl, rfl, rfl, rfl, rfl, rfl⟩
  · rw [if_neg hst]
    have hst' : (!(P.sysCheck a.models && P.sysIsStationary a.models a.x inp.data)) = true := by
      cases h1 : P.sysCheck a.models <;> cases h2 : P.sysIsStationary a.models a.x inp.data <;> simp_all
    simp only [hst', if_true]
    have key : ∀ (u' : V) (R' : M) (bu' : V) (bR' : M) (Q : V → M → Prop) (Q' : Prop),
        (∀ u R, Q u R ↔ u = u' ∧ R = R') → (Q' ↔ bu = bu' ∧ bR = bR') →
        ((Option.map (fun c : Core T V M E => (⟨c.x, c.cov, TimeOps.add c.ts (TimeOps.sub inp.timestamp a.time), c.pc, c.pcc,
            c.env⟩ : Core T V M E))
          (match P.setRc a.models R' with
          | none => none
          | some env =>
            match P.myPredict env a.x a.cov u' (TimeOps.sub inp.timestamp a.time) with
            | none => none
            | some (x, cv, env) => some ⟨x, cv, a.time, bu', bR', env⟩) = some ⟨bx, bc, bt, bu, bR, be⟩) ↔
        (∃ u'' R'' e', Q u'' R'' ∧ P.setRc a.models R'' = some e' ∧
          P.myPredict e' a.x a.cov u'' (TimeOps.sub inp.timestamp a.time) = some (bx, bc, be)) ∧
          bt = TimeOps.add a.time (TimeOps.sub inp.timestamp a.time) ∧ Q') := by
      intro u' R' bu' bR' Q Q' hQ hQ'
      cases h1 : P.setRc a.models R' with
      | none =>
        simp only [Option.map_none, reduceCtorEq, false_iff]
        rintro ⟨⟨u'', R'', e', hq, h, _⟩, _⟩
        obtain ⟨rfl, rfl⟩ := (hQ _ _).mp hq
        rw [h1] at h; cases h
      | some env =>
        dsimp only
        cases h2 : P.myPredict env a.x a.cov u' (TimeOps.sub inp.timestamp a.time) with
        | none =>
          simp only [Option.map_none, reduceCtorEq, false_iff]
          rintro ⟨⟨u'', R'', e', hq, h, h'⟩, _⟩
          obtain ⟨rfl, rfl⟩ := (hQ _ _).mp hq
          rw [h1] at h; cases h
          rw [h2] at h'; cases h'
        | some r =>
          obtain ⟨x, c, e⟩ := r
          simp only [Option.map_some, Option.some.injEq, Core.mk.injEq]
          constructor
          · rintro ⟨rfl, rfl, rfl, rfl, rfl, rfl⟩
            exact ⟨⟨u', R', env, (hQ _ _).mpr ⟨rfl, rfl⟩, h1, h2⟩, rfl, hQ'.mpr ⟨rfl, rfl⟩⟩
          · rintro ⟨⟨u'', R'', e', hq, h, h'⟩, rfl, hq'⟩
            obtain ⟨rfl, rfl⟩ := (hQ _ _).mp hq
            obtain ⟨rfl, rfl⟩ := hQ'.mp hq'
            rw [h1] at h; cases h
            rw [h2] at h'; cases h'
            exact ⟨rfl, rfl, rfl, rfl, rfl, rfl⟩
    by_cases hd : P.vsize inp.data > 0
    · simp only [hd, if_true]
      exact key _ _ _ _ _ _ (fun _ _ => Iff.rfl) Iff.rfl
    · simp only [hd, if_false]
      by_cases hc : P.vsize a.control > 0
      · simp only [hc, if_true]
        exact key _ _ _ _ _ _ (fun _ _ => Iff.rfl) Iff.rfl
      · simp only [hc, if_false]
        exact key _ _ _ _ _ _ (fun _ _ => Iff.rfl) Iff.rfl

theorem Core.meas_iff (P : Plant T V M K E) (a : Est T V M E) (inp : FilterInput T V M K) (dt : T)
    (b : Est T V M E) :
    Core.meas P a.core inp dt = some b.core ↔ ∃ m, inp.model = some m ∧ a.CorrectsTo P inp.data inp.covariance m dt b := by
  obtain ⟨bx, bc, bt, bu, bR, be⟩ := b
  unfold Core.meas Est.CorrectsTo Est.core
  dsimp only
  cases hm : inp.model with
  | none => simp
  | some m =>
    simp only [Option.some.injEq, exists_eq_left']
    cases h1 : P.setMeasCov a.models m inp.covariance with
    | none => simp
    | some e =>
      simp only [Option.some.injEq, exists_eq_left']
      by_cases hst : P.measCheck e m = true ∧ P.measIsStationary e m a.x inp.data = true
      · rw [if_pos hst]
        simp only [hst.1, hst.2, Bool.and_self, Bool.not_true, Bool.false_eq_true, if_false]
        cases h2 : P.measProcess e m a.x inp.data with
        | none => simp
        | some e2 =>
          dsimp only
          cases h3 : P.measMake e2 m a.x a.cov with
          | none =>
            simp only [reduceCtorEq, false_iff]
            rintro ⟨⟨h, h'⟩, _⟩
            cases h
            rw [h3] at h'; cases h'
          | some r =>
            obtain ⟨x, c⟩ := r
            simp only [Option.some.injEq, Core.mk.injEq]
            constructor
            · rintro ⟨rfl, rfl, rfl, rfl, rfl, rfl⟩; exact ⟨⟨rfl, h3⟩, rfl, rfl, rfl⟩
            · rintro ⟨⟨rfl, h⟩, rfl, rfl, rfl⟩
              rw [h3] at h; cases h; exact ⟨rfl, rfl, rfl, rfl, rfl, rfl⟩
      · rw [if_neg hst]
        have hst' : (!(P.measCheck e m && P.measIsStationary e m a.x inp.data)) = true := by
          cases h1 : P.measCheck e m <;> cases h2 : P.measIsStationary e m a.x inp.data <;> simp_all
        simp only [hst', if_true]
        cases h2 : P.myCorrect e a.x a.cov inp.data m dt with
        | none => simp
        | some r =>
          obtain ⟨x, c, e2⟩ := r
          simp only [Option.some.injEq, Core.mk.injEq, Prod.mk.injEq]
          constructor
          · rintro ⟨rfl, rfl, rfl, rfl, rfl, rfl⟩; exact ⟨⟨rfl, rfl, rfl⟩, rfl, rfl, rfl⟩
          · rintro ⟨⟨rfl, rfl, rfl⟩, rfl, rfl, rfl⟩; exact ⟨rfl, rfl, rfl, rfl, rfl, rfl⟩

theorem Core.apply_iff (P : Plant T V M K E) (a : Est T V M E) (inp : FilterInput T V M K) (b : Est T V M E) :
    Core.apply P a.core inp = some b.core ↔ a.Effect P inp b := by
  unfold Core.apply Est.Effect
  dsimp only
  by_cases hc : inp.isControl = true
  · rw [if_pos hc, if_pos hc]
    exact Core.control_iff P a inp b
  · rw [if_neg hc, if_neg hc]
    unfold Est.MeasurementEffect
    have ht : a.core.ts = a.time := rfl
    rw [ht]
    by_cases hp : TimeOps.lt TimeOps.zero (TimeOps.sub inp.timestamp a.time) = true
    · rw [if_pos hp]
      simp only [if_pos hp]
      have h := fun p => Core.control_iff P a (a.core.advInput inp.timestamp) p
      simp only [Option.bind_eq_some_iff]
      constructor
      · rintro ⟨c, h1, h2⟩
        obtain ⟨m, hm, h3⟩ := (Core.meas_iff P c.est inp _ b).mp h2
        exact ⟨m, hm, c.est, (h c.est).mp h1, h3⟩
      · rintro ⟨m, hm, p, h1, h2⟩
        exact ⟨p.core, (h p).mpr h1, (Core.meas_iff P p inp _ b).mpr ⟨m, hm, h2⟩⟩
    · rw [if_neg hp]
      simp only [if_neg hp]
      exact Core.meas_iff P a inp _ b

theorem Core.applyList_iff (P : Plant T V M K E) (is : List (FilterInput T V M K)) (a b : Est T V M E) :
    Core.applyList P a.core is = some b.core ↔ a.Effects P is b := by
  induction is generalizing a with
  | nil =>
    unfold Core.applyList Est.Effects
    constructor
    · intro h
      have : a.core = b.core := Option.some.inj h
      exact (congrArg Core.est this).symm
    · rintro rfl; rfl
  | cons i is ih =>
    unfold Core.applyList Est.Effects
    simp only [Option.bind_eq_some_iff]
    constructor
    · rintro ⟨c, h1, h2⟩
      exact ⟨c.est, (Core.apply_iff P a i c.est).mp h1, (ih c.est).mp h2⟩
    · rintro ⟨c, h1, h2⟩
      exact ⟨c.core, (Core.apply_iff P a i c).mpr h1, (ih c).mpr h2⟩

namespace Filter

theorem applyAll_iff (P : Plant T V M K E) (f : Filter T V M K E) (is : List (FilterInput T V M K)) (b : Est T V M E) :
    (∃ g, applyAll P f is = some g ∧ g.estimateOf = b) ↔ f.estimateOf.Effects P is b := by
  rw [← Core.applyList_iff, core_estimateOf, ← applyAll_core]
  simp only [Option.map_eq_some_iff]
  constructor
  · rintro ⟨g, h, rfl⟩; exact ⟨g, h, rfl⟩
  · rintro ⟨g, h, hc⟩; exact ⟨g, h, by rw [← estimateOf_core, hc]; rfl⟩

theorem pruned_estimate (f : Filter T V M K E) : f.pruned.estimateOf = f.estimateOf := by
  rw [← estimateOf_core, ← estimateOf_core, pruned_core]

theorem applyBatch_iff (P : Plant T V M K E) (f : Filter T V M K E) (is : List (FilterInput T V M K))
    (b : Est T V M E) :
    (∃ g, applyBatchInputs P f is = some g ∧ g.estimateOf = b) ↔ f.estimateOf.Effects P is b := by
  rw [← applyAll_iff, applyBatchInputs_eq]
  simp only [Option.map_eq_some_iff]
  constructor
  · rintro ⟨g, ⟨g', h, rfl⟩, rfl⟩; exact ⟨g', h, (pruned_estimate g').symm⟩
  · rintro ⟨g, h, rfl⟩; exact ⟨g.pruned, ⟨g, h, rfl⟩, pruned_estimate g⟩

theorem applyInput_iff (P : Plant T V M K E) (f : Filter T V M K E) (i : FilterInput T V M K)
    (b : Est T V M E) :
    (∃ g, (applyInput P f i).map pruned = some g ∧ g.estimateOf = b) ↔ f.estimateOf.Effect P i b := by
  rw [← applyBatch_single, applyBatch_iff]
  simp only [Est.Effects]
  constructor
  · rintro ⟨c, h, rfl⟩; exact h
  · intro h; exact ⟨b, h, rfl⟩

theorem _root_.StateEstimation.Produced.spec (P : Plant T V M K E) (a b : FilterState T V M K) (h : Produced P a b) :
    ProducedBy P a b := by
  obtain ⟨fa, fb, rfl, h, rfl⟩ := h
  refine ⟨fa.prevControl, fa.prevControlCov, fa.env, fb.estimateOf, ?_, rfl, rfl, rfl⟩
  have h1 := (applyAll_iff P fa [fb.state.prevInput] fb.estimateOf).mp ⟨fb, by simp [applyAll, h], rfl⟩
  obtain ⟨c, h2, h3⟩ := h1
  have h3' : fb.estimateOf = c := h3
  rw [h3']; exact h2

section ordered
variable {T V M K E : Type} [LinearOrder T] [ExactTime T]

/-- The queued inputs that `processQueues` does not discard: with rewinding on and a history, those not older than it. -/
theorem pruneQueue_queued (f : Filter T V M K E) :
    f.pruneQueue f.controlQueue ++ f.pruneQueue f.measQueue = f.pruneQueue f.queued := by
  unfold queued
  rw [pruneQueue_append]

/-- What `processQueues` does in rewind mode when everything can be placed, failures included. -/
def QueueForm (P : Plant T V M K E) (sort : List (FilterInput T V M K) → List (FilterInput T V M K))
    (f : Filter T V M K E) : Prop :=
  ∃ (older : List (FilterState T V M K)) (base : FilterState T V M K) (newer : List (FilterState T V M K)),
    f.retained = older ++ base :: newer ∧
    (∀ i ∈ newer.map FilterState.prevInput ++ f.pruneQueue f.queued, base.timestamp ≤ i.timestamp) ∧
    (newer = [] ∨ (∃ i ∈ f.pruneQueue f.queued, ∀ s ∈ newer, i.timestamp ≤ s.timestamp) ∧
      (∀ i ∈ newer.map FilterState.prevInput ++ f.pruneQueue f.queued, base.timestamp < i.timestamp)) ∧
    f.processQueues P sort = (applyBatchInputs P
      { f with
        state := base
        history := older
        controlQueue := f.pruneQueue f.controlQueue
        measQueue := f.pruneQueue f.measQueue }
      (sort (newer.map FilterState.prevInput ++ f.pruneQueue f.queued))).map
        (fun g => g.clearControlQueue.clearMeasurementQueue)

theorem processQueues_form (P : Plant T V M K E) (sort) (f : Filter T V M K E)
    (hr : f.params.rewindHistory = true) (h : RewindInv P f) (hq : f.QueuesPlaceable) : QueueForm P sort f := by
  have hpl := placeable_pruned f hr hq
  set cq := f.pruneQueue f.controlQueue with hcq
  set mq := f.pruneQueue f.measQueue with hmq
  have hkept : f.pruneQueue f.queued = cq ++ mq := by rw [hcq, hmq]; exact (pruneQueue_queued f).symm
  have noRewind : (∀ i ∈ cq ++ mq, f.state.timestamp ≤ i.timestamp) → ∀ r,
      ({ f with controlQueue := cq, measQueue := mq } : Filter T V M K E).rewindHistory (oldestQueued cq mq)
        = some ({ f with controlQueue := cq, measQueue := mq }, r, []) → QueueForm P sort f := by
    intro hall r hrw
    refine ⟨f.history, f.state, [], rfl, ?_, Or.inl rfl, ?_⟩
    · rw [hkept]
      intro i hi
      exact hall i (by simpa using hi)
    · unfold processQueues
      dsimp only
      rw [if_pos hr, ← hcq, ← hmq, hrw, hkept]
      dsimp only
      simp only [List.map_nil, List.nil_append]
      generalize applyBatchInputs P _ _ = r
      cases r <;> rfl
  cases ho : oldestQueued cq mq with
  | none =>
    obtain ⟨e1, e2⟩ := oldestQueued_none cq mq ho
    refine noRewind (by rw [e1, e2]; simp) true ?_
    rw [ho]
    exact rewindHistory_gt _ _ ((LawfulTime.le_iff _ _).mpr (le_refl _))
  | some t =>
    obtain ⟨⟨i0, hi0, ht0⟩, hmin⟩ := oldestQueued_some cq mq t ho
    rcases rewindHistory_cases ({ f with controlQueue := cq, measQueue := mq } : Filter T V M K E) (some t)
      with ⟨h1, h2⟩ | ⟨h1, h3, h2⟩ | ⟨h1, front, rest, hh, hb, _⟩
    · rw [gt_iff] at h1
      refine noRewind (fun i hi => le_trans h1.le (hmin i hi)) true ?_
      rw [ho]; exact h2
    · refine noRewind ?_ false (by rw [ho]; exact h2)
      intro i hi
      refine le_trans ?_ (hmin i hi)
      rcases hpl i0 hi0 with hp | ⟨s, hs, hp⟩
      · rw [← ht0]; exact hp
      · exfalso
        cases hh : f.history with
        | nil => rw [hh] at hs; simp at hs
        | cons front rest =>
          have h4 := h3 front (by simp [hh])
          rw [gt_false_iff] at h4
          have hso := (h.history_le P f).1
          rw [hh] at hs hso
          have : front.timestamp ≤ s.timestamp := by
            rcases List.mem_cons.mp hs with rfl | hs
            · exact le_refl _
            · exact (List.pairwise_cons.mp hso).1 s hs
          rw [ht0] at hp
          exact absurd hp (not_lt.mpr (le_trans h4 this))
    · rw [gt_iff] at hb
      rw [gt_false_iff] at h1
      have hinv' : RewindInv P ({ f with controlQueue := cq, measQueue := mq } : Filter T V M K E) :=
        h.congr P f _ rfl
      obtain ⟨older, s, newer, e1, e2, e3, e4, e5, e6, e7, e8⟩ :=
        rewindHistory_inv P _ hinv' t h1 front rest hh hb
      dsimp only at e1 e7 e4
      have hpost : ∀ b ∈ newer ++ [f.state], t ≤ b.timestamp := by
        intro b hb'
        rcases List.mem_append.mp hb' with hb' | hb'
        · exact e4 b hb'
        · rw [List.mem_singleton] at hb'; rw [hb']; exact h1
      have hlt : ∀ i ∈ (newer ++ [f.state]).map FilterState.prevInput ++ (cq ++ mq), s.timestamp < i.timestamp := by
        intro i hi
        refine lt_of_lt_of_le e3 ?_
        rcases List.mem_append.mp hi with hi | hi
        · obtain ⟨b, hb', rfl⟩ := List.mem_map.mp hi
          rw [e7 b hb']
          exact hpost b hb'
        · exact hmin i hi
      rw [← hkept] at hlt hi0
      refine ⟨older, s, newer ++ [f.state], ?_, ?_, Or.inr ⟨⟨i0, hi0, ?_⟩, hlt⟩, ?_⟩
      · unfold retained; rw [e1]; simp
      · intro i hi
        exact (hlt i hi).le
      · intro b hb'
        rw [ht0]; exact hpost b hb'
      · unfold processQueues
        dsimp only
        rw [if_pos hr, ← hcq, ← hmq, ho, e5, hkept]
        dsimp only
        rw [List.append_assoc]
        generalize applyBatchInputs P _ _ = r
        cases r <;> rfl

end ordered

end Filter

end StateEstimation
