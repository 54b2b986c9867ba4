import Verif.Lemmas.InOrder
import Verif.Examples.Toy
import Mathlib.Data.List.Perm.Basic
import Mathlib.Data.List.Nodup

/-! # C05-C07, C22, C23: the queues -/

set_option linter.unusedSectionVars false

namespace StateEstimation
namespace Props

open Filter

variable {T V M K E : Type}

/-- **C05**, enqueueing changes nothing but the queue it appends to. -/
theorem C05_enqueue_isolated [TimeOps T] (P : Plant T V M K E) (f : Filter T V M K E) :
    (∀ u t, let g := f.enqueueControl P u t
      g.SameEstimate f ∧ g.history = f.history ∧ g.params = f.params ∧ g.measQueue = f.measQueue ∧
        g.controlQueue = f.controlQueue ++ [controlInput P f u t]) ∧
    (∀ z R t m, let g := f.enqueueMeasurement z R t m
      g.SameEstimate f ∧ g.history = f.history ∧ g.params = f.params ∧ g.controlQueue = f.controlQueue ∧
        g.measQueue = f.measQueue ++ [measurementInput z R t m]) :=
  ⟨fun _ _ => ⟨⟨rfl, rfl, rfl, rfl⟩, rfl, rfl, rfl, rfl⟩, fun _ _ _ _ => ⟨⟨rfl, rfl, rfl, rfl⟩, rfl, rfl, rfl, rfl⟩⟩

/-- **C05**, direct calls never touch the queues, for every filter and all time stamps. -/
theorem C05_direct_calls_keep_queues [TimeOps T] [SaneTime T] (P : Plant T V M K E) (sort)
    (f g : Filter T V M K E) (op : Op T V M K E) (hop : op.IsDirect) (hg : f.step P sort op = some g) :
    g.controlQueue = f.controlQueue ∧ g.measQueue = f.measQueue := by
  cases op with
  | predictTime t =>
    rcases predictTime_some P f g t hg with ⟨_, rfl⟩ | ⟨h1, g', h2, rfl⟩
    · exact ⟨rfl, rfl⟩
    · have := applyInput_frame P f g' _ h2
      simp [this]
  | predictControl u t =>
    rcases predictControl_some P f g u t hg with ⟨_, _, rfl⟩ | ⟨_, _, g', h2, rfl⟩ | ⟨_, h2⟩
    · exact ⟨rfl, rfl⟩
    · have := applyInput_frame P f g' _ h2
      simp [this]
    · exact (insertInput_frame P f g _ h2).2
  | correct z c t m =>
    rcases correct_some P f g z c t m hg with ⟨_, _, _, rfl⟩ | ⟨_, _, g', h2, rfl⟩ | ⟨_, h2⟩
    · exact ⟨rfl, rfl⟩
    · have := applyInput_frame P f g' _ h2
      simp [this]
    · exact (insertInput_frame P f g _ h2).2
  | _ => exact absurd hop (by simp [Op.IsDirect])

/-- **C05**, the calls that empty the queues. -/
theorem C05_emptying [TimeOps T] [SaneTime T] (P : Plant T V M K E) (sort) (f g : Filter T V M K E) :
    (f.processQueues P sort = some g → g.controlQueue = [] ∧ g.measQueue = []) ∧
    (∀ x c t, (f.init x c t).controlQueue = [] ∧ (f.init x c t).measQueue = [] ∧ (f.init x c t).history = []) ∧
    (∀ t, f.revertToState t = some (g, true) → g.controlQueue = [] ∧ g.measQueue = []) ∧
    (f.clearControlQueue = { f with controlQueue := [] }) ∧
    (f.clearMeasurementQueue = { f with measQueue := [] }) := by
  refine ⟨?_, fun _ _ _ => ⟨rfl, rfl, rfl⟩, ?_, rfl, rfl⟩
  · intro h
    unfold processQueues at h
    dsimp only at h
    split at h
    · simp at h
    · split at h
      · simp at h
      · rw [Option.some.injEq] at h; subst h; exact ⟨rfl, rfl⟩
  · intro t h
    unfold revertToState at h
    split at h
    · simp at h
    · simp only [Option.some.injEq, Prod.mk.injEq, and_true] at h; subst h; exact ⟨rfl, rfl⟩
    · simp at h

/-- queues with something in them that do get emptied -/
example : ∃ g, ((toyRewind.enqueueControl toy [4] 2).enqueueMeasurement [1] 1 5 (some ())).processQueues toy insSort
    = some g ∧ g.controlQueue = [] ∧ g.getStateTime = 5 := by
  refine ⟨_, rfl, by decide, by decide⟩

section lemmas
variable [LinearOrder T] [ExactTime T]

theorem usesRc_control (P : Plant T V M K E) (R : M) (hP : RcStable P) (c d : Core T V M E)
    (inp : FilterInput T V M K) (hc : P.rc c.env = R) (hpc : P.vsize c.pc > 0 → c.pcc = R)
    (hi : P.vsize inp.data > 0 → inp.covariance = R) (h : Core.control P c inp = some d) :
    P.rc d.env = R ∧ (P.vsize d.pc > 0 → d.pcc = R) := by
  unfold Core.control at h
  dsimp only at h
  have hsel : ∀ sel : V × M × V × M, sel = (if P.vsize inp.data > 0 then
      (inp.data, inp.covariance, inp.data, inp.covariance)
    else if P.vsize c.pc > 0 then (c.pc, c.pcc, c.pc, c.pcc)
    else (P.zeroV (P.controlSize c.env), P.rc c.env, c.pc, c.pcc)) →
      sel.2.1 = R ∧ (P.vsize sel.2.2.1 > 0 → sel.2.2.2 = R) := by
    rintro sel rfl
    split
    · rename_i hv; exact ⟨hi hv, fun _ => hi hv⟩
    · split
      · rename_i hv; exact ⟨hpc hv, hpc⟩
      · exact ⟨hc, hpc⟩
  generalize hs : (if P.vsize inp.data > 0 then
      (inp.data, inp.covariance, inp.data, inp.covariance)
    else if P.vsize c.pc > 0 then (c.pc, c.pcc, c.pc, c.pcc)
    else (P.zeroV (P.controlSize c.env), P.rc c.env, c.pc, c.pcc)) = sel at h
  obtain ⟨h1, h2⟩ := hsel sel hs.symm
  split at h
  · split at h
    · simp at h
    · rename_i e he
      split at h
      · simp at h
      · rename_i x cv e' hp
        rw [Option.some.injEq] at h; subst h
        exact ⟨(hP.predict _ _ _ _ _ _ _ _ hp).trans ((hP.set _ _ _ he).trans h1), h2⟩
  · split at h
    · simp at h
    · rename_i e he
      split at h
      · simp at h
      · rw [Option.some.injEq] at h; subst h
        exact ⟨(hP.sysProcess _ _ _ _ he).trans hc, h2⟩

theorem rc_meas (P : Plant T V M K E) (hP : RcStable P) (c d : Core T V M E)
    (inp : FilterInput T V M K) (dt) (h : Core.meas P c inp dt = some d) : P.rc d.env = P.rc c.env := by
  unfold Core.meas at h
  split at h
  · simp at h
  · split at h
    · simp at h
    · rename_i e he
      split at h
      · split at h
        · simp at h
        · rename_i hp
          rw [Option.some.injEq] at h; subst h
          exact (hP.correct _ _ _ _ _ _ _ _ _ hp).trans (hP.setMeasCov _ _ _ _ he)
      · split at h
        · simp at h
        · rename_i e' he'
          split at h
          · simp at h
          · rw [Option.some.injEq] at h; subst h
            exact (hP.measProcess _ _ _ _ _ he').trans (hP.setMeasCov _ _ _ _ he)

theorem usesRc_apply (P : Plant T V M K E) (R : M) (hP : RcStable P) (c d : Core T V M E)
    (inp : FilterInput T V M K) (hc : P.rc c.env = R) (hpc : P.vsize c.pc > 0 → c.pcc = R)
    (hi : inp.isControl = true → inp.covariance = R) (h : Core.apply P c inp = some d) :
    P.rc d.env = R ∧ (P.vsize d.pc > 0 → d.pcc = R) := by
  unfold Core.apply at h
  dsimp only at h
  split at h
  · rename_i hic
    rw [Option.map_eq_some_iff] at h
    obtain ⟨e, he, rfl⟩ := h
    exact usesRc_control P R hP c e inp hc hpc (fun _ => hi hic) he
  · split at h
    · rw [Option.bind_eq_some_iff] at h
      obtain ⟨e, he, h2⟩ := h
      rw [Option.map_eq_some_iff] at he
      obtain ⟨e', he', rfl⟩ := he
      obtain ⟨a, b⟩ := usesRc_control P R hP c e' _ hc hpc hpc he'
      obtain ⟨m1, m2, m3⟩ := Core.meas_frame P _ _ _ _ h2
      rw [m2, m3, rc_meas P hP _ _ _ _ h2]
      exact ⟨a, b⟩
    · obtain ⟨m1, m2, m3⟩ := Core.meas_frame P _ _ _ _ h
      rw [m2, m3, rc_meas P hP _ _ _ _ h]
      exact ⟨hc, hpc⟩

theorem sameEstimate_iff (f g : Filter T V M K E) :
    f.SameEstimate g ↔ f.core = g.core ∧ f.state.prevInput = g.state.prevInput := by
  constructor
  · rintro ⟨h1, h2, h3, h4⟩
    exact ⟨by simp [core, h1, h2, h3, h4], by rw [h1]⟩
  · rintro ⟨h1, h2⟩
    simp only [core, Core.mk.injEq] at h1
    obtain ⟨a, b, c, d, e, e'⟩ := h1
    refine ⟨?_, d, e, e'⟩
    cases hf : f.state
    cases hg : g.state
    rw [hf, hg] at a b c h2
    simp_all

/-- one accepted in-order direct call -/
theorem direct_inorder (P : Plant T V M K E) (sort) (f : Filter T V M K E) (i : FilterInput T V M K)
    (R : M) (hR : f.UsesRc P R) (hi : i.isControl = true → i.covariance = R ∧ i.model = none)
    (ht : f.state.timestamp ≤ i.timestamp) :
    f.step P sort (i.directCall E) = (applyInput P f i).map pruned := by
  have hb : ∀ inp, applyBatchInputs P f [inp] = (applyInput P f inp).map pruned := by
    intro inp
    rw [applyBatchInputs_eq]
    simp only [applyAll]
    cases applyInput P f inp <;> rfl
  unfold FilterInput.directCall
  cases hc : i.isControl with
  | true =>
    obtain ⟨h1, h2⟩ := hi hc
    have hin : (⟨i.data, P.rc f.env, i.timestamp, true, none⟩ : FilterInput T V M K) = i := by
      rw [hR.1, ← h1, ← hc, ← h2]
    simp only [if_true, step, predictControl]
    have hle : TimeOps.le f.state.timestamp i.timestamp = true := (LawfulTime.le_iff _ _).mpr ht
    have hlt : TimeOps.lt i.timestamp f.state.timestamp = false := (lt_false_iff _ _).mpr ht
    cases hr : f.params.rewindHistory with
    | false =>
      simp only [Bool.not_false, if_true, hle, hin]
      cases applyInput P f i with
      | none => rfl
      | some g => simp [pruneHistory_pruned]
    | true =>
      simp only [Bool.not_true, Bool.false_eq_true, if_false, hin, insertInput, hlt, hb]
  | false =>
    have hin : (⟨i.data, i.covariance, i.timestamp, false, i.model⟩ : FilterInput T V M K) = i := by
      rw [← hc]
    simp only [Bool.false_eq_true, if_false, step, correct]
    have hle : TimeOps.le TimeOps.zero (TimeOps.sub i.timestamp f.state.timestamp) = true :=
      (LawfulTime.le_iff _ _).mpr ((LawfulTime.sub_nonneg_iff _ _).mpr ht)
    have hlt : TimeOps.lt i.timestamp f.state.timestamp = false := (lt_false_iff _ _).mpr ht
    cases hr : f.params.rewindHistory with
    | false =>
      simp only [Bool.not_false, if_true, hle, hin, Bool.or_true]
      cases applyInput P f i with
      | none => rfl
      | some g => simp [pruneHistory_pruned]
    | true =>
      simp only [Bool.not_true, Bool.false_eq_true, if_false, hin, insertInput, hlt, hb]

theorem applyInput_sameEstimate (P : Plant T V M K E) (f g : Filter T V M K E) (i) (h : f.SameEstimate g) :
    (∀ f', applyInput P f i = some f' → ∃ g', applyInput P g i = some g' ∧ f'.SameEstimate g') ∧
    (applyInput P f i = none → applyInput P g i = none) := by
  have hc := ((sameEstimate_iff f g).mp h).1
  rw [applyInput_eq, applyInput_eq, hc]
  cases Core.apply P g.core i with
  | none => simp
  | some c =>
    simp only [Option.map_some, Option.some.injEq, reduceCtorEq, false_implies, and_true]
    rintro f' rfl
    exact ⟨_, rfl, rfl, rfl, rfl, rfl⟩

/-- In-order direct calls compute what one batch computes. -/
theorem direct_run_batch (P : Plant T V M K E) (sort) (R : M) (hP : RcStable P)
    (is : List (FilterInput T V M K)) (f g : Filter T V M K E) (hfg : f.SameEstimate g) (hR : f.UsesRc P R)
    (hi : ∀ i ∈ is, i.isControl = true → i.covariance = R ∧ i.model = none)
    (hs : is.Pairwise (fun a b => a.timestamp ≤ b.timestamp)) (ht : ∀ i ∈ is, f.state.timestamp ≤ i.timestamp) :
    (∀ f', f.run P sort (is.map (FilterInput.directCall E)) = some f' →
      ∃ g', applyAll P g is = some g' ∧ f'.SameEstimate g') ∧
    (f.run P sort (is.map (FilterInput.directCall E)) = none → applyAll P g is = none) := by
  induction is generalizing f g with
  | nil =>
    simp only [List.map_nil, run, applyAll, Option.some.injEq, reduceCtorEq, false_implies, and_true]
    rintro f' rfl; exact ⟨g, rfl, hfg⟩
  | cons i is ih =>
    rw [List.map_cons, run, direct_inorder P sort f i R hR (hi i (by simp)) (ht i (by simp)), applyAll]
    obtain ⟨h1, h2⟩ := applyInput_sameEstimate P f g i hfg
    cases h : applyInput P f i with
    | none => rw [h2 h]; simp
    | some f1 =>
      obtain ⟨g1, hg1, hs1⟩ := h1 f1 h
      rw [hg1]
      simp only [Option.map_some]
      have hs' := List.pairwise_cons.mp hs
      have htime : f1.state.timestamp = i.timestamp := by
        rw [applyInput_time P f f1 i h]
        split
        · rfl
        · exact max_eq_right (ht i (by simp))
      refine ih f1.pruned g1 ?_ ?_ (fun j hj => hi j (by simp [hj])) hs'.2 ?_
      · rw [sameEstimate_iff] at hs1 ⊢
        simpa using hs1
      · obtain ⟨c, hc, rfl⟩ := applyInput_some P f f1 i h
        have := usesRc_apply P R hP f.core c i hR.1 hR.2 (fun hc => (hi i (by simp) hc).1) hc
        have hcore : (({ f.withCore c i with history := f.pushed } : Filter T V M K E).pruned).core = c := by
          rw [pruned_core]; rfl
        constructor
        · show P.rc ((({ f.withCore c i with history := f.pushed } : Filter T V M K E).pruned).core.env) = R
          rw [hcore]; exact this.1
        · show P.vsize ((({ f.withCore c i with history := f.pushed } : Filter T V M K E).pruned).core.pc) > 0 →
            (({ f.withCore c i with history := f.pushed } : Filter T V M K E).pruned).core.pcc = R
          rw [hcore]; exact this.2
      · intro j hj
        rw [pruned_state, htime]; exact hs'.1 j hj

end lemmas

section ordered
variable [LinearOrder T] [ExactTime T]

/-- **C06**.  Both modes.  No queued input is older than the state (in rewind mode: all are strictly later, see
`C06_tie_triggers_rewind` for why); the control covariance has not been changed since the controls were enqueued.
Then `processQueues` gives the estimate (state, covariance, time, control in use, models) that the direct calls give
when made in time order, and it fails iff they fail. -/
theorem C06_processQueues_is_direct (P : Plant T V M K E) (hP : RcStable P) (sort) (hsort : IsTimeSort sort)
    (f : Filter T V M K E) (hf : f.params.rewindHistory = true → ReachRewind P sort f)
    (R : M) (hR : f.UsesRc P R)
    (hctl : ∀ i ∈ f.queued, i.isControl = true → i.covariance = R ∧ i.model = none)
    (ht : ∀ i ∈ f.queued, f.getStateTime ≤ i.timestamp)
    (hrew : f.params.rewindHistory = true → ∀ i ∈ f.queued, f.getStateTime < i.timestamp) :
    (∀ g, f.processQueues P sort = some g →
      ∃ g', f.run P sort ((sort f.queued).map (FilterInput.directCall E)) = some g' ∧ g'.SameEstimate g) ∧
    (f.processQueues P sort = none →
      f.run P sort ((sort f.queued).map (FilterInput.directCall E)) = none) := by
  have hshape := processQueues_future P sort f
    (fun hr => (((hf hr).inv P sort hsort).1.history_le P f).2) ht hrew
  have hmem : ∀ i, i ∈ sort f.queued ↔ i ∈ f.queued := fun i => (hsort _).1.mem_iff
  obtain ⟨h1, h2⟩ := direct_run_batch P sort R hP (sort f.queued) f f ⟨rfl, rfl, rfl, rfl⟩ hR
    (fun i hi => hctl i ((hmem i).mp hi)) ((hsort _).2.imp (fun h => (lt_false_iff _ _).mp h))
    (fun i hi => ht i ((hmem i).mp hi))
  rw [hshape]
  constructor
  · intro g hg
    rw [Option.map_eq_some_iff] at hg
    obtain ⟨g0, hg0, rfl⟩ := hg
    cases hd : f.run P sort ((sort f.queued).map (FilterInput.directCall E)) with
    | none => rw [h2 hd] at hg0; simp at hg0
    | some f' =>
      obtain ⟨g', hg', hs⟩ := h1 f' hd
      rw [hg', Option.some.injEq] at hg0
      subst hg0
      refine ⟨f', rfl, ?_⟩
      rw [sameEstimate_iff] at hs ⊢
      refine ⟨hs.1.trans ?_, hs.2.trans ?_⟩
      · show g'.core = g'.pruned.core; simp
      · show g'.state.prevInput = g'.pruned.state.prevInput; simp
  · intro hn
    rw [Option.map_eq_none_iff] at hn
    cases hd : f.run P sort ((sort f.queued).map (FilterInput.directCall E)) with
    | none => rfl
    | some f' => obtain ⟨g', hg', _⟩ := h1 f' hd; rw [hn] at hg'; simp at hg'

/-- the toy plant keeps its `Rc` -/
theorem toy_rcStable : RcStable toy := by
  constructor <;> intros <;> simp_all [toy]

/-- a busy filter with three queued inputs, enqueued out of order, meets the hypotheses in rewind mode -/
example : ∃ f, ReachRewind toy insSort f ∧ f.UsesRc toy 1 ∧ f.history ≠ [] ∧ f.queued.length = 3 ∧
    (∀ i ∈ f.queued, i.isControl = true → i.covariance = 1 ∧ i.model = none) ∧
    (∀ i ∈ f.queued, f.getStateTime < i.timestamp) :=
  ⟨_, ReachRewind.run toy insSort _ _
    [.predictControl [5] 3, .correct [1] 1 5 (some ()), .enqueueControl [4] 9, .enqueueMeasurement [6] 2 8 (some ()),
      .enqueueControl [7] 6] (.start toyRewind [0] 0 0 rfl) (by simp [Op.IsUnqueued]) rfl,
    by unfold UsesRc; decide, by decide, by decide, by decide, by decide⟩

/-- Why C06 asks for strictly later inputs in rewind mode: with an input at exactly the state time `processQueues`
rewinds past the state and re-sorts, so with an unlucky (but legal) sort the new input is applied first. -/
theorem C06_tie_triggers_rewind : ∃ (f : Filter ℤ (List ℤ) ℤ Unit ℤ), ReachRewind toy insSort f ∧
    (∀ i ∈ f.queued, f.getStateTime ≤ i.timestamp) ∧
    IsTimeSort (fun l => insSort l.reverse) ∧
    estimate (f.processQueues toy (fun l => insSort l.reverse))
      ≠ estimate (f.run toy insSort ((insSort f.queued).map (FilterInput.directCall ℤ))) := by
  refine ⟨_, ReachRewind.run toy insSort _ _
    [.predictControl [5] 3, .correct [1] 1 5 (some ()), .enqueueMeasurement [60] 2 5 (some ())]
    (.start toyRewind [0] 0 0 rfl) (by simp [Op.IsUnqueued]) rfl, by decide, ?_, by decide⟩
  intro l
  exact ⟨(insSort_isTimeSort _).1.trans l.reverse_perm, (insSort_isTimeSort _).2⟩

/-- two sorted permutations with distinct time stamps are equal -/
theorem sorted_unique (l1 l2 : List (FilterInput T V M K)) (hp : l1.Perm l2)
    (h1 : l1.Pairwise (fun a b => TimeOps.lt b.timestamp a.timestamp = false))
    (h2 : l2.Pairwise (fun a b => TimeOps.lt b.timestamp a.timestamp = false))
    (hd : (l1.map FilterInput.timestamp).Nodup) : l1 = l2 := by
  refine List.Perm.eq_of_pairwise (le := fun a b => TimeOps.lt b.timestamp a.timestamp = false) ?_ h1 h2 hp
  intro a b ha hb hab hba
  rw [lt_false_iff] at hab hba
  exact List.inj_on_of_nodup_map hd ha (hp.mem_iff.mpr hb) (le_antisymm hab hba)

/-- **C07**.  Any filter, both modes, any two sorting algorithms.  If the queues of `f2` hold the same inputs as those
of `f1` in another order (also across the two queues) and the queued inputs and the inputs remembered for replay all
have different time stamps, `processQueues` gives the same filter. -/
theorem C07_enqueue_order_irrelevant (P : Plant T V M K E) (sort1 sort2) (hs1 : IsTimeSort sort1)
    (hs2 : IsTimeSort sort2) (f1 f2 : Filter T V M K E) (cq mq : List (FilterInput T V M K))
    (hf : f2 = { f1 with controlQueue := cq, measQueue := mq }) (hperm : f2.queued.Perm f1.queued)
    (hd : ((f1.inputs ++ f1.queued).map FilterInput.timestamp).Nodup) :
    f2.processQueues P sort2 = f1.processQueues P sort1 := by
  subst hf
  change (cq ++ mq).Perm (f1.controlQueue ++ f1.measQueue) at hperm
  have hprune : (f1.pruneQueue cq ++ f1.pruneQueue mq).Perm
      (f1.pruneQueue f1.controlQueue ++ f1.pruneQueue f1.measQueue) := by
    rw [← pruneQueue_append, ← pruneQueue_append]
    unfold pruneQueue
    split
    · exact hperm.filter _
    · exact hperm
  have hold : oldestQueued (f1.pruneQueue cq) (f1.pruneQueue mq)
      = oldestQueued (f1.pruneQueue f1.controlQueue) (f1.pruneQueue f1.measQueue) := by
    cases h1 : oldestQueued (f1.pruneQueue cq) (f1.pruneQueue mq) with
    | none =>
      obtain ⟨e1, e2⟩ := oldestQueued_none _ _ h1
      rw [e1, e2] at hprune
      have := hprune.symm.eq_nil
      rw [List.append_eq_nil_iff] at this
      rw [this.1, this.2]; rfl
    | some t =>
      obtain ⟨⟨i, hi, rfl⟩, hm⟩ := oldestQueued_some _ _ t h1
      cases h2 : oldestQueued (f1.pruneQueue f1.controlQueue) (f1.pruneQueue f1.measQueue) with
      | none =>
        obtain ⟨e1, e2⟩ := oldestQueued_none _ _ h2
        rw [e1, e2] at hprune
        have := hprune.eq_nil
        rw [this] at hi; simp at hi
      | some t' =>
        obtain ⟨⟨j, hj, rfl⟩, hm'⟩ := oldestQueued_some _ _ t' h2
        congr 1
        exact le_antisymm (hm j (hprune.mem_iff.mpr hj)) (hm' i (hprune.mem_iff.mp hi))
  -- what a rewind hands back are inputs remembered for replay
  have hpost : ∀ b g r post, f1.rewindHistory b = some (g, r, post) →
      (post.map FilterState.prevInput).Sublist f1.inputs := by
    intro b g r post h
    rcases rewindHistory_cases f1 b with ⟨_, h2⟩ | ⟨_, _, h2⟩ | ⟨_, front, rest, hh, hb, h2⟩
    · rw [h2] at h; simp at h; rw [h.2.2]; simp
    · rw [h2] at h; simp at h; rw [h.2.2]; simp
    · rw [h2] at h
      simp only [Option.some.injEq, Prod.mk.injEq] at h
      rw [← h.2.2]
      unfold inputs
      refine List.Sublist.map _ ?_
      unfold Filter.post retained
      rw [hh]
      have : isPost b front = false := Bound_gt_not_post b _ hb
      rw [List.filter_cons_of_neg (by simp [this])]
      exact (List.filter_sublist).append_right _
  have hkey : ∀ post : List (FilterInput T V M K), post.Sublist f1.inputs →
      sort2 (post ++ f1.pruneQueue cq ++ f1.pruneQueue mq)
        = sort1 (post ++ f1.pruneQueue f1.controlQueue ++ f1.pruneQueue f1.measQueue) := by
    intro post hp
    refine sorted_unique _ _ ?_ (hs2 _).2 (hs1 _).2 ?_
    · refine (hs2 _).1.trans (List.Perm.trans ?_ (hs1 _).1.symm)
      rw [List.append_assoc, List.append_assoc]
      exact hprune.append_left post
    · refine List.Perm.nodup ((hs2 _).1.map _).symm ?_
      rw [List.append_assoc]
      refine List.Perm.nodup ((hprune.append_left post).map _).symm ?_
      refine List.Nodup.sublist (List.Sublist.map _ (hp.append ?_)) hd
      rw [← pruneQueue_append]
      unfold pruneQueue
      split
      · exact List.filter_sublist
      · exact List.Sublist.refl _
  have hpq : ∀ q, ({ f1 with controlQueue := cq, measQueue := mq } : Filter T V M K E).pruneQueue q
      = f1.pruneQueue q := fun q => rfl
  unfold processQueues
  dsimp only
  rw [hpq, hpq, hold]
  have hrw : ∀ cq' mq' b, ({ f1 with controlQueue := cq', measQueue := mq' } : Filter T V M K E).rewindHistory b
      = (f1.rewindHistory b).map (fun r => ({ r.1 with controlQueue := cq', measQueue := mq' }, r.2)) := by
    intro cq' mq' b
    rw [rewindHistory_eq, rewindHistory_eq]
    dsimp only
    split
    · rfl
    · split
      · rfl
      · split <;> rfl
  rw [hrw (f1.pruneQueue cq) (f1.pruneQueue mq),
    hrw (f1.pruneQueue f1.controlQueue) (f1.pruneQueue f1.measQueue)]
  set b := oldestQueued (f1.pruneQueue f1.controlQueue) (f1.pruneQueue f1.measQueue)
  have happ : ∀ (g : Filter T V M K E) c1 m1 c2 m2 is,
      (match applyBatchInputs P { g with controlQueue := c1, measQueue := m1 } is with
        | none => none
        | some g => some g.clearControlQueue.clearMeasurementQueue)
      = (match applyBatchInputs P { g with controlQueue := c2, measQueue := m2 } is with
        | none => none
        | some g => some g.clearControlQueue.clearMeasurementQueue) := by
    intro g c1 m1 c2 m2 is
    have hq : ∀ (is : List (FilterInput T V M K)) (g : Filter T V M K E) c m,
        applyAll P { g with controlQueue := c, measQueue := m } is
          = (applyAll P g is).map (fun g => { g with controlQueue := c, measQueue := m }) := by
      intro is
      induction is with
      | nil => intros; rfl
      | cons i is ih =>
        intro g c m
        simp only [applyAll, applyInput_eq]
        have : ({ g with controlQueue := c, measQueue := m } : Filter T V M K E).core = g.core := rfl
        rw [this]
        cases Core.apply P g.core i with
        | none => rfl
        | some d =>
          simp only [Option.map_some]
          exact ih ({ g.withCore d i with history := g.pushed }) c m
    have hpr : ∀ (g : Filter T V M K E) c m,
        ({ g with controlQueue := c, measQueue := m } : Filter T V M K E).pruned.clearControlQueue.clearMeasurementQueue
          = g.pruned.clearControlQueue.clearMeasurementQueue := by
      intro g c m; unfold pruned; dsimp only; split <;> rfl
    rw [applyBatchInputs_eq, applyBatchInputs_eq, hq is g c1 m1, hq is g c2 m2]
    cases applyAll P g is with
    | none => rfl
    | some g' => simp only [Option.map_some, hpr]
  cases hmode : f1.params.rewindHistory with
  | false =>
    simp only [Bool.false_eq_true, if_false, List.map_nil]
    rw [hkey [] (List.nil_sublist _)]
    exact happ f1 _ _ _ _ _
  | true =>
    simp only [if_true]
    cases hrr : f1.rewindHistory b with
    | none => rfl
    | some r =>
      obtain ⟨g, fl, post⟩ := r
      simp only [Option.map_some]
      rw [hkey _ (hpost b g fl post hrr)]
      exact happ g _ _ _ _ _

/-- a busy filter, late and new inputs queued in two different orders -/
example : ∃ f1 f2 : Filter ℤ (List ℤ) ℤ Unit ℤ, ReachRewind toy insSort f1 ∧
    f2 = { f1 with controlQueue := f1.controlQueue.reverse, measQueue := f1.measQueue } ∧
    f2.controlQueue ≠ f1.controlQueue ∧
    ((f1.inputs ++ f1.queued).map FilterInput.timestamp).Nodup ∧
    f1.inputs.length = 2 ∧ estimate (f1.processQueues toy insSort) ≠ estimate (some f1) :=
  ⟨_, _, ReachRewind.run toy insSort _ _
    [.predictControl [5] 3, .correct [1] 1 5 (some ()), .enqueueControl [4] 9, .enqueueMeasurement [6] 2 4 (some ()),
      .enqueueControl [7] 1] (.start toyRewind [0] 0 0 rfl) (by simp [Op.IsUnqueued]) rfl, rfl, by decide, by decide,
    by decide, by decide⟩

/-- **C23 is false**: two controls queued with the same time stamp, two legal sorting algorithms, two results. -/
theorem C23_refuted : ∃ sort1 sort2 : List (FilterInput ℤ (List ℤ) ℤ Unit) → List (FilterInput ℤ (List ℤ) ℤ Unit),
    IsTimeSort sort1 ∧ IsTimeSort sort2 ∧
    ∃ f, ReachRewind toy sort1 f ∧ ReachRewind toy sort2 f ∧
      estimate (f.processQueues toy sort1) ≠ estimate (f.processQueues toy sort2) := by
  refine ⟨insSort, fun l => insSort l.reverse, insSort_isTimeSort, fun l =>
    ⟨(insSort_isTimeSort _).1.trans l.reverse_perm, (insSort_isTimeSort _).2⟩, _,
    ReachRewind.run toy insSort _ _ [.enqueueControl [5] 3, .enqueueControl [7] 3]
      (.start toyRewind [0] 0 0 rfl) (by simp [Op.IsUnqueued]) rfl,
    ReachRewind.run toy _ _ _ [.enqueueControl [5] 3, .enqueueControl [7] 3]
      (.start toyRewind [0] 0 0 rfl) (by simp [Op.IsUnqueued]) rfl, by decide⟩

/-- **C23** holds for inputs without ties.  Missing from the full claim: ties (false, see above). -/
theorem C23_no_ties_partial (P : Plant T V M K E) (sort1 sort2) (hs1 : IsTimeSort sort1)
    (hs2 : IsTimeSort sort2) (f : Filter T V M K E)
    (hd : ((f.inputs ++ f.queued).map FilterInput.timestamp).Nodup) :
    f.processQueues P sort1 = f.processQueues P sort2 :=
  C07_enqueue_order_irrelevant P sort2 sort1 hs2 hs1 f f f.controlQueue f.measQueue rfl (List.Perm.refl _) hd

/-- **C22 is false** with rewinding off: a queued control older than the state is applied, with a negative time
step, and the state time goes backwards.  The direct call would ignore it (C02). -/
theorem C22_refuted_rewind_off :
    ∃ f g, toyPlain.run toy insSort [.predictControl [5] 3, .enqueueControl [7] 1] = some f ∧
      f.processQueues toy insSort = some g ∧ g.getStateTime < f.getStateTime ∧ g.getState ≠ f.getState ∧
      f.predictControl toy [7] 1 = some f := by
  refine ⟨_, _, rfl, rfl, by decide, by decide, by decide⟩

/-- **C22 is false** with rewinding on: an input with the time stamp of the oldest remembered state is not discarded,
the failed rewind is ignored, and the input is applied to the newest state.  The direct call refuses it (C08). -/
theorem C22_refuted_rewind_on :
    ∃ f g, ReachRewind toy insSort f ∧ f.processQueues toy insSort = some g ∧ g.getStateTime < f.getStateTime ∧
      g.getState ≠ f.getState ∧ f.queued.map FilterInput.timestamp = [0] ∧
      f.predictControl toy [7] 0 = some f := by
  refine ⟨_, _, ReachRewind.run toy insSort _ _ [.predictControl [5] 3, .enqueueControl [7] 0]
    (.start toyRewind [0] 0 0 rfl) (by simp [Op.IsUnqueued]) rfl, rfl, by decide, by decide, by decide, by decide⟩

/-- **C22** in rewind mode when every queued input can be placed in time.  Every applied input, queued or replayed,
starts from a state not later than it; afterwards the remembered states are in time order, each input was applied at
its own time stamp, and the state time has not gone backwards.  Missing from the full claim: queued inputs that cannot
be placed (false, see above). -/
theorem C22_rewind_partial (P : Plant T V M K E) (sort) (hsort : IsTimeSort sort) (f g : Filter T V M K E)
    (hf : ReachRewind P sort f) (hq : f.QueuesPlaceable) (hg : f.processQueues P sort = some g) :
    f.getStateTime ≤ g.getStateTime ∧
    g.retained.Pairwise (fun a b => a.timestamp ≤ b.timestamp) ∧
    (∀ s ∈ g.retained.tail, s.prevInput.timestamp = s.timestamp) ∧
    ∃ older base newer, f.retained = older ++ base :: newer ∧
      ∀ i ∈ newer.map FilterState.prevInput ++ f.pruneQueue f.controlQueue ++ f.pruneQueue f.measQueue,
        base.timestamp ≤ i.timestamp := by
  obtain ⟨hinv, hp⟩ := hf.inv P sort hsort
  obtain ⟨hginv, _⟩ := (ReachRewind.queues f g hf hq hg).inv P sort hsort
  obtain ⟨older, base, newer, g', e1, e2, e3, rfl, e5⟩ := processQueues_shape P sort f g hp hinv hq hg
  refine ⟨?_, hginv.sorted, hginv.stamped, older, base, newer, e1, e2⟩
  have hpair := (hsort (newer.map FilterState.prevInput ++ f.pruneQueue f.controlQueue
    ++ f.pruneQueue f.measQueue)).2.imp (fun hab => (lt_false_iff _ _).mp hab)
  obtain ⟨_, b, _⟩ := applyBatchInputs_inv P _ g' _ (by exact hp) (hinv.of_prefix P f _ (by
      show older ++ [base] <+: f.retained
      rw [e1]; exact ⟨newer, by simp⟩)) hpair
    (fun i hi => e2 i ((hsort _).1.mem_iff.mp hi)) e3
  show f.state.timestamp ≤ g'.state.timestamp
  rw [b]
  have hlast : ∀ (l : List (FilterInput T V M K)) (d : T), l.Pairwise (fun a b => a.timestamp ≤ b.timestamp) →
      (∀ i ∈ l, d ≤ i.timestamp) →
      d ≤ (l.getLast?.map FilterInput.timestamp).getD d ∧
      ∀ i ∈ l, i.timestamp ≤ (l.getLast?.map FilterInput.timestamp).getD d := by
    intro l d hl hd
    cases l using List.reverseRecOn with
    | nil => simp
    | append_singleton l a =>
      rw [List.getLast?_concat]
      simp only [Option.map_some, Option.getD_some]
      refine ⟨hd a (by simp), ?_⟩
      intro i hi
      rcases List.mem_append.mp hi with h | h
      · exact (List.pairwise_append.mp hl).2.2 i h a (by simp)
      · rw [List.mem_singleton] at h; rw [h]
  obtain ⟨l1, l2⟩ := hlast _ base.timestamp hpair (fun i hi => e2 i ((hsort _).1.mem_iff.mp hi))
  have hlast' : f.retained.getLast? = some f.state := by simp [retained]
  rw [e1] at hlast'
  rcases eq_or_ne newer [] with hn | hn
  · subst hn
    have : base = f.state := by simpa using hlast'
    rw [← this]; exact l1
  · have hmem : f.state ∈ newer := by
      rw [← List.dropLast_append_getLast hn] at hlast' ⊢
      rw [← List.cons_append, ← List.append_assoc, List.getLast?_concat, Option.some.injEq] at hlast'
      rw [hlast']; simp
    have hst : f.state.prevInput.timestamp = f.state.timestamp := by
      rcases e5 with h | h
      · exact absurd h hn
      · exact (h.1 _ hmem).1
    rw [← hst]
    refine l2 _ ((hsort _).1.mem_iff.mpr ?_)
    rw [List.append_assoc]
    exact List.mem_append_left _ (List.mem_map_of_mem hmem)

/-- **C22** with rewinding off when no queued input is older than the state.  Missing: older ones (false). -/
theorem C22_plain_partial (P : Plant T V M K E) (sort) (hsort : IsTimeSort sort) (f g : Filter T V M K E)
    (hr : f.params.rewindHistory = false) (ht : ∀ i ∈ f.queued, f.getStateTime ≤ i.timestamp)
    (hg : f.processQueues P sort = some g) :
    f.getStateTime ≤ g.getStateTime ∧ ∀ i ∈ f.queued, i.timestamp ≤ g.getStateTime := by
  have hpq : ∀ q, f.pruneQueue q = q := by intro q; unfold pruneQueue; rw [hr]
  unfold processQueues at hg
  dsimp only at hg
  rw [hpq, hpq, hr] at hg
  simp only [Bool.false_eq_true, if_false, List.map_nil, List.nil_append, applyBatchInputs_eq] at hg
  have key : ∀ (is : List (FilterInput T V M K)) (f g : Filter T V M K E),
      is.Pairwise (fun a b => a.timestamp ≤ b.timestamp) → (∀ i ∈ is, f.state.timestamp ≤ i.timestamp) →
      applyAll P f is = some g → f.state.timestamp ≤ g.state.timestamp ∧
        ∀ i ∈ is, i.timestamp ≤ g.state.timestamp := by
    intro is
    induction is with
    | nil => intro f g _ _ h; simp only [applyAll, Option.some.injEq] at h; subst h; simp
    | cons i is ih =>
      intro f g hs ht h
      rw [applyAll] at h
      split at h
      · simp at h
      · rename_i f' h'
        have h1 : f'.state.timestamp = i.timestamp := by
          rw [applyInput_time P f f' i h']
          split
          · rfl
          · exact max_eq_right (ht i (by simp))
        have hs' := List.pairwise_cons.mp hs
        obtain ⟨a, b⟩ := ih f' g hs'.2 (by intro j hj; rw [h1]; exact hs'.1 j hj) h
        refine ⟨(ht i (by simp)).trans (h1 ▸ a), ?_⟩
        intro j hj
        rcases List.mem_cons.mp hj with rfl | hj
        · exact h1 ▸ a
        · exact b j hj
  cases ha : applyAll P { f with controlQueue := f.controlQueue, measQueue := f.measQueue }
      (sort (f.controlQueue ++ f.measQueue)) with
  | none => rw [ha] at hg; simp at hg
  | some g' =>
    rw [ha] at hg
    simp only [Option.map_some, Option.some.injEq] at hg
    obtain ⟨a, b⟩ := key _ _ g' ((hsort _).2.imp (fun hab => (lt_false_iff _ _).mp hab))
      (fun i hi => ht i ((hsort _).1.mem_iff.mp hi)) ha
    have : g.getStateTime = g'.state.timestamp := by
      rw [← hg]; show g'.pruned.state.timestamp = _; simp
    rw [this]
    exact ⟨a, fun i hi => b i ((hsort _).1.mem_iff.mpr hi)⟩

/-- late and new inputs queued on a busy filter, all placeable -/
example : ∃ f g : Filter ℤ (List ℤ) ℤ Unit ℤ, ReachRewind toy insSort f ∧ f.QueuesPlaceable ∧
    f.processQueues toy insSort = some g ∧ f.queued.map FilterInput.timestamp = [9, 1, 4, -2] ∧
    g.retained.map FilterState.timestamp = [0, 1, 3, 4, 5, 9] := by
  refine ⟨_, _, ReachRewind.run toy insSort _ _
    [.predictControl [5] 3, .correct [1] 1 5 (some ()), .enqueueControl [4] 9, .enqueueMeasurement [6] 2 4 (some ()),
      .enqueueControl [7] 1, .enqueueMeasurement [6] 2 (-2) (some ())]
    (.start toyRewind [0] 0 0 rfl) (by simp [Op.IsUnqueued]) rfl, ?_, rfl, by decide, by decide⟩
  unfold QueuesPlaceable; decide

end ordered
end Props
end StateEstimation
