import Verif.Lemmas.Effect
import Verif.Props.Rewind

/-!
# C03, C18, C20, C25: what every accepted call does, in terms of the callbacks

The statements compare the API functions with the specification of Spec/Effect.lean, which knows nothing of histories,
queues or parameters.  All are equivalences: the call returns a filter with estimate `b` iff `b` is the effect; a call fails
iff there is no effect.
-/

set_option linter.unusedSectionVars false

namespace StateEstimation
namespace Props

open Filter

variable {T V M K E : Type}

section ordered
variable [LinearOrder T] [ExactTime T]

/-- **C20, C03**: `predict(t)` for a later time, in either mode: the effect of a control input without control. -/
theorem C03_C20_predict_time_effect (P : Plant T V M K E) (f : Filter T V M K E) (t : T) (ht : f.getStateTime < t)
    (b : Est T V M E) :
    (∃ g, f.predictTime P t = some g ∧ g.estimateOf = b) ↔ f.estimateOf.ControlEffect P P.emptyV (P.rc f.env) t b := by
  rw [predictTime_future P f t ht, applyInput_iff]
  rfl

/-- **C20, C03, C18**: `predict(u, t)` not in the past, in either mode. -/
theorem C03_C18_C20_predict_control_effect (P : Plant T V M K E) (f : Filter T V M K E) (u : V) (t : T)
    (ht : f.getStateTime ≤ t) (b : Est T V M E) :
    (∃ g, f.predictControl P u t = some g ∧ g.estimateOf = b) ↔ f.estimateOf.ControlEffect P u (P.rc f.env) t b := by
  rw [predictControl_inorder P f u t ht, applyInput_iff]
  rfl

/-- **C03, C18, C19**: `correct` not in the past, in either mode. -/
theorem C03_C18_correct_effect (P : Plant T V M K E) (f : Filter T V M K E) (z : V) (R : M) (t : T) (m : K)
    (ht : f.getStateTime ≤ t) (b : Est T V M E) :
    (∃ g, f.correct P z R t (some m) = some g ∧ g.estimateOf = b) ↔ f.estimateOf.MeasurementEffect P z R t m b := by
  rw [correct_inorder P f z R t (some m) ht, applyInput_iff]
  constructor
  · rintro ⟨m', h, h'⟩; cases h; exact h'
  · intro h; exact ⟨m, rfl, h⟩

/-- **C03**: a measurement from the past is applied, without moving the time, when rewinding is off and
`allow_measurements_in_past` is set. -/
theorem C03_allowed_past_effect (P : Plant T V M K E) (f : Filter T V M K E) (z : V) (R : M) (t : T) (m : K)
    (hr : f.params.rewindHistory = false) (ha : f.params.allowPast = true) (ht : t < f.getStateTime)
    (b : Est T V M E) :
    (∃ g, f.correct P z R t (some m) = some g ∧ g.estimateOf = b) ↔
      f.estimateOf.CorrectsTo P z R m (TimeOps.sub t f.getStateTime) b := by
  have h1 : f.correct P z R t (some m) = (applyInput P f (measurementInput z R t (some m))).map pruned := by
    unfold correct measurementInput
    simp only [hr, ha, Bool.not_false, if_true, Bool.true_or]
    cases applyInput P f ⟨z, R, t, false, some m⟩ with
    | none => rfl
    | some g => simp [pruneHistory_pruned]
  rw [h1, applyInput_iff]
  have h2 : ¬ TimeOps.lt TimeOps.zero (TimeOps.sub t f.estimateOf.time) = true := by
    rw [LawfulTime.lt_iff, LawfulTime.sub_pos_iff]
    exact not_lt.mpr (le_of_lt ht)
  have h3 : ∀ k, f.estimateOf.MeasurementEffect P z R t k b
      ↔ f.estimateOf.CorrectsTo P z R k (TimeOps.sub t f.getStateTime) b := by
    intro k
    unfold Est.MeasurementEffect
    rw [if_neg h2]; rfl
  constructor
  · rintro ⟨m', h, h'⟩; cases h; exact (h3 m).mp h'
  · intro h; exact ⟨m, rfl, (h3 m).mpr h⟩

/-- all four are used: a control, a prediction with it, a future and an allowed past measurement on the integrator -/
example : estimate (({ toyPlain with params := ⟨false, 100, true⟩ } : Filter ℤ (List ℤ) ℤ Unit ℤ).run toy insSort
    [.predictControl [5] 3, .predictTime 4, .correct [5] 1 5 (some ()), .correct [1] 1 2 (some ())])
    = some ([8], 3, 5) := by decide

/-- **C25**, late inputs, in terms of the callbacks.  Rewind mode, any reachable filter, an input older than the state,
some remembered state strictly older than the input: with `s` the newest of these, the call gives exactly the effect, on
the estimate of `s` (with the models and the control in use now), of the late input followed by the inputs remembered
with the states after `s`, in their order. -/
theorem C25_late_input_effect (P : Plant T V M K E) (sort) (hsort : IsTimeSort sort)
    (f : Filter T V M K E) (hf : ReachRewind P sort f) (op : Op T V M K E) (inp : FilterInput T V M K)
    (hop : op.asInput P f = some inp) (hlate : inp.timestamp < f.getStateTime)
    (hold : ∃ s ∈ f.retained, s.timestamp < inp.timestamp) :
    ∃ older s newer, f.retained = older ++ s :: newer ∧ newer ≠ [] ∧ s.timestamp < inp.timestamp ∧
      (∀ b ∈ newer, inp.timestamp ≤ b.timestamp) ∧
      ∀ b, (∃ g, f.step P sort op = some g ∧ g.estimateOf = b) ↔
        (⟨s.x, s.covariance, s.timestamp, f.prevControl, f.prevControlCov, f.env⟩ : Est T V M E).Effects P
          (inp :: newer.map FilterState.prevInput) b := by
  obtain ⟨older, s, newer, e1, e2, e3, e4, e5⟩ := C08_C25_accepted_replays P sort hsort f hf op inp hop hlate hold
  refine ⟨older, s, newer, e1, e2, e3, e4, fun b => ?_⟩
  rw [e5, applyBatch_iff]
  rfl

/-- The queued inputs `processQueues` uses: with rewinding on, those older than the oldest remembered state are
dropped (when there is a history). -/
def kept (f : Filter T V M K E) : List (FilterInput T V M K) :=
  if f.params.rewindHistory = true ∧ f.history ≠ [] then
    f.queued.filter fun i => decide (∀ s ∈ f.history.head?, s.timestamp ≤ i.timestamp)
  else f.queued

theorem pruneQueue_kept (f : Filter T V M K E) : f.pruneQueue f.queued = kept f := by
  unfold pruneQueue kept
  cases hr : f.params.rewindHistory with
  | false => simp
  | true =>
    cases hh : f.history with
    | nil => simp
    | cons a l =>
      simp only [ne_eq, reduceCtorEq, not_false_eq_true, and_self, if_true, List.head?_cons, Option.mem_def,
        Option.some.injEq, forall_eq']
      refine List.filter_congr fun i _ => ?_
      rw [Bool.eq_iff_iff, Bool.not_eq_true', lt_false_iff, decide_eq_true_iff]

/-- **C06, C25**: `processQueues` with rewinding off, any filter, any queued inputs: their effects in the sorted order. -/
theorem C06_C25_queue_effect_plain (P : Plant T V M K E) (sort) (f : Filter T V M K E)
    (hr : f.params.rewindHistory = false) (b : Est T V M E) :
    (∃ g, f.processQueues P sort = some g ∧ g.estimateOf = b) ↔ f.estimateOf.Effects P (sort f.queued) b := by
  have h1 : f.processQueues P sort = (applyBatchInputs P f (sort f.queued)).map
      (fun g => g.clearControlQueue.clearMeasurementQueue) := by
    have hp : ∀ q, f.pruneQueue q = q := by intro q; unfold pruneQueue; rw [hr]
    unfold processQueues
    dsimp only
    rw [hp, hp]
    simp only [hr, Bool.false_eq_true, if_false, List.map_nil, List.nil_append]
    unfold queued
    generalize applyBatchInputs P _ _ = r
    cases r <;> rfl
  rw [h1, ← applyBatch_iff]
  simp only [Option.map_eq_some_iff]
  constructor
  · rintro ⟨g, ⟨g', h, rfl⟩, rfl⟩; exact ⟨g', h, rfl⟩
  · rintro ⟨g', h, rfl⟩; exact ⟨_, ⟨g', h, rfl⟩, rfl⟩

/-- **C06, C25**: `processQueues` in rewind mode, any reachable filter whose queued inputs can be placed in time, late ones
included.  There is a remembered state `base` such that the result is exactly the effect, on the estimate of `base`, of
the inputs remembered after `base` together with the queued ones in time order.  Either nothing remembered is undone, or
`base` is strictly before all these inputs and every undone state is at or after some queued input. -/
theorem C06_C25_queue_effect_rewind (P : Plant T V M K E) (sort) (hsort : IsTimeSort sort) (f : Filter T V M K E)
    (hf : ReachRewind P sort f) (hq : f.QueuesPlaceable) :
    ∃ older base newer, f.retained = older ++ base :: newer ∧
      (∀ i ∈ newer.map FilterState.prevInput ++ kept f, base.timestamp ≤ i.timestamp) ∧
      (newer = [] ∨ (∃ i ∈ kept f, ∀ s ∈ newer, i.timestamp ≤ s.timestamp) ∧
        ∀ i ∈ newer.map FilterState.prevInput ++ kept f, base.timestamp < i.timestamp) ∧
      ∀ b, (∃ g, f.processQueues P sort = some g ∧ g.estimateOf = b) ↔
        (⟨base.x, base.covariance, base.timestamp, f.prevControl, f.prevControlCov, f.env⟩ : Est T V M E).Effects P
          (sort (newer.map FilterState.prevInput ++ kept f)) b := by
  obtain ⟨hinv, hp⟩ := hf.inv P sort hsort
  obtain ⟨older, base, newer, e1, e2, e3, e4⟩ := processQueues_form P sort f hp hinv hq
  rw [pruneQueue_kept] at e2 e3 e4
  refine ⟨older, base, newer, e1, e2, e3, fun b => ?_⟩
  have h2 := applyBatch_iff P ({ f with
        state := base
        history := older
        controlQueue := f.pruneQueue f.controlQueue
        measQueue := f.pruneQueue f.measQueue } : Filter T V M K E)
      (sort (newer.map FilterState.prevInput ++ kept f)) b
  rw [e4]
  refine Iff.trans ?_ h2
  simp only [Option.map_eq_some_iff]
  constructor
  · rintro ⟨g, ⟨g', h, rfl⟩, rfl⟩; exact ⟨g', h, rfl⟩
  · rintro ⟨g', h, rfl⟩; exact ⟨_, ⟨g', h, rfl⟩, rfl⟩

/-- **C25**, queues, seen from the history: unless the call discards the whole history, the inputs remembered after
`processQueues` are exactly those remembered before plus the queued ones, in time order, each once and unchanged; they start
from the same oldest state; and every remembered state is the effect of its input on the state before it. -/
theorem C25_inputs_after_queues (P : Plant T V M K E) (sort) (hsort : IsTimeSort sort) (f g : Filter T V M K E)
    (hf : ReachRewind P sort f) (hq : f.QueuesPlaceable) (hg : f.processQueues P sort = some g)
    (hkeep : g.history ≠ []) :
    g.inputs.Perm (f.inputs ++ kept f) ∧ g.inputs.Pairwise (fun a b => a.timestamp ≤ b.timestamp) ∧
      g.retained.head? = f.retained.head? ∧ g.retained.IsChain (ProducedBy P) := by
  obtain ⟨hinv, hp⟩ := hf.inv P sort hsort
  have hginv := (processQueues_inv P sort hsort f g hp hinv hq hg).1
  obtain ⟨older, base, newer, e1, e2, e3, e4⟩ := processQueues_form P sort f hp hinv hq
  rw [pruneQueue_kept] at e2 e3 e4
  rw [e4] at hg
  obtain ⟨g1, h1, h2⟩ := Option.map_eq_some_iff.mp hg
  obtain ⟨g', h3, rfl⟩ := applyBatchInputs_some P _ g1 _ h1
  have hr : ({ f with
        state := base
        history := older
        controlQueue := f.pruneQueue f.controlQueue
        measQueue := f.pruneQueue f.measQueue } : Filter T V M K E).params.rewindHistory = true := hp
  obtain ⟨ss, h4, h5⟩ := applyAll_full P _ g' _ hr h3
  have h4' : g'.retained = older ++ [base] ++ ss := h4
  have hinv' := applyAll_inv P _ g' _ hr (hinv.of_prefix P f _ (by
      show older ++ [base] <+: f.retained
      rw [e1]; exact ⟨newer, by simp⟩))
    ((hsort _).2.imp (fun hab => (lt_false_iff _ _).mp hab))
    (fun i hi => e2 i ((hsort _).1.mem_iff.mp hi)) h3
  have hgr : g.retained = g'.pruned.retained := by rw [← h2]; rfl
  have hgh : g.history = g'.pruned.history := by rw [← h2]; rfl
  have hpr : g'.pruned.retained = g'.retained := by
    rcases pruned_history_sorted g' (hinv'.1.history_le P _).1 with h6 | h6
    · unfold retained; rw [h6, pruned_state]
    · exact absurd (hgh.trans h6) hkeep
  have hret : g.retained = older ++ [base] ++ ss := by rw [hgr, hpr, h4']
  have hin : g.inputs = (older ++ [base]).tail.map FilterState.prevInput
      ++ sort (newer.map FilterState.prevInput ++ kept f) := by
    unfold inputs
    rw [hret, List.tail_append_of_ne_nil (by simp), List.map_append, h5]
  have hfin : f.inputs = (older ++ [base]).tail.map FilterState.prevInput ++ newer.map FilterState.prevInput := by
    unfold inputs
    rw [e1]
    have : older ++ base :: newer = (older ++ [base]) ++ newer := by simp
    rw [this, List.tail_append_of_ne_nil (by simp), List.map_append]
  refine ⟨?_, ?_, ?_, ?_⟩
  · rw [hin, hfin, List.append_assoc]
    exact List.Perm.append_left _ (hsort _).1
  · unfold inputs
    rw [List.pairwise_map]
    have hs : g.retained.tail.Pairwise (fun a b => a.timestamp ≤ b.timestamp) := by
      have h7 : g.retained.Pairwise (fun a b => a.timestamp ≤ b.timestamp) := hginv.sorted
      exact h7.sublist (List.tail_sublist _)
    refine hs.imp_of_mem ?_
    intro a b ha hb hab
    rw [hginv.stamped a ha, hginv.stamped b hb]; exact hab
  · rw [hret, e1]
    cases older <;> simp
  · exact hginv.chain.imp fun a b h => h.spec

/-- **C15**, queues: a remembered state before every queued input that is used, and not older than the window, is still
remembered after `processQueues`, unchanged. -/
theorem C15_queues_keep_window (P : Plant T V M K E) (sort) (hsort : IsTimeSort sort) (f g : Filter T V M K E)
    (hf : ReachRewind P sort f) (hq : f.QueuesPlaceable) (hg : f.processQueues P sort = some g)
    (s : FilterState T V M K) (hs : s ∈ f.retained) (hbefore : ∀ i ∈ kept f, s.timestamp < i.timestamp)
    (hwin : ¬ s.timestamp < TimeOps.sub g.getStateTime g.params.historyWindow) : s ∈ g.retained := by
  obtain ⟨hinv, hp⟩ := hf.inv P sort hsort
  obtain ⟨older, base, newer, e1, e2, e3, e4⟩ := processQueues_form P sort f hp hinv hq
  rw [pruneQueue_kept] at e2 e3 e4
  rw [e4] at hg
  obtain ⟨g1, h1, h2⟩ := Option.map_eq_some_iff.mp hg
  obtain ⟨g', h3, rfl⟩ := applyBatchInputs_some P _ g1 _ h1
  have hr : ({ f with
        state := base
        history := older
        controlQueue := f.pruneQueue f.controlQueue
        measQueue := f.pruneQueue f.measQueue } : Filter T V M K E).params.rewindHistory = true := hp
  obtain ⟨ss, h4, h5⟩ := applyAll_full P _ g' _ hr h3
  have h4' : g'.retained = older ++ [base] ++ ss := h4
  have hinv' := applyAll_inv P _ g' _ hr (hinv.of_prefix P f _ (by
      show older ++ [base] <+: f.retained
      rw [e1]; exact ⟨newer, by simp⟩))
    ((hsort _).2.imp (fun hab => (lt_false_iff _ _).mp hab))
    (fun i hi => e2 i ((hsort _).1.mem_iff.mp hi)) h3
  have hgr : g.retained = g'.pruned.retained := by rw [← h2]; rfl
  have hgt : g.getStateTime = g'.pruned.getStateTime := by rw [← h2]; rfl
  have hgp : g.params = g'.pruned.params := by rw [← h2]; rfl
  rw [hgr]
  rw [hgt, hgp] at hwin
  refine pruned_keeps g' (by rw [hinv'.2.2]; exact hp) (hinv'.1.history_le P _).1 s ?_ hwin
  rw [h4']
  apply List.mem_append_left
  rw [e1] at hs
  rcases List.mem_append.mp hs with h | h
  · exact List.mem_append_left _ h
  · rcases List.mem_cons.mp h with rfl | h
    · simp
    · rcases e3 with rfl | ⟨⟨i, hi, hle⟩, _⟩
      · simp at h
      · exact absurd (hbefore i hi) (not_lt.mpr (hle s h))

/-- the state at time 2 is before the queued inputs of times 3 and 4, and is still there afterwards -/
example : (toyRewind.run toy insSort [.predictControl [5] 2, .predictControl [7] 6, .enqueueMeasurement [1] 1 4 (some ()),
      .enqueueControl [3] 3, .processQueues]).map (fun g => (g.retained.map fun s => s.timestamp))
    = some [0, 2, 3, 4, 6] := by decide

/-- a late control and a late measurement in the queues, between two controls already applied: all four are remembered
afterwards, in time order -/
example : (toyRewind.run toy insSort [.predictControl [5] 2, .predictControl [7] 6, .enqueueMeasurement [1] 1 4 (some ()),
      .enqueueControl [3] 3, .processQueues]).map (fun g => (g.inputs.map fun i => (i.data, i.timestamp)))
    = some [([5], 2), ([3], 3), ([1], 4), ([7], 6)] := by decide

end ordered

/-- **C16**: what `initialize` sets, for every filter. -/
theorem C16_initialize_sets (f : Filter T V M K E) (x : V) (c : M) (t : T) [TimeOps T] :
    (f.init x c t).getState = x ∧ (f.init x c t).getCovariance = c ∧ (f.init x c t).getStateTime = t ∧
      (f.init x c t).params = f.params ∧ (f.init x c t).env = f.env := ⟨rfl, rfl, rfl, rfl, rfl⟩

end Props
end StateEstimation
