import Verif.Props.Clock
import Verif.Props.Effects
import Verif.Props.Queues
import Verif.Props.Rewind
import Verif.Props.Init
import Verif.Props.Semantics
import Verif.Props.Switching

/-!
# Theorems about the filter base, applied

Each theorem applied to a busy filter with every hypothesis discharged: the hypotheses can be met together, by filters that have
a history, queued inputs and late data.  `toyBusy` (Props/Rewind) is the integrator of Examples/Toy after a control, a measurement and a
late control: its states are at 0, 3, 5, 7.
-/

namespace StateEstimation.Witness

open Props Filter

/-- a filter with queued inputs, late and new -/
private def queuedOps : List (Op ℤ (List ℤ) ℤ Unit ℤ) :=
  [.predictControl [5] 3, .correct [1] 1 5 (some ()), .enqueueControl [4] 9, .enqueueMeasurement [6] 2 4 (some ()),
    .enqueueControl [7] 1]

private def toyQueued : Filter ℤ (List ℤ) ℤ Unit ℤ := (toyRewind.run toy insSort queuedOps).getD toyRewind

private theorem toyQueued_reach : ReachRewind toy insSort toyQueued :=
  ReachRewind.run toy insSort _ _ queuedOps (.start toyRewind [0] 0 0 rfl) (by simp [Op.IsUnqueued, queuedOps]) rfl

private theorem toyQueued_placeable : toyQueued.QueuesPlaceable := by unfold QueuesPlaceable; decide

/-- the same with inputs in the future only -/
private def futureOps : List (Op ℤ (List ℤ) ℤ Unit ℤ) :=
  [.predictControl [5] 3, .correct [1] 1 5 (some ()), .enqueueControl [4] 9, .enqueueMeasurement [6] 2 8 (some ()),
    .enqueueControl [7] 6]

private def toyFuture : Filter ℤ (List ℤ) ℤ Unit ℤ := (toyRewind.run toy insSort futureOps).getD toyRewind

private theorem toyFuture_reach : ReachRewind toy insSort toyFuture :=
  ReachRewind.run toy insSort _ _ futureOps (.start toyRewind [0] 0 0 rfl) (by simp [Op.IsUnqueued, futureOps]) rfl

private def toyFuturePlain : Filter ℤ (List ℤ) ℤ Unit ℤ := (toyPlain.run toy insSort futureOps).getD toyPlain

/-- a filter with rewinding off that has been used -/
private def toyUsed : Filter ℤ (List ℤ) ℤ Unit ℤ :=
  (({ toyPlain with params := ⟨false, 100, true⟩ } : Filter ℤ (List ℤ) ℤ Unit ℤ).run toy insSort
    [.predictControl [5] 3, .correct [1] 1 5 (some ())]).getD toyPlain

example : (toyBusy.retained.map FilterState.timestamp, toyBusy.inputs.length) = ([0, 3, 5, 7], 3) := by decide
example : (toyQueued.retained.map FilterState.timestamp, toyQueued.queued.map FilterInput.timestamp) = ([0, 3, 5], [9, 1, 4]) := by decide
example : toyUsed.getStateTime = 5 := by decide

/-! ## Clock -/

example := C01_predict_nonfuture_unobservable toy insSort toyBusy 6 (by decide) [.correct [9] 1 6 (some ()), .predictTime 9]
example := C02_past_measurement_ignored toy { toyUsed with params := ⟨false, 100, false⟩ } [1] 1 4 (some ()) (by decide) (by decide) (by decide)
example : (toyUsed.correct toy [1] 1 4 (some ())).map getStateTime = some 5 := by
  have h : toyUsed.correct toy [1] 1 4 (some ()) ≠ some toyUsed := by decide
  obtain ⟨g, hg⟩ : ∃ g, toyUsed.correct toy [1] 1 4 (some ()) = some g := ⟨_, rfl⟩
  rw [hg, Option.map_some, C03_allowed_past_keeps_clock toy toyUsed g [1] 1 4 (some ()) (by decide) (by decide) hg]
  decide
example {g} (hg : toyBusy.step toy insSort (.correct [9] 1 6 (some ())) = some g) : g.getStateTime = 7 :=
  C03_late_input_keeps_clock toy insSort insSort_isTimeSort toyBusy g toyBusy_reach _ _ rfl (by decide) hg
example {g} (hg : toyBusy.step toy insSort (.correct [9] 1 6 (some ())) = some g) :=
  C04_time_never_decreases toy insSort insSort_isTimeSort toyBusy g (fun _ => toyBusy_reach) (.correct [9] 1 6 (some ())) trivial hg

/-! ## Effects -/

example (b) := C03_C20_predict_time_effect toy toyBusy 9 (by decide) b
example (b) := C03_C18_C20_predict_control_effect toyStationary toyBusy [2] 9 (by decide) b
example (b) := C03_C18_correct_effect toyStationary toyBusy [2] 1 9 () (by decide) b
example (b) := C03_allowed_past_effect toy toyUsed [1] 1 4 () (by decide) (by decide) (by decide) b
example (b) := C06_C25_queue_effect_plain toy insSort toyFuturePlain (by decide) b
example := C06_C25_queue_effect_rewind toy insSort insSort_isTimeSort toyQueued toyQueued_reach toyQueued_placeable
example := C25_late_input_effect toy insSort insSort_isTimeSort toyBusy toyBusy_reach (.correct [9] 1 6 (some ())) _ rfl (by decide) (by decide)
example : ∃ g, toyQueued.processQueues toy insSort = some g ∧ g.inputs.Perm (toyQueued.inputs ++ Props.kept toyQueued) := by
  obtain ⟨g, hg⟩ : ∃ g, toyQueued.processQueues toy insSort = some g := ⟨_, rfl⟩
  refine ⟨g, hg, (C25_inputs_after_queues toy insSort insSort_isTimeSort toyQueued g toyQueued_reach toyQueued_placeable hg ?_).1⟩
  have : (toyQueued.processQueues toy insSort).map (fun g => g.history.isEmpty) = some false := by decide
  rw [hg] at this
  simpa [List.isEmpty_iff] using this
example : ∃ g, toyQueued.processQueues toy insSort = some g ∧ ∀ s ∈ toyQueued.retained, s.timestamp < 1 → s ∈ g.retained := by
  obtain ⟨g, hg⟩ : ∃ g, toyQueued.processQueues toy insSort = some g := ⟨_, rfl⟩
  refine ⟨g, hg, fun s hs ht => C15_queues_keep_window toy insSort insSort_isTimeSort toyQueued g toyQueued_reach toyQueued_placeable hg s hs
    ?_ ?_⟩
  · intro i hi
    have : ∀ i ∈ Props.kept toyQueued, (1 : ℤ) ≤ i.timestamp := by decide
    exact lt_of_lt_of_le ht (this i hi)
  · have h1 : (toyQueued.processQueues toy insSort).map (fun g => TimeOps.sub g.getStateTime g.params.historyWindow) = some (-91) := by decide
    have h2 : ∀ s ∈ toyQueued.retained, (0 : ℤ) ≤ s.timestamp := by decide
    rw [hg] at h1
    have h1' : TimeOps.sub g.getStateTime g.params.historyWindow = -91 := Option.some.inj h1
    rw [h1']
    have := h2 s hs
    omega

/-! ## Queues -/

example {g} (hg : toyQueued.step toy insSort (.predictControl [1] 8) = some g) : g.measQueue.length = 1 := by
  rw [(C05_direct_calls_keep_queues toy insSort toyQueued g (.predictControl [1] 8) trivial hg).2]; decide
example := C06_processQueues_is_direct toy toy_rcStable insSort insSort_isTimeSort toyFuture (fun _ => toyFuture_reach) 1
  (by unfold UsesRc; decide) (by decide) (by decide) (fun _ => by decide)
example := C06_processQueues_is_direct toy toy_rcStable insSort insSort_isTimeSort toyFuturePlain (fun h => absurd h (by decide)) 1
  (by unfold UsesRc; decide) (by decide) (by decide) (fun h => absurd h (by decide))
example {g} (hg : toyQueued.processQueues toy insSort = some g) :=
  C22_rewind_partial toy insSort insSort_isTimeSort toyQueued g toyQueued_reach toyQueued_placeable hg
example {g} (hg : toyFuturePlain.processQueues toy insSort = some g) :=
  C22_plain_partial toy insSort insSort_isTimeSort toyFuturePlain g (by decide) (by decide) hg
example := C23_no_ties_partial toy insSort (fun l => insSort l.reverse) insSort_isTimeSort
  (fun l => ⟨(insSort_isTimeSort _).1.trans l.reverse_perm, (insSort_isTimeSort _).2⟩) toyQueued (by decide)

/-! ## Rewinding, reverting, pruning -/

example : toyBusy.step toy insSort (.correct [9] 1 (-2) (some ())) = some toyBusy :=
  C08_refused_without_older_state toy insSort insSort_isTimeSort toyBusy toyBusy_reach (.correct [9] 1 (-2) (some ())) _ rfl (by decide) (by decide)
example := C11_retained_sorted toy insSort insSort_isTimeSort toyBusy toyBusy_reach
example : ∃ g, toyBusy.step toy insSort (.predictControl [9] 8) = some g ∧ ∃ h, g.revertToState 8 = some (h, true) ∧
    h.getState = toyBusy.getState := by
  obtain ⟨g, hg⟩ : ∃ g, toyBusy.step toy insSort (.predictControl [9] 8) = some g := ⟨_, rfl⟩
  have hk : g.history ≠ [] := by
    have : (toyBusy.step toy insSort (.predictControl [9] 8)).map (fun g => g.history.isEmpty) = some false := by decide
    rw [hg] at this
    simpa [List.isEmpty_iff] using this
  obtain ⟨h, h1, -, h2, -⟩ := C11_revert_undoes_input toy insSort insSort_isTimeSort toyBusy g toyBusy_reach (.predictControl [9] 8) _ rfl
    (by decide) hg hk
  exact ⟨g, hg, h, h1, h2⟩
example : toyBusy.revertToState 0 = some (toyBusy, false) := by
  obtain ⟨g, hg⟩ : ∃ g, toyBusy.revertToState 0 = some (g, false) := ⟨_, rfl⟩
  rw [hg, C12_failed_revert_noop toyBusy g 0 hg]
example : ∃ g, toyBusy.revertToState 5 = some (g, true) ∧ g.revertToState 5 = some (g, true) ∧ g.getStateTime = 3 := by
  obtain ⟨g, hg⟩ : ∃ g, toyBusy.revertToState 5 = some (g, true) := ⟨_, rfl⟩
  refine ⟨g, hg, C12_revert_idempotent toyBusy g (C11_retained_sorted toy insSort insSort_isTimeSort toyBusy toyBusy_reach) 5 hg, ?_⟩
  have : (toyBusy.revertToState 5).map (fun p => p.1.getStateTime) = some 3 := by decide
  rw [hg] at this
  exact Option.some.inj this
example {g} (hg : toyBusy.step toy insSort (.predictTime 9) = some g) :=
  C14_newest_in_window_partial toy insSort insSort_isTimeSort toyBusy g toyBusy_reach (.predictTime 9) (Or.inl ⟨9, rfl, by decide⟩) hg
example {g} (hg : toyBusy.step toy insSort (.correct [9] 1 6 (some ())) = some g) (s) (hs : s ∈ toyBusy.retained) (h6 : s.timestamp < 6)
    (hw : ¬ s.timestamp < TimeOps.sub g.getStateTime g.params.historyWindow) : s ∈ g.retained :=
  C15_pruning_keeps_window toy insSort insSort_isTimeSort toyBusy g toyBusy_reach (.correct [9] 1 6 (some ())) 6
    (Or.inr ⟨_, rfl, rfl⟩) hg s hs (Or.inl h6) hw
example : ∃ g, toyBusy.step toy insSort (.correct [9] 1 6 (some ())) = some g ∧ g.retained.head? = toyBusy.retained.head? := by
  obtain ⟨g, hg⟩ : ∃ g, toyBusy.step toy insSort (.correct [9] 1 6 (some ())) = some g := ⟨_, rfl⟩
  refine ⟨g, hg, (C25_inputs_after_replay toy insSort insSort_isTimeSort toyBusy g toyBusy_reach (.correct [9] 1 6 (some ())) _ rfl
    (by decide) (by decide) hg ?_).2.1⟩
  have : (toyBusy.step toy insSort (.correct [9] 1 6 (some ()))).map (fun g => g.history.isEmpty) = some false := by decide
  rw [hg] at this
  simpa [List.isEmpty_iff] using this

/-! ## Initialisation, controls -/

example := C16_initialize_fresh_partial toy (fun _ hv => List.eq_nil_of_length_eq_zero hv) toyMeasured (by decide) [3] 2 1
example {g} (hg : toyPlain.run toy insSort [.predictControl [5] 3, .predictControl [9] 1, .correct [1] 1 7 (some ()), .enqueueControl [6] 8,
       .processQueues, .predictControl [] 9] = some g) : Remembers toy g (some ([6], 1)) :=
  C20_latest_control_remembered toy insSort rfl _ (by simp) toyPlain g rfl none (C20_construct_remembers_none toy rfl _ _ _ _ _) hg

end StateEstimation.Witness
