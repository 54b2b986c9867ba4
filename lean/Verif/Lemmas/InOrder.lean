import Verif.Lemmas.Queues

/-! # In-order calls reduce to one `applyInput` -/

set_option linter.unusedSectionVars false

namespace StateEstimation

variable {T V M K E : Type}

namespace Filter

section lawful
variable [LinearOrder T] [LawfulTime T]

theorem applyBatch_single {T : Type} [TimeOps T] (P : Plant T V M K E) (f : Filter T V M K E) (inp) :
    applyBatchInputs P f [inp] = (applyInput P f inp).map pruned := by
  rw [applyBatchInputs_eq]
  simp only [applyAll]
  cases applyInput P f inp <;> rfl

theorem predictTime_future (P : Plant T V M K E) (f : Filter T V M K E) (t : T)
    (ht : f.getStateTime < t) :
    f.predictTime P t = (applyInput P f ⟨P.emptyV, P.rc f.env, t, true, none⟩).map pruned := by
  unfold predictTime
  rw [if_pos ((LawfulTime.lt_iff f.state.timestamp t).mpr ht)]
  cases applyInput P f ⟨P.emptyV, P.rc f.env, t, true, none⟩ with
  | none => rfl
  | some g => simp [pruneHistory_pruned]

theorem predictControl_inorder (P : Plant T V M K E) (f : Filter T V M K E) (u : V) (t : T)
    (ht : f.getStateTime ≤ t) :
    f.predictControl P u t = (applyInput P f (controlInput P f u t)).map pruned := by
  have hle : TimeOps.le f.state.timestamp t = true := (LawfulTime.le_iff _ _).mpr ht
  have hlt : TimeOps.lt t f.state.timestamp = false := (lt_false_iff _ _).mpr ht
  unfold predictControl controlInput
  cases hr : f.params.rewindHistory with
  | false =>
    simp only [Bool.not_false, if_true, hle]
    cases applyInput P f ⟨u, P.rc f.env, t, true, none⟩ with
    | none => rfl
    | some g => simp [pruneHistory_pruned]
  | true =>
    simp only [Bool.not_true, Bool.false_eq_true, if_false, insertInput, hlt, applyBatch_single]

theorem correct_inorder (P : Plant T V M K E) (f : Filter T V M K E) (z : V) (R : M) (t : T) (m : Option K)
    (ht : f.getStateTime ≤ t) :
    f.correct P z R t m = (applyInput P f (measurementInput z R t m)).map pruned := by
  have hle : TimeOps.le TimeOps.zero (TimeOps.sub t f.state.timestamp) = true :=
    (LawfulTime.le_iff _ _).mpr ((LawfulTime.sub_nonneg_iff _ _).mpr ht)
  have hlt : TimeOps.lt t f.state.timestamp = false := (lt_false_iff _ _).mpr ht
  unfold correct measurementInput
  cases hr : f.params.rewindHistory with
  | false =>
    simp only [Bool.not_false, if_true, hle, Bool.or_true]
    cases applyInput P f ⟨z, R, t, false, m⟩ with
    | none => rfl
    | some g => simp [pruneHistory_pruned]
  | true =>
    simp only [Bool.not_true, Bool.false_eq_true, if_false, insertInput, hlt, applyBatch_single]

/-- estimate after one applied input -/
theorem applyInput_core {T : Type} [TimeOps T] (P : Plant T V M K E) (f : Filter T V M K E) (inp) :
    ((applyInput P f inp).map pruned).map core = Core.apply P f.core inp := by
  rw [applyInput_eq]
  cases Core.apply P f.core inp with
  | none => rfl
  | some c => simp; rfl

end lawful

section exact
variable [LinearOrder T] [ExactTime T]

/-- Processing queues whose inputs are all in order (strictly later in rewind mode) is one batch. -/
theorem processQueues_future (P : Plant T V M K E)
    (sort) (f : Filter T V M K E)
    (hist : f.params.rewindHistory = true → ∀ s ∈ f.history, s.timestamp ≤ f.state.timestamp)
    (ht : ∀ i ∈ f.queued, f.state.timestamp ≤ i.timestamp)
    (hrew : f.params.rewindHistory = true → ∀ i ∈ f.queued, f.state.timestamp < i.timestamp) :
    f.processQueues P sort
      = (applyAll P f (sort f.queued)).map (fun g => g.pruned.clearControlQueue.clearMeasurementQueue) := by
  have hpq : ∀ q : List (FilterInput T V M K), (∀ i ∈ q, i ∈ f.queued) → f.pruneQueue q = q := by
    intro q hq
    unfold pruneQueue
    split
    · rename_i front rest hr hh
      rw [List.filter_eq_self]
      intro i hi
      rw [Bool.not_eq_true', lt_false_iff]
      refine le_trans ?_ (ht i (hq i hi))
      exact hist hr front (by rw [hh]; simp)
    · rfl
  unfold processQueues
  dsimp only
  rw [hpq f.controlQueue (fun i hi => List.mem_append_left _ hi),
    hpq f.measQueue (fun i hi => List.mem_append_right _ hi)]
  have hfin : ∀ o : Option (Filter T V M K E), (match o.map pruned with
      | none => none
      | some g => some g.clearControlQueue.clearMeasurementQueue)
      = o.map (fun g => g.pruned.clearControlQueue.clearMeasurementQueue) := by
    intro o; cases o <;> rfl
  cases hr : f.params.rewindHistory with
  | false =>
    simp only [Bool.false_eq_true, if_false, List.map_nil, List.nil_append, applyBatchInputs_eq]
    exact hfin (applyAll P f (sort f.queued))
  | true =>
    simp only [if_true]
    rw [rewindHistory_gt]
    · simp only [List.map_nil, List.nil_append, applyBatchInputs_eq]
      exact hfin (applyAll P f (sort f.queued))
    · show Bound.gt (oldestQueued f.controlQueue f.measQueue) f.state.timestamp = true
      cases ho : oldestQueued f.controlQueue f.measQueue with
      | none => exact (LawfulTime.le_iff _ _).mpr (le_refl _)
      | some t =>
        obtain ⟨⟨i, hi, rfl⟩, _⟩ := oldestQueued_some _ _ t ho
        rw [gt_iff]; exact hrew hr i hi

end exact

end Filter
end StateEstimation
