import Verif.Lemmas.Invariants

/-! # One API call under the rewind-mode invariant -/

set_option linter.unusedSectionVars false

namespace StateEstimation

variable {T V M K E : Type}

theorem Op.IsDirect.unqueued (op : Op T V M K E) (h : op.IsDirect) : op.IsUnqueued := by
  cases op <;> trivial

namespace Filter

section raw
variable [TimeOps T]

theorem run_append (P : Plant T V M K E) (sort) (f : Filter T V M K E) (a b) :
    run P sort f (a ++ b) = (run P sort f a).bind (fun g => run P sort g b) := by
  induction a generalizing f with
  | nil => rfl
  | cons op a ih =>
    rw [List.cons_append, run, run]
    split
    · rfl
    · exact ih _

theorem run_cons_some (P : Plant T V M K E) (sort) (f g : Filter T V M K E) (op ops)
    (h : run P sort f (op :: ops) = some g) :
    ∃ f', f.step P sort op = some f' ∧ run P sort f' ops = some g := by
  rw [run] at h
  split at h
  · simp at h
  · rename_i f' hf'
    exact ⟨f', hf', h⟩

theorem rewindHistory_frame [SaneTime T] (f g : Filter T V M K E) (b r post)
    (h : f.rewindHistory b = some (g, r, post)) :
    g.params = f.params ∧ g.controlQueue = f.controlQueue ∧ g.measQueue = f.measQueue ∧
      g.prevControl = f.prevControl ∧ g.prevControlCov = f.prevControlCov ∧ g.env = f.env := by
  rcases rewindHistory_cases f b with ⟨_, h1⟩ | ⟨_, _, h1⟩ | ⟨_, _, _, _, _, h1⟩ <;>
  · rw [h1] at h
    simp only [Option.some.injEq, Prod.mk.injEq] at h
    obtain ⟨rfl, _, _⟩ := h
    simp

theorem insertInput_frame [SaneTime T] (P : Plant T V M K E) (f g : Filter T V M K E) (inp)
    (h : insertInput P f inp = some g) :
    g.params = f.params ∧ g.controlQueue = f.controlQueue ∧ g.measQueue = f.measQueue := by
  unfold insertInput at h
  split at h
  · split at h
    · simp at h
    · simp only [Option.some.injEq] at h; subst h; simp
    · rename_i g0 post h0
      obtain ⟨g', h1, rfl⟩ := applyBatchInputs_some P _ g _ h
      have a := applyAll_frame P _ g' _ h1
      have b := rewindHistory_frame f g0 _ _ _ h0
      simp [a.1, a.2.1, a.2.2, b.1, b.2.1, b.2.2]
  · obtain ⟨g', h1, rfl⟩ := applyBatchInputs_some P _ g _ h
    have a := applyAll_frame P _ g' _ h1
    simp [a.1, a.2.1, a.2.2]

theorem predictTime_some (P : Plant T V M K E) (f g : Filter T V M K E) (t)
    (h : f.predictTime P t = some g) :
    (TimeOps.lt f.state.timestamp t = false ∧ g = f) ∨
    (TimeOps.lt f.state.timestamp t = true ∧ ∃ g',
      applyInput P f ⟨P.emptyV, P.rc f.env, t, true, none⟩ = some g' ∧ g = g'.pruned) := by
  unfold predictTime at h
  split at h
  · rename_i h1
    right
    split at h
    · simp at h
    · rename_i g' h'
      rw [pruneHistory_pruned, Option.some.injEq] at h
      exact ⟨h1, g', h', h.symm⟩
  · rename_i h1
    left
    rw [Option.some.injEq] at h
    exact ⟨by simpa using h1, h.symm⟩

theorem predictControl_some (P : Plant T V M K E) (f g : Filter T V M K E) (u t)
    (h : f.predictControl P u t = some g) :
    (f.params.rewindHistory = false ∧ TimeOps.le f.state.timestamp t = false ∧ g = f) ∨
    (f.params.rewindHistory = false ∧ TimeOps.le f.state.timestamp t = true ∧ ∃ g',
      applyInput P f ⟨u, P.rc f.env, t, true, none⟩ = some g' ∧ g = g'.pruned) ∨
    (f.params.rewindHistory = true ∧ insertInput P f ⟨u, P.rc f.env, t, true, none⟩ = some g) := by
  unfold predictControl at h
  dsimp only at h
  cases hr : f.params.rewindHistory with
  | false =>
    simp only [hr, Bool.not_false, if_true] at h
    split at h
    · rename_i h1
      right; left
      split at h
      · simp at h
      · rename_i g' h'
        rw [pruneHistory_pruned, Option.some.injEq] at h
        exact ⟨rfl, h1, g', h', h.symm⟩
    · rename_i h1
      left
      rw [Option.some.injEq] at h
      exact ⟨rfl, by simpa using h1, h.symm⟩
  | true =>
    right; right
    simp only [hr, Bool.not_true, Bool.false_eq_true, if_false] at h
    exact ⟨rfl, h⟩

theorem correct_some (P : Plant T V M K E) (f g : Filter T V M K E) (z c t m)
    (h : f.correct P z c t m = some g) :
    (f.params.rewindHistory = false ∧ f.params.allowPast = false ∧
      TimeOps.le TimeOps.zero (TimeOps.sub t f.state.timestamp) = false ∧ g = f) ∨
    (f.params.rewindHistory = false ∧
      (f.params.allowPast = true ∨ TimeOps.le TimeOps.zero (TimeOps.sub t f.state.timestamp) = true) ∧ ∃ g',
      applyInput P f ⟨z, c, t, false, m⟩ = some g' ∧ g = g'.pruned) ∨
    (f.params.rewindHistory = true ∧ insertInput P f ⟨z, c, t, false, m⟩ = some g) := by
  unfold correct at h
  dsimp only at h
  cases hr : f.params.rewindHistory with
  | false =>
    simp only [hr, Bool.not_false, if_true] at h
    split at h
    · rename_i h1
      right; left
      split at h
      · simp at h
      · rename_i g' h'
        rw [pruneHistory_pruned, Option.some.injEq] at h
        exact ⟨rfl, by simpa using h1, g', h', h.symm⟩
    · rename_i h1
      left
      rw [Option.some.injEq] at h
      simp only [Bool.or_eq_true, not_or, Bool.not_eq_true] at h1
      exact ⟨rfl, h1.1, h1.2, h.symm⟩
  | true =>
    right; right
    simp only [hr, Bool.not_true, Bool.false_eq_true, if_false] at h
    exact ⟨rfl, h⟩

end raw

section exact
variable [LinearOrder T] [ExactTime T]

theorem applyInput_time (P : Plant T V M K E) (f g : Filter T V M K E) (inp)
    (h : applyInput P f inp = some g) :
    g.state.timestamp = if inp.isControl then inp.timestamp else max f.state.timestamp inp.timestamp := by
  obtain ⟨c, hc, rfl⟩ := applyInput_some P f g inp h
  exact Core.apply_ts P f.core c inp hc

/-- Invariant carried along any unqueued call: with rewinding on the full invariant, with rewinding off an
empty history or an untouched one. -/
theorem step_inv (P : Plant T V M K E) (sort) (f g : Filter T V M K E) (op)
    (hop : op.IsUnqueued) (hr : f.params.rewindHistory = true) (h : RewindInv P f)
    (hs : f.step P sort op = some g) : RewindInv P g ∧ g.params = f.params := by
  cases op with
  | init x c t =>
    simp only [step, Option.some.injEq] at hs; subst hs
    exact ⟨RewindInv.of_empty P _ rfl, rfl⟩
  | predictTime t =>
    rcases predictTime_some P f g t hs with ⟨_, rfl⟩ | ⟨h1, g', h2, rfl⟩
    · exact ⟨h, rfl⟩
    · rw [LawfulTime.lt_iff] at h1
      obtain ⟨a, _, b⟩ := applyInput_inv P f g' _ hr h (by exact h1.le) h2
      exact ⟨pruned_inv P g' a, by rw [pruned_params, b]⟩
  | predictControl u t =>
    rcases predictControl_some P f g u t hs with ⟨h1, _⟩ | ⟨h1, _⟩ | ⟨_, h2⟩
    · simp [hr] at h1
    · simp [hr] at h1
    · obtain ⟨a, b, _⟩ := insertInput_inv P f g _ hr h h2; exact ⟨a, b⟩
  | correct z c t m =>
    rcases correct_some P f g z c t m hs with ⟨h1, _⟩ | ⟨h1, _⟩ | ⟨_, h2⟩
    · simp [hr] at h1
    · simp [hr] at h1
    · obtain ⟨a, b, _⟩ := insertInput_inv P f g _ hr h h2; exact ⟨a, b⟩
  | enqueueControl u t =>
    simp only [step, Option.some.injEq] at hs; subst hs
    exact ⟨h.congr P f _ rfl, rfl⟩
  | enqueueMeasurement z c t m =>
    simp only [step, Option.some.injEq] at hs; subst hs
    exact ⟨h.congr P f _ rfl, rfl⟩
  | processQueues => exact absurd hop (by simp [Op.IsUnqueued])
  | clearControlQueue =>
    simp only [step, Option.some.injEq] at hs; subst hs
    exact ⟨h.congr P f _ rfl, rfl⟩
  | clearMeasurementQueue =>
    simp only [step, Option.some.injEq] at hs; subst hs
    exact ⟨h.congr P f _ rfl, rfl⟩
  | revertToState t =>
    simp only [step, revertToState] at hs
    rcases rewindHistory_cases f (some t) with ⟨h1, h2⟩ | ⟨h1, _, h2⟩ | ⟨h1, front, rest, hh, hb, h2⟩
    · rw [h2] at hs
      simp only [Option.map_some, Option.some.injEq] at hs; subst hs
      exact ⟨h.congr P f _ rfl, rfl⟩
    · rw [h2] at hs
      simp only [Option.map_some, Option.some.injEq] at hs; subst hs
      exact ⟨h, rfl⟩
    · rw [gt_iff] at hb
      rw [gt_false_iff] at h1
      obtain ⟨older, s, newer, e1, e2, e3, e4, e5, e6, e7, e8⟩ :=
        rewindHistory_inv P f h t h1 front rest hh hb
      rw [e5] at hs
      simp only [Option.map_some, Option.some.injEq] at hs; subst hs
      exact ⟨e6.congr P _ _ rfl, rfl⟩
  | setParams p => exact absurd hop (by simp [Op.IsUnqueued])
  | userModel u =>
    simp only [step, Option.map_eq_some_iff] at hs
    obtain ⟨e, _, rfl⟩ := hs
    exact ⟨h.congr P f _ rfl, rfl⟩

theorem step_params (P : Plant T V M K E) (sort) (f g : Filter T V M K E) (op)
    (hop : op.IsUnqueued) (hs : f.step P sort op = some g) : g.params = f.params := by
  cases op with
  | init x c t => simp only [step, Option.some.injEq] at hs; subst hs; rfl
  | predictTime t =>
    rcases predictTime_some P f g t hs with ⟨_, rfl⟩ | ⟨h1, g', h2, rfl⟩
    · rfl
    · rw [pruned_params, (applyInput_frame P f g' _ h2).1]
  | predictControl u t =>
    rcases predictControl_some P f g u t hs with ⟨_, _, rfl⟩ | ⟨_, _, g', h2, rfl⟩ | ⟨_, h2⟩
    · rfl
    · rw [pruned_params, (applyInput_frame P f g' _ h2).1]
    · exact (insertInput_frame P f g _ h2).1
  | correct z c t m =>
    rcases correct_some P f g z c t m hs with ⟨_, _, _, rfl⟩ | ⟨_, _, g', h2, rfl⟩ | ⟨_, h2⟩
    · rfl
    · rw [pruned_params, (applyInput_frame P f g' _ h2).1]
    · exact (insertInput_frame P f g _ h2).1
  | enqueueControl u t => simp only [step, Option.some.injEq] at hs; subst hs; rfl
  | enqueueMeasurement z c t m => simp only [step, Option.some.injEq] at hs; subst hs; rfl
  | processQueues => exact absurd hop (by simp [Op.IsUnqueued])
  | clearControlQueue => simp only [step, Option.some.injEq] at hs; subst hs; rfl
  | clearMeasurementQueue => simp only [step, Option.some.injEq] at hs; subst hs; rfl
  | revertToState t =>
    simp only [step, revertToState] at hs
    rcases rewindHistory_cases f (some t) with ⟨h1, h2⟩ | ⟨h1, _, h2⟩ | ⟨h1, front, rest, hh, hb, h2⟩ <;>
    · rw [h2] at hs
      simp only [Option.map_some, Option.some.injEq] at hs; subst hs
      rfl
  | setParams p => exact absurd hop (by simp [Op.IsUnqueued])
  | userModel u =>
    simp only [step, Option.map_eq_some_iff] at hs
    obtain ⟨e, _, rfl⟩ := hs
    rfl

theorem run_params (P : Plant T V M K E) (sort) (f g : Filter T V M K E) (ops)
    (hop : ∀ op ∈ ops, op.IsUnqueued) (hs : run P sort f ops = some g) : g.params = f.params := by
  induction ops generalizing f with
  | nil => simp only [run, Option.some.injEq] at hs; subst hs; rfl
  | cons op ops ih =>
    obtain ⟨f', h1, h2⟩ := run_cons_some P sort f g op ops hs
    rw [ih f' (fun o ho => hop o (by simp [ho])) h2, step_params P sort f f' op (hop op (by simp)) h1]

/-- The invariant holds after every sequence of unqueued calls that starts with an empty history. -/
theorem run_inv (P : Plant T V M K E) (sort) (f g : Filter T V M K E) (ops)
    (hop : ∀ op ∈ ops, op.IsUnqueued) (hr : f.params.rewindHistory = true) (h : RewindInv P f)
    (hs : run P sort f ops = some g) : RewindInv P g := by
  induction ops generalizing f with
  | nil => simp only [run, Option.some.injEq] at hs; subst hs; exact h
  | cons op ops ih =>
    obtain ⟨f', h1, h2⟩ := run_cons_some P sort f g op ops hs
    obtain ⟨a, b⟩ := step_inv P sort f f' op (hop op (by simp)) hr h h1
    exact ih f' (fun o ho => hop o (by simp [ho])) (by rw [b]; exact hr) a h2

end exact

end Filter
end StateEstimation
