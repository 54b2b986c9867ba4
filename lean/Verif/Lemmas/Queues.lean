import Verif.Lemmas.Steps

/-! # `processQueues` under the rewind-mode invariant -/

set_option linter.unusedSectionVars false

namespace StateEstimation

variable {T V M K E : Type}

namespace Filter

section lawful
variable [LinearOrder T] [LawfulTime T]

theorem foldl_min_spec (l : List (FilterInput T V M K)) (b : Bound T) :
    (l.foldl (fun b i => Bound.min b i.timestamp) b = none ↔ b = none ∧ l = []) ∧
    (∀ t, l.foldl (fun b i => Bound.min b i.timestamp) b = some t →
      (b = some t ∨ ∃ i ∈ l, i.timestamp = t) ∧ (∀ s, b = some s → t ≤ s) ∧ ∀ i ∈ l, t ≤ i.timestamp) := by
  induction l generalizing b with
  | nil => simp; intro t h; exact ⟨h, fun s h2 => by rw [h] at h2; simp at h2; exact h2.le⟩
  | cons i l ih =>
    rw [List.foldl_cons]
    obtain ⟨h1, h2⟩ := ih (Bound.min b i.timestamp)
    have hm : ∃ m, Bound.min b i.timestamp = some m ∧ (b = some m ∨ i.timestamp = m) ∧ (∀ s, b = some s → m ≤ s) ∧
        m ≤ i.timestamp := by
      cases b with
      | none =>
        refine ⟨i.timestamp, ?_, Or.inr rfl, by simp, le_refl _⟩
        have : TimeOps.le i.timestamp i.timestamp = true := (LawfulTime.le_iff _ _).mpr (le_refl _)
        simp [Bound.min, this]
      | some s =>
        show ∃ m, (if TimeOps.lt i.timestamp s then some i.timestamp else some s) = some m ∧ _
        split
        · rename_i hlt
          rw [LawfulTime.lt_iff] at hlt
          exact ⟨_, rfl, Or.inr rfl, by simpa using hlt.le, le_refl _⟩
        · rename_i hlt
          rw [LawfulTime.lt_iff, not_lt] at hlt
          exact ⟨_, rfl, Or.inl rfl, by simp, hlt⟩
    obtain ⟨m, hm1, hm2, hm3, hm4⟩ := hm
    rw [hm1] at h1 h2 ⊢
    constructor
    · simp only [reduceCtorEq, false_and, iff_false] at h1
      simp [h1]
    · intro t ht
      obtain ⟨a, b', c⟩ := h2 t ht
      have htm : t ≤ m := b' m rfl
      refine ⟨?_, ?_, ?_⟩
      · rcases a with a | ⟨j, hj, a⟩
        · rw [Option.some.injEq] at a
          subst a
          rcases hm2 with h | h
          · left; exact h
          · right; exact ⟨i, by simp, h⟩
        · right; exact ⟨j, by simp [hj], a⟩
      · intro s hs; exact le_trans htm (hm3 s hs)
      · intro j hj
        rcases List.mem_cons.mp hj with rfl | hj
        · exact le_trans htm hm4
        · exact c j hj

theorem oldestQueued_none (cq mq : List (FilterInput T V M K)) (h : oldestQueued cq mq = none) :
    cq = [] ∧ mq = [] := by
  unfold oldestQueued at h
  rw [(foldl_min_spec mq _).1, (foldl_min_spec cq _).1] at h
  exact ⟨h.1.2, h.2⟩

theorem oldestQueued_some (cq mq : List (FilterInput T V M K)) (t : T) (h : oldestQueued cq mq = some t) :
    (∃ i ∈ cq ++ mq, i.timestamp = t) ∧ ∀ i ∈ cq ++ mq, t ≤ i.timestamp := by
  unfold oldestQueued at h
  obtain ⟨a, b, c⟩ := (foldl_min_spec mq _).2 t h
  constructor
  · rcases a with a | ⟨i, hi, a⟩
    · obtain ⟨a', _, _⟩ := (foldl_min_spec cq none).2 t a
      rcases a' with a' | ⟨i, hi, a'⟩
      · simp at a'
      · exact ⟨i, by simp [hi], a'⟩
    · exact ⟨i, by simp [hi], a⟩
  · intro i hi
    rcases List.mem_append.mp hi with hi | hi
    · cases hb : cq.foldl (fun b i => Bound.min b i.timestamp) (none : Bound T) with
      | none =>
        rw [(foldl_min_spec cq none).1] at hb
        rw [hb.2] at hi; simp at hi
      | some s =>
        exact le_trans (b s hb) (((foldl_min_spec cq none).2 s hb).2.2 i hi)
    · exact c i hi

theorem pruneQueue_sub (f : Filter T V M K E) (q) : ∀ i ∈ f.pruneQueue q, i ∈ q := by
  intro i hi
  unfold pruneQueue at hi
  split at hi
  · exact (List.mem_filter.mp hi).1
  · exact hi

end lawful

variable [LinearOrder T] [ExactTime T]

theorem pruneQueue_front (f : Filter T V M K E) (q) (hr : f.params.rewindHistory = true) (front rest)
    (hh : f.history = front :: rest) : ∀ i ∈ f.pruneQueue q, front.timestamp ≤ i.timestamp := by
  intro i hi
  unfold pruneQueue at hi
  rw [hr, hh] at hi
  simp only [List.mem_filter, Bool.not_eq_true'] at hi
  exact (lt_false_iff _ _).mp hi.2

theorem pruneQueue_append (f : Filter T V M K E) (q r) :
    f.pruneQueue (q ++ r) = f.pruneQueue q ++ f.pruneQueue r := by
  unfold pruneQueue
  split <;> simp

/-- after pruning, a placeable queue input is in order or has an older retained state -/
theorem placeable_pruned (f : Filter T V M K E) (hr : f.params.rewindHistory = true)
    (hq : f.QueuesPlaceable) (i) (hi : i ∈ f.pruneQueue f.controlQueue ++ f.pruneQueue f.measQueue) :
    f.state.timestamp ≤ i.timestamp ∨ ∃ s ∈ f.history, s.timestamp < i.timestamp := by
  rw [← pruneQueue_append] at hi
  have hm : i ∈ f.queued := pruneQueue_sub f _ i hi
  rcases hq i hm with h | ⟨s, hs, h⟩ | ⟨hne, h⟩
  · left; rwa [LawfulTime.le_iff] at h
  · right; exact ⟨s, hs, by rwa [LawfulTime.lt_iff] at h⟩
  · cases hh : f.history with
    | nil => exact absurd hh hne
    | cons front rest =>
      have h1 := pruneQueue_front f _ hr front rest hh i hi
      have h2 := h front (by rw [hh]; simp)
      rw [LawfulTime.lt_iff] at h2
      exact absurd h2 (not_lt.mpr h1)

/-- What `processQueues` does in rewind mode when everything can be placed: from some retained state `base`,
apply the later retained inputs and the queued ones in time order, all of them not older than `base`. -/
def QueueShape (P : Plant T V M K E) (sort : List (FilterInput T V M K) → List (FilterInput T V M K))
    (f g : Filter T V M K E) : Prop :=
  ∃ (older : List (FilterState T V M K)) (base : FilterState T V M K) (newer : List (FilterState T V M K))
    (g' : Filter T V M K E),
    f.retained = older ++ base :: newer ∧
    (∀ i ∈ newer.map FilterState.prevInput ++ f.pruneQueue f.controlQueue ++ f.pruneQueue f.measQueue,
      base.timestamp ≤ i.timestamp) ∧
    applyBatchInputs P
      { f with
        state := base
        history := older
        controlQueue := f.pruneQueue f.controlQueue
        measQueue := f.pruneQueue f.measQueue }
      (sort (newer.map FilterState.prevInput ++ f.pruneQueue f.controlQueue ++ f.pruneQueue f.measQueue))
        = some g' ∧
    g = g'.clearControlQueue.clearMeasurementQueue ∧
    (newer = [] ∨ (∀ s ∈ newer, s.prevInput.timestamp = s.timestamp ∧
        ∃ i ∈ f.pruneQueue f.controlQueue ++ f.pruneQueue f.measQueue, i.timestamp ≤ s.timestamp) ∧
      (∀ i ∈ newer.map FilterState.prevInput ++ f.pruneQueue f.controlQueue ++ f.pruneQueue f.measQueue,
        base.timestamp < i.timestamp))

theorem processQueues_shape (P : Plant T V M K E) (sort) (f g : Filter T V M K E)
    (hr : f.params.rewindHistory = true) (h : RewindInv P f) (hq : f.QueuesPlaceable)
    (hg : f.processQueues P sort = some g) : QueueShape P sort f g := by
  unfold processQueues at hg
  dsimp only at hg
  set cq := f.pruneQueue f.controlQueue with hcq
  set mq := f.pruneQueue f.measQueue with hmq
  rw [if_pos hr] at hg
  have hpl := placeable_pruned f hr hq
  rw [← hcq, ← hmq] at hpl
  -- the case without a rewind
  have noRewind : (∀ i ∈ cq ++ mq, f.state.timestamp ≤ i.timestamp) → ∀ r,
      ({ f with controlQueue := cq, measQueue := mq } : Filter T V M K E).rewindHistory (oldestQueued cq mq)
        = some ({ f with controlQueue := cq, measQueue := mq }, r, []) →
      QueueShape P sort f g := by
    intro hall r hrw
    rw [hrw] at hg
    dsimp only at hg
    split at hg
    · simp at hg
    · rename_i g' hg'
      rw [Option.some.injEq] at hg
      refine ⟨f.history, f.state, [], g', rfl, ?_, ?_, hg.symm, Or.inl rfl⟩
      · intro i hi
        exact hall i (by simpa using hi)
      · simpa using hg'
  cases ho : oldestQueued cq mq with
  | none =>
    obtain ⟨e1, e2⟩ := oldestQueued_none cq mq ho
    refine noRewind (by rw [e1, e2]; simp) true ?_
    rw [ho]
    exact rewindHistory_gt _ _ ((LawfulTime.le_iff _ _).mpr (le_refl _))
  | some t =>
    obtain ⟨⟨i0, hi0, ht0⟩, hmin⟩ := oldestQueued_some cq mq t ho
    rcases rewindHistory_cases ({ f with controlQueue := cq, measQueue := mq } : Filter T V M K E) (some t)
      with ⟨h1, h2⟩ | ⟨h1, h3, h2⟩ | ⟨h1, front, rest, hh, hb, _⟩
    · rw [gt_iff] at h1
      refine noRewind (fun i hi => le_trans h1.le (hmin i hi)) true ?_
      rw [ho]; exact h2
    · refine noRewind ?_ false (by rw [ho]; exact h2)
      intro i hi
      refine le_trans ?_ (hmin i hi)
      rcases hpl i0 hi0 with hp | ⟨s, hs, hp⟩
      · rw [← ht0]; exact hp
      · exfalso
        cases hh : f.history with
        | nil => rw [hh] at hs; simp at hs
        | cons front rest =>
          have h4 := h3 front (by simp [hh])
          rw [gt_false_iff] at h4
          have hso := (h.history_le P f).1
          rw [hh] at hs hso
          have : front.timestamp ≤ s.timestamp := by
            rcases List.mem_cons.mp hs with rfl | hs
            · exact le_refl _
            · exact (List.pairwise_cons.mp hso).1 s hs
          rw [ht0] at hp
          exact absurd hp (not_lt.mpr (le_trans h4 this))
    · rw [gt_iff] at hb
      rw [gt_false_iff] at h1
      have hinv' : RewindInv P ({ f with controlQueue := cq, measQueue := mq } : Filter T V M K E) :=
        h.congr P f _ rfl
      obtain ⟨older, s, newer, e1, e2, e3, e4, e5, e6, e7, e8⟩ :=
        rewindHistory_inv P _ hinv' t h1 front rest hh hb
      rw [ho, e5] at hg
      dsimp only at hg e1 e7 e4
      split at hg
      · simp at hg
      · rename_i g' hg'
        rw [Option.some.injEq] at hg
        have hlt : ∀ i ∈ (newer ++ [f.state]).map FilterState.prevInput ++ cq ++ mq, s.timestamp < i.timestamp := by
          intro i hi
          refine lt_of_lt_of_le e3 ?_
          rw [List.append_assoc] at hi
          rcases List.mem_append.mp hi with hi | hi
          · obtain ⟨b, hb', rfl⟩ := List.mem_map.mp hi
            rw [e7 b hb']
            rcases List.mem_append.mp hb' with hb' | hb'
            · exact e4 b hb'
            · rw [List.mem_singleton] at hb'; rw [hb']; exact h1
          · exact hmin i hi
        refine ⟨older, s, newer ++ [f.state], g', ?_, ?_, hg', hg.symm, Or.inr ⟨?_, hlt⟩⟩
        · unfold retained; rw [e1]; simp
        · intro i hi
          exact (hlt i hi).le
        · intro b hb'
          refine ⟨e7 b hb', i0, hi0, ?_⟩
          rw [ht0]
          rcases List.mem_append.mp hb' with hb' | hb'
          · exact e4 b hb'
          · rw [List.mem_singleton] at hb'; rw [hb']; exact h1

theorem processQueues_inv (P : Plant T V M K E) (sort) (hsort : IsTimeSort sort) (f g : Filter T V M K E)
    (hr : f.params.rewindHistory = true) (h : RewindInv P f) (hq : f.QueuesPlaceable)
    (hg : f.processQueues P sort = some g) : RewindInv P g ∧ g.params = f.params := by
  obtain ⟨older, base, newer, g', e1, e2, e3, rfl, _⟩ := processQueues_shape P sort f g hr h hq hg
  obtain ⟨a, _, c⟩ := applyBatchInputs_inv P _ g' _ (by exact hr) (h.of_prefix P f _ (by
      show older ++ [base] <+: f.retained
      rw [e1]; exact ⟨newer, by simp⟩))
    ((hsort _).2.imp (fun hab => (lt_false_iff _ _).mp hab))
    (fun i hi => e2 i ((hsort _).1.mem_iff.mp hi)) e3
  exact ⟨a.congr P _ _ rfl, c⟩

theorem _root_.StateEstimation.ReachRewind.inv (P : Plant T V M K E) (sort) (hsort : IsTimeSort sort)
    (f : Filter T V M K E) (h : ReachRewind P sort f) :
    RewindInv P f ∧ f.params.rewindHistory = true := by
  induction h with
  | start f0 x c t0 hr => exact ⟨RewindInv.of_empty P _ rfl, hr⟩
  | call f g op _ hop hs ih =>
    obtain ⟨a, b⟩ := step_inv P sort f g op hop ih.2 ih.1 hs
    exact ⟨a, by rw [b]; exact ih.2⟩
  | params f p _ hp ih => exact ⟨ih.1.congr P f _ rfl, hp⟩
  | queues f g _ hq hs ih =>
    obtain ⟨a, b⟩ := processQueues_inv P sort hsort f g ih.2 ih.1 hq hs
    exact ⟨a, by rw [b]; exact ih.2⟩

/-- runs of unqueued calls stay reachable -/
theorem _root_.StateEstimation.ReachRewind.run (P : Plant T V M K E) (sort) (f g : Filter T V M K E) (ops)
    (h : ReachRewind P sort f) (hop : ∀ op ∈ ops, op.IsUnqueued) (hs : f.run P sort ops = some g) :
    ReachRewind P sort g := by
  induction ops generalizing f with
  | nil => simp only [Filter.run, Option.some.injEq] at hs; subst hs; exact h
  | cons op ops ih =>
    obtain ⟨f', h1, h2⟩ := run_cons_some P sort f g op ops hs
    exact ih f' (.call f f' op h (hop op (by simp)) h1) (fun o ho => hop o (by simp [ho])) h2

/-- with rewinding on, `predict(u, t)` and `correct` insert their input -/
theorem step_asInput (P : Plant T V M K E) (sort) (f : Filter T V M K E) (op inp)
    (hr : f.params.rewindHistory = true) (h : op.asInput P f = some inp) :
    f.step P sort op = insertInput P f inp := by
  cases op with
  | predictControl u t =>
    simp only [Op.asInput, Option.some.injEq] at h; subst h
    simp only [step, predictControl, hr]; rfl
  | correct z R t m =>
    simp only [Op.asInput, Option.some.injEq] at h; subst h
    simp only [step, correct, hr]; rfl
  | _ => simp [Op.asInput] at h

end Filter
end StateEstimation
