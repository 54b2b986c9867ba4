import Verif.Lemmas.Effect
import Verif.Examples.Toy

/-! # C08, C11-C15, C25: rewinding, reverting and pruning the history -/

set_option linter.unusedSectionVars false

namespace StateEstimation
namespace Props

open Filter

variable {T V M K E : Type}

section ordered
variable [LinearOrder T] [ExactTime T]

/-- **C08**, refusal.  Rewind mode, any reachable filter, an input older than the state: if no retained state is
strictly older than the input, the call changes nothing at all. -/
theorem C08_refused_without_older_state (P : Plant T V M K E) (sort) (hsort : IsTimeSort sort)
    (f : Filter T V M K E) (hf : ReachRewind P sort f) (op : Op T V M K E) (inp : FilterInput T V M K)
    (hop : op.asInput P f = some inp) (hlate : inp.timestamp < f.getStateTime)
    (hno : ¬ ∃ s ∈ f.retained, s.timestamp < inp.timestamp) :
    f.step P sort op = some f := by
  obtain ⟨_, hp⟩ := hf.inv P sort hsort
  rw [step_asInput P sort f op inp hp hop]
  unfold insertInput
  rw [if_pos ((LawfulTime.lt_iff _ f.state.timestamp).mpr hlate)]
  rcases rewindHistory_cases f (some inp.timestamp) with ⟨h1, _⟩ | ⟨_, _, h3⟩ | ⟨_, front, rest, hh, hb, _⟩
  · rw [gt_iff] at h1; exact absurd hlate (not_lt.mpr h1.le)
  · rw [h3]
  · rw [gt_iff] at hb
    exact absurd ⟨front, by simp [retained, hh], hb⟩ hno

/-- **C08**, acceptance, and **C25**.  Rewind mode, any reachable filter, an input older than the state: if some
retained state is strictly older, the call restarts from the newest such state `s` and applies the late input,
followed by exactly the inputs stored with the states that came after `s` (the last one being the current state),
in their order and with their own data, covariance, time stamp and model. -/
theorem C08_C25_accepted_replays (P : Plant T V M K E) (sort) (hsort : IsTimeSort sort)
    (f : Filter T V M K E) (hf : ReachRewind P sort f) (op : Op T V M K E) (inp : FilterInput T V M K)
    (hop : op.asInput P f = some inp) (hlate : inp.timestamp < f.getStateTime)
    (hold : ∃ s ∈ f.retained, s.timestamp < inp.timestamp) :
    ∃ older s newer, f.retained = older ++ s :: newer ∧ newer ≠ [] ∧ s.timestamp < inp.timestamp ∧
      (∀ b ∈ newer, inp.timestamp ≤ b.timestamp) ∧
      f.step P sort op = applyBatchInputs P { f with state := s, history := older }
        (inp :: newer.map FilterState.prevInput) := by
  obtain ⟨hinv, hp⟩ := hf.inv P sort hsort
  rw [step_asInput P sort f op inp hp hop]
  unfold insertInput
  rw [if_pos ((LawfulTime.lt_iff _ f.state.timestamp).mpr hlate)]
  obtain ⟨s0, hs0, hlt⟩ := hold
  have hs0' : s0 ∈ f.history := by
    rcases List.mem_append.mp hs0 with h | h
    · exact h
    · rw [List.mem_singleton] at h; subst h; exact absurd hlt (not_lt.mpr hlate.le)
  obtain ⟨hsorted, _⟩ := hinv.history_le P f
  cases hh : f.history with
  | nil => rw [hh] at hs0'; simp at hs0'
  | cons front rest =>
    have hb : front.timestamp < inp.timestamp := by
      rw [hh] at hs0' hsorted
      rcases List.mem_cons.mp hs0' with rfl | h
      · exact hlt
      · exact lt_of_le_of_lt ((List.pairwise_cons.mp hsorted).1 s0 h) hlt
    obtain ⟨older, s, newer, e1, _, e3, e4, e5, _⟩ :=
      rewindHistory_inv P f hinv inp.timestamp hlate.le front rest hh hb
    refine ⟨older, s, newer ++ [f.state], ?_, by simp, e3, ?_, ?_⟩
    · unfold retained; rw [e1]; simp
    · intro b hb'
      rcases List.mem_append.mp hb' with h | h
      · exact e4 b h
      · rw [List.mem_singleton] at h; subst h; exact hlate.le
    · rw [e5]

/-- **C25**, seen from the history: unless the call discards the whole history, the inputs remembered afterwards are
the inputs remembered before, each once and unchanged, with the late one inserted between the inputs before its
time stamp and those at or after it; they start from the same oldest state; and every remembered state is the
result of applying its input to the state before it. -/
theorem C25_inputs_after_replay (P : Plant T V M K E) (sort) (hsort : IsTimeSort sort)
    (f g : Filter T V M K E) (hf : ReachRewind P sort f) (op : Op T V M K E) (inp : FilterInput T V M K)
    (hop : op.asInput P f = some inp) (hlate : inp.timestamp < f.getStateTime)
    (hold : ∃ s ∈ f.retained, s.timestamp < inp.timestamp)
    (hg : f.step P sort op = some g) (hkeep : g.history ≠ []) :
    (∃ before after, f.inputs = before ++ after ∧ g.inputs = before ++ inp :: after ∧
      (∀ i ∈ before, i.timestamp < inp.timestamp) ∧ (∀ i ∈ after, inp.timestamp ≤ i.timestamp)) ∧
    g.retained.head? = f.retained.head? ∧ g.retained.IsChain (ProducedBy P) := by
  obtain ⟨older, s, newer, e1, e2, e3, e4, e5⟩ :=
    C08_C25_accepted_replays P sort hsort f hf op inp hop hlate hold
  obtain ⟨hinv, hp⟩ := hf.inv P sort hsort
  have hreach : RewindInv P g := (step_inv P sort f g op (by
    cases op <;> trivial) hp hinv hg).1
  rw [e5] at hg
  obtain ⟨g', h1, rfl⟩ := applyBatchInputs_some P _ g _ hg
  have hr : ({ f with state := s, history := older } : Filter T V M K E).params.rewindHistory = true := hp
  obtain ⟨ss, h2, h3⟩ := applyAll_full P _ g' _ hr h1
  have h2' : g'.retained = older ++ [s] ++ ss := h2
  have hpr : g'.pruned.retained = g'.retained := by
    have h4 := pruned_history_prefix g'
    rcases eq_or_ne g'.pruned.history g'.history with h5 | h5
    · unfold retained; rw [h5, pruned_state]
    · exfalso
      have hsub : TimeSorted g'.history := by
        obtain ⟨a1, _, _⟩ := applyAll_inv P _ g' _ hr (hinv.of_prefix P f _ (by
            show older ++ [s] <+: f.retained
            rw [e1]; exact ⟨newer, by simp⟩)) (by
          rw [List.pairwise_cons]
          have hst : ∀ b ∈ newer, b.prevInput.timestamp = b.timestamp := by
            intro b hb
            refine hinv.stamped b ?_
            show b ∈ f.retained.tail
            rw [e1]
            cases older <;> simp [hb]
          constructor
          · intro i hi
            obtain ⟨b, hb, rfl⟩ := List.mem_map.mp hi
            rw [hst b hb]; exact e4 b hb
          · rw [List.pairwise_map]
            have := hinv.sorted
            change TimeSorted f.retained at this
            rw [e1] at this
            have := (List.pairwise_cons.mp (List.pairwise_append.mp this).2.1).2
            refine this.imp_of_mem ?_
            intro a b ha hb hab
            rw [hst a ha, hst b hb]; exact hab) (by
          intro i hi
          rcases List.mem_cons.mp hi with rfl | hi
          · exact e3.le
          · obtain ⟨b, hb, rfl⟩ := List.mem_map.mp hi
            have hst : b.prevInput.timestamp = b.timestamp := by
              refine hinv.stamped b ?_
              show b ∈ f.retained.tail
              rw [e1]
              cases older <;> simp [hb]
            rw [hst]; exact e3.le.trans (e4 b hb)) h1
        exact (a1.history_le P _).1
      rcases pruned_history_sorted g' hsub with h6 | h6
      · exact h5 h6
      · exact hkeep h6
  refine ⟨?_, ?_, hreach.chain.imp fun a b h => h.spec⟩
  · refine ⟨(older ++ [s]).tail.map FilterState.prevInput, newer.map FilterState.prevInput, ?_, ?_, ?_, ?_⟩
    · unfold inputs
      rw [e1, ← List.map_append, ← List.tail_append_of_ne_nil (by simp)]
      simp
    · unfold inputs
      rw [hpr, h2', List.tail_append_of_ne_nil (by simp), List.map_append, h3]
    · intro i hi
      obtain ⟨b, hb, rfl⟩ := List.mem_map.mp hi
      have hb' : b ∈ f.full.tail := by
        show b ∈ f.retained.tail
        rw [e1]
        have : older ++ s :: newer = (older ++ [s]) ++ newer := by simp
        rw [this, List.tail_append_of_ne_nil (by simp)]
        exact List.mem_append_left _ hb
      rw [hinv.stamped b hb']
      have hso : TimeSorted f.retained := hinv.sorted
      rw [e1] at hso
      rcases List.mem_append.mp (List.mem_of_mem_tail hb) with h | h
      · exact lt_of_le_of_lt ((List.pairwise_append.mp hso).2.2 b h s (by simp)) e3
      · rw [List.mem_singleton] at h; rw [h]; exact e3
    · intro i hi
      obtain ⟨b, hb, rfl⟩ := List.mem_map.mp hi
      have hst : b.prevInput.timestamp = b.timestamp := by
        refine hinv.stamped b ?_
        show b ∈ f.retained.tail
        rw [e1]
        cases older <;> simp [hb]
      rw [hst]; exact e4 b hb
  · rw [hpr, h2', e1]
    cases older <;> simp

/-- A reachable toy filter after three inputs; time 7. -/
def toyBusy : Filter ℤ (List ℤ) ℤ Unit ℤ :=
  ((toyRewind.init [0] 0 0).run toy insSort
    [.predictControl [5] 3, .correct [1] 1 5 (some ()), .predictControl [2] 7]).getD toyRewind

theorem toyBusy_reach : ReachRewind toy insSort toyBusy :=
  ReachRewind.run toy insSort _ _ [.predictControl [5] 3, .correct [1] 1 5 (some ()), .predictControl [2] 7]
    (.start toyRewind [0] 0 0 rfl) (by simp [Op.IsUnqueued]) rfl

/-- an input between the second and the third: accepted, changes the estimate, ends up in the middle -/
example : toyBusy.getStateTime = 7 ∧ (∃ s ∈ toyBusy.retained, s.timestamp < (6 : ℤ)) ∧
    ∃ g, toyBusy.step toy insSort (.correct [9] 1 6 (some ())) = some g ∧ g.history ≠ [] ∧
      g.getState ≠ toyBusy.getState ∧ g.inputs.map FilterInput.timestamp = [3, 5, 6, 7] := by
  refine ⟨by decide, by decide, _, rfl, by decide, by decide, by decide⟩

/-- inputs at or before the oldest retained state (time 0) are refused -/
example : (0 : ℤ) < toyBusy.getStateTime ∧ ¬ ∃ s ∈ toyBusy.retained, s.timestamp < (0 : ℤ) := by
  refine ⟨by decide, by decide⟩

/-- **C11**.  Any filter whose remembered states are in time order (all reachable ones are, next theorem): if
some remembered state, the current one included, is strictly before `t` then `revertToState(t)` returns true, the
remembered states become exactly those strictly before `t` (so the current one is the newest of them, as it was),
the queues are emptied and the remembered control, parameters and models stay.  Otherwise it returns false. -/
theorem C11_revert_contract (f : Filter T V M K E)
    (hs : f.retained.Pairwise (fun a b => a.timestamp ≤ b.timestamp)) (t : T) :
    ((∃ s ∈ f.retained, s.timestamp < t) →
      ∃ g, f.revertToState t = some (g, true) ∧
        g.retained = f.retained.filter (fun s => decide (s.timestamp < t)) ∧
        g.controlQueue = [] ∧ g.measQueue = [] ∧ g.prevControl = f.prevControl ∧
        g.prevControlCov = f.prevControlCov ∧ g.params = f.params ∧ g.env = f.env) ∧
    ((¬ ∃ s ∈ f.retained, s.timestamp < t) → f.revertToState t = some (f, false)) := by
  have hs' := List.pairwise_append.mp hs
  constructor
  · rintro ⟨s0, hs0, hlt⟩
    rcases lt_or_ge f.state.timestamp t with hst | hst
    · refine ⟨f.clearControlQueue.clearMeasurementQueue, ?_, ?_, rfl, rfl, rfl, rfl, rfl, rfl⟩
      · unfold revertToState
        rw [rewindHistory_gt f (some t) ((gt_iff _ _).mpr hst)]
      · symm
        show f.retained.filter _ = f.retained
        rw [List.filter_eq_self]
        intro a ha
        rw [decide_eq_true_eq]
        rcases List.mem_append.mp ha with h | h
        · exact lt_of_le_of_lt (hs'.2.2 a h f.state (by simp)) hst
        · rw [List.mem_singleton] at h; rw [h]; exact hst
    · have hs0' : s0 ∈ f.history := by
        rcases List.mem_append.mp hs0 with h | h
        · exact h
        · rw [List.mem_singleton] at h; subst h; exact absurd hlt (not_lt.mpr hst)
      cases hh : f.history with
      | nil => rw [hh] at hs0'; simp at hs0'
      | cons front rest =>
        have hb : front.timestamp < t := by
          have hsorted := hs'.1
          rw [hh] at hs0' hsorted
          rcases List.mem_cons.mp hs0' with rfl | h
          · exact hlt
          · exact lt_of_le_of_lt ((List.pairwise_cons.mp hsorted).1 s0 h) hlt
        obtain ⟨older, s, newer, e1, e2, e3, e4, e5⟩ := rewindHistory_sorted f hs'.1 t hst front rest hh hb
        refine ⟨({ f with state := s, history := older } : Filter T V M K E).clearControlQueue.clearMeasurementQueue,
          ?_, ?_, rfl, rfl, rfl, rfl, rfl, rfl⟩
        · unfold revertToState
          rw [e5]
        · show older ++ [s] = f.retained.filter _
          have : f.retained = (older ++ [s]) ++ (newer ++ [f.state]) := by unfold retained; rw [e1]; simp
          rw [this, List.filter_append]
          have h1 : (older ++ [s]).filter (fun s => decide (s.timestamp < t)) = older ++ [s] := by
            rw [List.filter_eq_self]
            intro a ha
            rw [decide_eq_true_eq]
            rcases List.mem_append.mp ha with h | h
            · exact e2 a h
            · rw [List.mem_singleton] at h; rw [h]; exact e3
          have h2 : (newer ++ [f.state]).filter (fun s => decide (s.timestamp < t)) = [] := by
            rw [List.filter_eq_nil_iff]
            intro a ha
            rw [decide_eq_true_eq, not_lt]
            rcases List.mem_append.mp ha with h | h
            · exact e4 a h
            · rw [List.mem_singleton] at h; rw [h]; exact hst
          rw [h1, h2, List.append_nil]
  · intro hno
    unfold revertToState
    rcases rewindHistory_cases f (some t) with ⟨h1, _⟩ | ⟨_, _, h3⟩ | ⟨_, front, rest, hh, hb, _⟩
    · rw [gt_iff] at h1
      exact absurd ⟨f.state, by simp [retained], h1⟩ hno
    · rw [h3]
    · rw [gt_iff] at hb
      exact absurd ⟨front, by simp [retained, hh], hb⟩ hno

/-- **C11**, the ordering hypothesis above holds in every reachable filter. -/
theorem C11_retained_sorted (P : Plant T V M K E) (sort) (hsort : IsTimeSort sort) (f : Filter T V M K E)
    (hf : ReachRewind P sort f) : f.retained.Pairwise (fun a b => a.timestamp ≤ b.timestamp) :=
  (hf.inv P sort hsort).1.sorted

/-- **C11**, round trip: reverting to the time of an input that came strictly after the state restores the whole
remembered history, hence state, covariance and time. -/
theorem C11_revert_undoes_input (P : Plant T V M K E) (sort) (hsort : IsTimeSort sort) (f g : Filter T V M K E)
    (hf : ReachRewind P sort f) (op : Op T V M K E) (inp : FilterInput T V M K)
    (hop : op.asInput P f = some inp) (ht : f.getStateTime < inp.timestamp)
    (hg : f.step P sort op = some g) (hkeep : g.history ≠ []) :
    ∃ h, g.revertToState inp.timestamp = some (h, true) ∧ h.retained = f.retained ∧
      h.getState = f.getState ∧ h.getCovariance = f.getCovariance ∧ h.getStateTime = f.getStateTime := by
  obtain ⟨hinv, hp⟩ := hf.inv P sort hsort
  have hreach : ReachRewind P sort g := .call f g op hf (by
    cases op <;> trivial) hg
  obtain ⟨hginv, _⟩ := hreach.inv P sort hsort
  rw [step_asInput P sort f op inp hp hop] at hg
  unfold insertInput at hg
  rw [if_neg (by rw [LawfulTime.lt_iff, not_lt]; exact ht.le)] at hg
  obtain ⟨g', h1, rfl⟩ := applyBatchInputs_some P f g _ hg
  simp only [applyAll] at h1
  split at h1
  · simp at h1
  · rename_i g2 h2
    simp only [Option.some.injEq] at h1
    subst h1
    obtain ⟨ia, ib, _⟩ := applyInput_inv P f g2 inp hp hinv ht.le h2
    have hfull := applyInput_full P f g2 inp hp h2
    have hret : g2.pruned.retained = f.retained ++ [g2.state] := by
      rcases pruned_history_sorted g2 (ia.history_le P g2).1 with h5 | h5
      · unfold retained; rw [h5, pruned_state]; exact hfull
      · exact absurd h5 hkeep
    have hsorted : TimeSorted f.retained := hinv.sorted
    have hlt : ∀ s ∈ f.retained, s.timestamp < inp.timestamp := by
      intro s hs
      refine lt_of_le_of_lt ?_ ht
      rcases List.mem_append.mp hs with h | h
      · exact (hinv.history_le P f).2 s h
      · rw [List.mem_singleton] at h; rw [h]; exact le_refl _
    obtain ⟨h, e1, e2, _⟩ := (C11_revert_contract g2.pruned hginv.sorted inp.timestamp).1
      ⟨f.state, by rw [hret]; simp [retained], ht⟩
    have hr : h.retained = f.retained := by
      rw [e2, hret, List.filter_append]
      have a1 : f.retained.filter (fun s => decide (s.timestamp < inp.timestamp)) = f.retained := by
        rw [List.filter_eq_self]; intro a ha; rw [decide_eq_true_eq]; exact hlt a ha
      rw [a1]
      simp [ib]
    have hst : h.state = f.state := by
      have := congrArg List.getLast? hr
      simpa [retained] using this
    exact ⟨h, e1, hr, by simp [getState, hst], by simp [getCovariance, hst], by simp [getStateTime, hst]⟩

/-- reverting goes back two inputs here, and fails for time 0 -/
example : ∃ g, toyBusy.revertToState 5 = some (g, true) ∧ g.getStateTime = 3 ∧ g.getState = [15] ∧
    toyBusy.getState ≠ [15] ∧ toyBusy.revertToState 0 = some (toyBusy, false) := by
  refine ⟨_, rfl, by decide, by decide, by decide, by decide⟩

/-- The round trip does not extend to the control in use: after an input and its revert, the filter predicts with
the control that was reverted. -/
theorem C11_refuted_control_not_reverted :
    estimate (toyRewind.run toy insSort [.predictControl [5] 3, .revertToState 3, .predictTime 2])
      ≠ estimate (toyRewind.run toy insSort [.predictTime 2]) := by decide

/-- **C12**, failure, any filter, even with NaN time stamps. -/
theorem C12_failed_revert_noop {T : Type} [TimeOps T] [SaneTime T] (f g : Filter T V M K E) (t : T)
    (h : f.revertToState t = some (g, false)) : g = f := by
  unfold revertToState at h
  rcases rewindHistory_cases f (some t) with ⟨_, h2⟩ | ⟨_, _, h2⟩ | ⟨_, front, rest, hh, hb, h2⟩ <;> rw [h2] at h <;>
    simp at h
  exact h.symm

/-- **C12**, idempotence, any filter with time-ordered remembered states. -/
theorem C12_revert_idempotent (f g : Filter T V M K E)
    (hs : f.retained.Pairwise (fun a b => a.timestamp ≤ b.timestamp)) (t : T)
    (h : f.revertToState t = some (g, true)) : g.revertToState t = some (g, true) := by
  by_cases hold : ∃ s ∈ f.retained, s.timestamp < t
  · obtain ⟨g', e1, e2, e3, e4, _⟩ := (C11_revert_contract f hs t).1 hold
    rw [e1, Option.some.injEq, Prod.mk.injEq] at h
    obtain ⟨rfl, _⟩ := h
    have hlt : g'.state.timestamp < t := by
      have : g'.state ∈ g'.retained := by simp [retained]
      rw [e2, List.mem_filter, decide_eq_true_eq] at this
      exact this.2
    unfold revertToState
    rw [rewindHistory_gt g' (some t) ((gt_iff _ _).mpr hlt)]
    simp only [Option.some.injEq, Prod.mk.injEq, and_true]
    cases g'
    simp only at e3 e4
    subst e3 e4
    rfl
  · rw [(C11_revert_contract f hs t).2 hold] at h
    simp at h

example : ∃ g, (toyBusy.enqueueControl toy [1] 9).revertToState 5 = some (g, true) ∧ g.controlQueue = [] ∧
    g.getStateTime = 3 := by
  refine ⟨_, rfl, by decide, by decide⟩

end ordered

/-- **C13**.  For every filter, with any history in any order, any window and any time stamps (`SaneTime` is true
of IEEE doubles including NaN and infinities): the rewind loop, the prune loop and the revert never access anything
out of range (abnormal termination is `none` in the model). -/
theorem C13_history_loops_safe [TimeOps T] [SaneTime T] (f : Filter T V M K E) (t : Bound T) :
    (f.rewindHistory t).isSome ∧ f.pruneHistory.isSome ∧ ∀ s, (f.revertToState s).isSome := by
  refine ⟨rewindHistory_isSome f t, by rw [pruneHistory_pruned]; rfl, ?_⟩
  intro s
  unfold revertToState
  rcases rewindHistory_cases f (some s) with ⟨_, h2⟩ | ⟨_, _, h2⟩ | ⟨_, _, _, _, _, h2⟩ <;> rw [h2] <;> rfl

/-- the loop really pops: a rewind over an unordered history -/
example : (({ toyBusy with history := toyBusy.history.reverse } : Filter ℤ (List ℤ) ℤ Unit ℤ).rewindHistory
    (some 6)).isSome = true := by decide

section ordered
variable [LinearOrder T] [ExactTime T]

/-- pruning an ordered history keeps what is inside the window -/
theorem pruned_keeps (g' : Filter T V M K E) (hp' : g'.params.rewindHistory = true) (hso : TimeSorted g'.history)
    (s : FilterState T V M K) (hs' : s ∈ g'.retained)
    (hwin : ¬ s.timestamp < TimeOps.sub g'.pruned.getStateTime g'.pruned.params.historyWindow) :
    s ∈ g'.pruned.retained := by
  rcases pruned_history_sorted g' hso with h | h
  · unfold retained; rw [h, pruned_state]; exact hs'
  · have hpr := h
    unfold pruned at h
    rw [if_pos hp', rdropWhile_sorted g'.history hso] at h
    dsimp only at h
    unfold retained at hs' ⊢
    rw [hpr, pruned_state]
    split at h
    · rename_i hall
      rcases List.mem_append.mp hs' with hm | hm
      · exfalso
        apply hwin
        have hst : g'.pruned.getStateTime = g'.state.timestamp := by simp [getStateTime]
        rw [hst, pruned_params]
        have hne : g'.history ≠ [] := List.ne_nil_of_mem hm
        have hl := hall (g'.history.getLast hne) (List.getLast?_eq_some_getLast hne)
        refine lt_of_le_of_lt ?_ hl
        rw [← List.dropLast_append_getLast hne] at hso hm
        rcases List.mem_append.mp hm with hm | hm
        · exact (List.pairwise_append.mp hso).2.2 s hm _ (by simp)
        · rw [List.mem_singleton] at hm; rw [hm]
      · simpa using hm
    · rw [h] at hs'; exact hs'

/-- **C15**.  Rewind mode, any reachable filter, any `predict(t)`, `predict(u,t)` or `correct`: a remembered state
that the call does not rewind past (it is before the input, or the input is in order) and that is not older than
the window is still remembered afterwards, unchanged. -/
theorem C15_pruning_keeps_window (P : Plant T V M K E) (sort) (hsort : IsTimeSort sort)
    (f g : Filter T V M K E) (hf : ReachRewind P sort f) (op : Op T V M K E) (t : T)
    (hop : op = .predictTime t ∨ ∃ inp, op.asInput P f = some inp ∧ inp.timestamp = t)
    (hg : f.step P sort op = some g)
    (s : FilterState T V M K) (hs : s ∈ f.retained) (hbefore : s.timestamp < t ∨ f.getStateTime ≤ t)
    (hwin : ¬ s.timestamp < TimeOps.sub g.getStateTime g.params.historyWindow) : s ∈ g.retained := by
  obtain ⟨hinv, hp⟩ := hf.inv P sort hsort
  have hprune : ∀ g' : Filter T V M K E, g'.params.rewindHistory = true → TimeSorted g'.history → g = g'.pruned →
      s ∈ g'.retained → s ∈ g.retained := by
    rintro g' hp' hso rfl hs'
    exact pruned_keeps g' hp' hso s hs' hwin
  have hins : ∀ inp : FilterInput T V M K, inp.timestamp = t → f.state.timestamp ≤ t → ∀ g',
      applyInput P f inp = some g' → g = g'.pruned → s ∈ g.retained := by
    intro inp hi hle g' h1 h2
    obtain ⟨ia, _, ic⟩ := applyInput_inv P f g' inp hp hinv (by rw [hi]; exact hle) h1
    refine hprune g' (by rw [ic]; exact hp) (ia.history_le P g').1 h2 ?_
    rw [show g'.retained = f.retained ++ [g'.state] from applyInput_full P f g' inp hp h1]
    exact List.mem_append_left _ hs
  rcases hop with rfl | ⟨inp, hop, hi⟩
  · rcases predictTime_some P f g t hg with ⟨_, rfl⟩ | ⟨h1, g', h2, h3⟩
    · exact hs
    · rw [LawfulTime.lt_iff] at h1
      exact hins _ rfl h1.le g' h2 h3
  · rw [step_asInput P sort f op inp hp hop] at hg
    rcases lt_or_ge inp.timestamp f.state.timestamp with hlate | hle
    · have hslt : s.timestamp < inp.timestamp := by
        rcases hbefore with h | h
        · rw [hi]; exact h
        · exact absurd h (not_le.mpr (hi ▸ hlate))
      obtain ⟨older, b, newer, e1, e2, e3, e4, e5⟩ :=
        C08_C25_accepted_replays P sort hsort f hf op inp hop hlate ⟨s, hs, hslt⟩
      rw [← step_asInput P sort f op inp hp hop, e5] at hg
      obtain ⟨g', h1, h2⟩ := applyBatchInputs_some P _ g _ hg
      have hr : ({ f with state := b, history := older } : Filter T V M K E).params.rewindHistory = true := hp
      obtain ⟨ss, h3, _⟩ := applyAll_full P _ g' _ hr h1
      have hst : ∀ b ∈ newer, b.prevInput.timestamp = b.timestamp := by
        intro b hb
        refine hinv.stamped b ?_
        show b ∈ f.retained.tail
        rw [e1]
        cases older <;> simp [hb]
      have hsub : RewindInv P g' ∧ g'.params = f.params := by
        obtain ⟨a1, _, a3⟩ := applyAll_inv P _ g' _ hr (hinv.of_prefix P f _ (by
            show older ++ [b] <+: f.retained
            rw [e1]; exact ⟨newer, by simp⟩)) (by
          rw [List.pairwise_cons]
          constructor
          · intro i hi
            obtain ⟨b, hb, rfl⟩ := List.mem_map.mp hi
            rw [hst b hb]; exact e4 b hb
          · rw [List.pairwise_map]
            have := hinv.sorted
            change TimeSorted f.retained at this
            rw [e1] at this
            have := (List.pairwise_cons.mp (List.pairwise_append.mp this).2.1).2
            refine this.imp_of_mem ?_
            intro a b ha hb hab
            rw [hst a ha, hst b hb]; exact hab) (by
          intro i hi
          rcases List.mem_cons.mp hi with rfl | hi
          · exact e3.le
          · obtain ⟨b, hb, rfl⟩ := List.mem_map.mp hi
            rw [hst b hb]; exact e3.le.trans (e4 b hb)) h1
        exact ⟨a1, a3⟩
      refine hprune g' (by rw [hsub.2]; exact hp) (hsub.1.history_le P g').1 h2 ?_
      rw [show g'.retained = (older ++ [b]) ++ ss from h3]
      apply List.mem_append_left
      rw [e1] at hs
      rcases List.mem_append.mp hs with h | h
      · exact List.mem_append_left _ h
      · rcases List.mem_cons.mp h with rfl | h
        · simp
        · exact absurd hslt (not_lt.mpr (e4 s h))
    · unfold insertInput at hg
      rw [if_neg (by rw [LawfulTime.lt_iff, not_lt]; exact hle)] at hg
      obtain ⟨g', h1, h2⟩ := applyBatchInputs_some P f g _ hg
      simp only [applyAll] at h1
      split at h1
      · simp at h1
      · rename_i g2 h3
        simp only [Option.some.injEq] at h1
        subst h1
        exact hins inp hi (hi ▸ hle) g2 h3 h2

/-- with window 3, at time 9 the state at time 7 is kept and the earlier ones as well -/
example : ∃ f g, ReachRewind toy insSort f ∧ f.step toy insSort (.predictControl [1] 9) = some g ∧
    f.params.historyWindow = 3 ∧ (∃ s ∈ f.retained, s.timestamp = (7 : ℤ)) ∧
    ¬ (7 : ℤ) < TimeOps.sub g.getStateTime g.params.historyWindow :=
  ⟨_, _, .params toyBusy ⟨true, 3, false⟩ toyBusy_reach rfl, rfl, rfl, by decide, by decide⟩

/-- after pruning, the newest entry is inside the window -/
theorem pruned_newest (P : Plant T V M K E) (g' : Filter T V M K E) (hgi : RewindInv P g')
    (hp' : g'.params.rewindHistory = true) :
    ∀ s ∈ g'.pruned.history.getLast?,
      ¬ s.timestamp < TimeOps.sub g'.pruned.getStateTime g'.pruned.params.historyWindow := by
  have hst : g'.pruned.getStateTime = g'.state.timestamp := by simp [getStateTime]
  rw [hst, pruned_params]
  intro s hs
  unfold pruned at hs
  rw [if_pos hp', rdropWhile_sorted g'.history (hgi.history_le P g').1] at hs
  dsimp only at hs
  split at hs
  · simp at hs
  · rename_i hn
    push Not at hn
    obtain ⟨s', hs', hc⟩ := hn
    rw [Option.mem_def] at hs hs'
    rw [hs, Option.some.injEq] at hs'
    subst hs'
    exact not_lt.mpr hc

/-- **C14** holds only in this form: after an accepted in-order input (or a `predict(t)`) in rewind mode either the history
is empty or its *newest* entry is inside the window.  Missing from the full claim: nothing is said about the older
entries, and indeed they are all kept (`C14_refuted`, `C14_history_grows_without_bound`). -/
theorem C14_newest_in_window_partial (P : Plant T V M K E) (sort) (hsort : IsTimeSort sort)
    (f g : Filter T V M K E) (hf : ReachRewind P sort f) (op : Op T V M K E)
    (hop : (∃ t, op = .predictTime t ∧ f.getStateTime < t) ∨
      ∃ inp, op.asInput P f = some inp ∧ f.getStateTime ≤ inp.timestamp) (hg : f.step P sort op = some g) :
    ∀ s ∈ g.history.getLast?, ¬ s.timestamp < TimeOps.sub g.getStateTime g.params.historyWindow := by
  obtain ⟨hinv, hp⟩ := hf.inv P sort hsort
  rcases hop with ⟨t, rfl, ht⟩ | ⟨inp, hop, ht⟩
  · rcases predictTime_some P f g t hg with ⟨h1, _⟩ | ⟨h1, g', h2, rfl⟩
    · rw [lt_false_iff] at h1
      exact absurd ht (not_lt.mpr h1)
    · obtain ⟨a, _, hpp⟩ := applyInput_inv P f g' _ hp hinv (by exact ht.le) h2
      exact pruned_newest P g' a (by rw [hpp]; exact hp)
  · rw [step_asInput P sort f op inp hp hop] at hg
    unfold insertInput at hg
    rw [if_neg (by rw [LawfulTime.lt_iff, not_lt]; exact ht)] at hg
    obtain ⟨g', h1, rfl⟩ := applyBatchInputs_some P f g _ hg
    obtain ⟨hgi, _, hpp⟩ := applyAll_inv P f g' _ hp hinv (by simp)
      (by intro i hi; rw [List.mem_singleton] at hi; rw [hi]; exact ht) h1
    exact pruned_newest P g' hgi (by rw [hpp]; exact hp)

/-- **C14 is false**: window 3, inputs at times 2, 4, 6, 8: at time 8 the state of time 0 is still remembered. -/
theorem C14_refuted :
    ∃ g, (({ toyRewind with params := ⟨true, 3, false⟩ } : Filter ℤ (List ℤ) ℤ Unit ℤ).run toy insSort
        [.predictControl [1] 2, .predictControl [1] 4, .predictControl [1] 6, .predictControl [1] 8]) = some g ∧
      g.params.historyWindow = 3 ∧ g.getStateTime = 8 ∧ ∃ s ∈ g.history, s.timestamp = 0 := by
  refine ⟨_, rfl, by decide, by decide, by decide⟩

/-- The history grows by one entry per in-order input for as long as successive inputs are at most one window apart:
memory use is not bounded by the window. -/
theorem C14_history_grows_without_bound (P : Plant T V M K E) (sort) (hsort : IsTimeSort sort)
    (f g : Filter T V M K E) (hf : ReachRewind P sort f) (op : Op T V M K E) (inp : FilterInput T V M K)
    (hop : op.asInput P f = some inp) (ht : f.getStateTime ≤ inp.timestamp)
    (hwin : ¬ f.getStateTime < TimeOps.sub inp.timestamp f.params.historyWindow)
    (hg : f.step P sort op = some g) : g.history = f.history ++ [f.state] := by
  obtain ⟨hinv, hp⟩ := hf.inv P sort hsort
  rw [step_asInput P sort f op inp hp hop] at hg
  unfold insertInput at hg
  rw [if_neg (by rw [LawfulTime.lt_iff, not_lt]; exact ht)] at hg
  obtain ⟨g', h1, rfl⟩ := applyBatchInputs_some P f g _ hg
  simp only [applyAll] at h1
  split at h1
  · simp at h1
  · rename_i g2 h3
    simp only [Option.some.injEq] at h1
    subst h1
    obtain ⟨ia, ib, ic⟩ := applyInput_inv P f g2 inp hp hinv ht h3
    have hh : g2.history = f.history ++ [f.state] := by
      rw [(applyInput_frame P f g2 inp h3).2.2.2.1, pushed, if_pos hp]
    unfold pruned
    rw [if_pos (by rw [ic]; exact hp)]
    dsimp only
    rw [rdropWhile_sorted g2.history (ia.history_le P g2).1, hh, if_neg, ]
    intro hall
    have := hall f.state (by simp)
    rw [ib, ic] at this
    exact hwin this

/-- One entry per second for ever: `n` controls one second apart, window 3 s, leave `n` states in the history. -/
theorem C14_unbounded_memory (n : ℕ) :
    ∃ g, ReachRewind toy insSort g ∧ g.params.historyWindow = 3 ∧ g.getStateTime = (n : ℤ) ∧
      g.history.length = n := by
  induction n with
  | zero =>
    exact ⟨_, .start { toyRewind with params := ⟨true, 3, false⟩ } [0] 0 0 rfl, rfl, rfl, rfl⟩
  | succ n ih =>
    obtain ⟨g, hg, hw, ht, hl⟩ := ih
    have hp := (hg.inv toy insSort insSort_isTimeSort).2
    have htotal : ∃ g', g.step toy insSort (.predictControl [1] (n + 1)) = some g' := by
      have hlt : TimeOps.lt ((n : ℤ) + 1) g.state.timestamp = false := by
        rw [lt_false_iff]; have : g.state.timestamp = (n : ℤ) := ht; omega
      rw [step_asInput toy insSort g _ _ hp rfl]
      simp only [insertInput, controlInput, hlt, Bool.false_eq_true, if_false, applyBatchInputs_eq, applyAll,
        applyInput_eq]
      simp [Core.apply, Core.control, toy, core]
    obtain ⟨g', hg'⟩ := htotal
    have hle : g.getStateTime ≤ (n : ℤ) + 1 := by rw [ht]; omega
    have h1 := C14_history_grows_without_bound toy insSort insSort_isTimeSort g g' hg
      (.predictControl [1] (n + 1)) _ rfl hle (by
      rw [hw, ht]; simp [controlInput, TimeOps.sub]) hg'
    have hpar : g'.params = g.params := (step_inv toy insSort g g' (.predictControl [1] (n + 1)) trivial hp
      (hg.inv toy insSort insSort_isTimeSort).1 hg').2
    refine ⟨g', .call g g' (.predictControl [1] (n + 1)) hg trivial hg', by rw [hpar]; exact hw, ?_,
      by rw [h1]; simp [hl]⟩
    have hins := insertInput_inv toy g g' _ hp (hg.inv toy insSort insSort_isTimeSort).1
      (by rw [← step_asInput toy insSort g (.predictControl [1] (n + 1)) _ hp rfl]; exact hg')
    rcases hins.2.2 with ⟨_, h⟩ | h
    · exact absurd h (not_lt.mpr hle)
    · show g'.state.timestamp = _
      rw [h]; simp only [controlInput]; push_cast; exact max_eq_right hle

end ordered

end Props
end StateEstimation
