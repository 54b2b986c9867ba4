import Verif.Lemmas.InOrder
import Verif.Examples.Toy

/-! # C21: rewind mode changes nothing for in-order data -/

set_option linter.unusedSectionVars false

namespace StateEstimation
namespace Props

open Filter

variable {T V M K E : Type}
variable [LinearOrder T] [ExactTime T]

/-- same estimate and queues, histories not ahead of the state -/
structure ModeSim (f g : Filter T V M K E) : Prop where
  core : f.core = g.core
  cq : f.controlQueue = g.controlQueue
  mq : f.measQueue = g.measQueue
  histf : ∀ s ∈ f.history, s.timestamp ≤ f.state.timestamp
  histg : ∀ s ∈ g.history, s.timestamp ≤ g.state.timestamp

theorem applyInput_hist (P : Plant T V M K E) (f f' : Filter T V M K E) (i)
    (h : ∀ s ∈ f.history, s.timestamp ≤ f.state.timestamp) (ht : f.state.timestamp ≤ i.timestamp)
    (ha : applyInput P f i = some f') :
    (∀ s ∈ f'.history, s.timestamp ≤ f'.state.timestamp) ∧ f'.state.timestamp = i.timestamp := by
  have htime : f'.state.timestamp = i.timestamp := by
    rw [applyInput_time P f f' i ha]
    split
    · rfl
    · exact max_eq_right ht
  refine ⟨?_, htime⟩
  rw [(applyInput_frame P f f' i ha).2.2.2.1, htime]
  unfold pushed
  intro s hs
  split at hs
  · rcases List.mem_append.mp hs with h' | h'
    · exact (h s h').trans ht
    · rw [List.mem_singleton] at h'; rw [h']; exact ht
  · exact (h s hs).trans ht

theorem applyAll_hist (P : Plant T V M K E) (is) (f f' : Filter T V M K E)
    (h : ∀ s ∈ f.history, s.timestamp ≤ f.state.timestamp)
    (hs : is.Pairwise (fun a b => a.timestamp ≤ b.timestamp)) (ht : ∀ i ∈ is, f.state.timestamp ≤ i.timestamp)
    (ha : applyAll P f is = some f') : ∀ s ∈ f'.history, s.timestamp ≤ f'.state.timestamp := by
  induction is generalizing f with
  | nil => simp only [applyAll, Option.some.injEq] at ha; subst ha; exact h
  | cons i is ih =>
    rw [applyAll] at ha
    split at ha
    · simp at ha
    · rename_i f1 h1
      obtain ⟨a, b⟩ := applyInput_hist P f f1 i h (ht i (by simp)) h1
      have hs' := List.pairwise_cons.mp hs
      exact ih f1 a hs'.2 (by intro j hj; rw [b]; exact hs'.1 j hj) ha

theorem pruned_hist (f : Filter T V M K E) (h : ∀ s ∈ f.history, s.timestamp ≤ f.state.timestamp) :
    ∀ s ∈ f.pruned.history, s.timestamp ≤ f.pruned.state.timestamp := by
  intro s hs
  rw [pruned_state]
  exact h s ((pruned_history_prefix f).subset hs)

/-- both fail, or both succeed in related filters -/
def BothOr {α β : Type} (R : α → β → Prop) : Option α → Option β → Prop
  | none, none => True
  | some a, some b => R a b
  | _, _ => False

theorem ModeSim.applyInput (P : Plant T V M K E) (f g : Filter T V M K E) (h : ModeSim f g) (i)
    (ht : f.state.timestamp ≤ i.timestamp) :
    BothOr ModeSim ((applyInput P f i).map pruned) ((Filter.applyInput P g i).map pruned) := by
  have htg : g.state.timestamp ≤ i.timestamp := by
    have : f.core.ts = g.core.ts := by rw [h.core]
    have e : g.state.timestamp = f.state.timestamp := this.symm
    rw [e]; exact ht
  cases hf : Filter.applyInput P f i with
  | none =>
    have : Filter.applyInput P g i = none := by
      rw [applyInput_eq, ← h.core]
      rw [applyInput_eq] at hf
      rw [Option.map_eq_none_iff] at hf ⊢; exact hf
    rw [this]; trivial
  | some f' =>
    obtain ⟨c, hc, rfl⟩ := applyInput_some P f f' i hf
    have hg : Filter.applyInput P g i = some { g.withCore c i with history := g.pushed } := by
      rw [applyInput_eq, ← h.core, hc]; rfl
    rw [hg]
    show ModeSim _ _
    refine ⟨?_, ?_, ?_, pruned_hist _ (applyInput_hist P f _ i h.histf ht hf).1,
      pruned_hist _ (applyInput_hist P g _ i h.histg htg hg).1⟩
    · rw [pruned_core, pruned_core]; rfl
    · rw [pruned_cq, pruned_cq]; exact h.cq
    · rw [pruned_mq, pruned_mq]; exact h.mq

theorem ModeSim.step (P : Plant T V M K E) (sort) (hsort : IsTimeSort sort) (f g : Filter T V M K E) (h : ModeSim f g)
    (op : Op T V M K E) (hop : f.InOrder op) : BothOr ModeSim (f.step P sort op) (g.step P sort op) := by
  have hts : g.state.timestamp = f.state.timestamp := by
    have : f.core.ts = g.core.ts := by rw [h.core]
    exact this.symm
  have henv : f.env = g.env := by
    have : f.core.env = g.core.env := by rw [h.core]
    exact this
  cases op with
  | init x c t =>
    refine ⟨?_, rfl, rfl, by simp [Filter.init, clear], by simp [Filter.init, clear]⟩
    have hc := h.core
    simp only [Filter.core, Core.mk.injEq] at hc
    simp [Filter.core, Filter.init, clear, hc.2.2.2.1, hc.2.2.2.2.1, hc.2.2.2.2.2]
  | predictTime t =>
    rcases lt_or_ge f.getStateTime t with ht | ht
    · have htg : g.getStateTime < t := by show g.state.timestamp < t; rw [hts]; exact ht
      simp only [Filter.step]
      rw [predictTime_future P f t ht, predictTime_future P g t htg, ← henv]
      exact h.applyInput P f g _ (le_of_lt ht)
    · have : ∀ k : Filter T V M K E, k.state.timestamp = f.state.timestamp → k.predictTime P t = some k := by
        intro k hk
        unfold predictTime
        rw [if_neg (by rw [LawfulTime.lt_iff, not_lt, hk]; exact ht)]
      simp only [Filter.step]
      rw [this f rfl, this g hts]; exact h
  | predictControl u t =>
    have ht : f.getStateTime ≤ t := (LawfulTime.le_iff _ _).mp hop
    have htg : g.getStateTime ≤ t := by show g.state.timestamp ≤ t; rw [hts]; exact ht
    simp only [Filter.step]
    rw [predictControl_inorder P f u t ht, predictControl_inorder P g u t htg]
    unfold controlInput
    rw [← henv]
    exact h.applyInput P f g _ ht
  | correct z R t m =>
    have ht : f.getStateTime ≤ t := (LawfulTime.le_iff _ _).mp hop
    have htg : g.getStateTime ≤ t := by show g.state.timestamp ≤ t; rw [hts]; exact ht
    simp only [Filter.step]
    rw [correct_inorder P f z R t m ht, correct_inorder P g z R t m htg]
    exact h.applyInput P f g _ ht
  | enqueueControl u t =>
    refine ⟨h.core, ?_, h.mq, h.histf, h.histg⟩
    simp [enqueueControl, h.cq, henv]
  | enqueueMeasurement z R t m =>
    refine ⟨h.core, h.cq, ?_, h.histf, h.histg⟩
    simp [enqueueMeasurement, h.mq]
  | processQueues =>
    have hq : g.queued = f.queued := by simp [queued, h.cq, h.mq]
    have hlt : ∀ i ∈ f.queued, f.state.timestamp < i.timestamp :=
      fun i hi => (LawfulTime.lt_iff _ _).mp (hop i hi)
    have hle := fun i hi => (hlt i hi).le
    simp only [Filter.step]
    rw [processQueues_future P sort f (fun _ => h.histf) hle (fun _ => hlt),
      processQueues_future P sort g (fun _ => h.histg) (by rw [hq, hts]; exact hle)
        (by rw [hq, hts]; exact fun _ => hlt), hq]
    have hc1 := applyAll_core P f (sort f.queued)
    have hc2 := applyAll_core P g (sort f.queued)
    rw [h.core] at hc1
    have hss := (hsort f.queued).2.imp (fun hab => (lt_false_iff _ _).mp hab)
    cases hf : applyAll P f (sort f.queued) with
    | none =>
      rw [hf] at hc1
      have : applyAll P g (sort f.queued) = none := by
        rw [← Option.map_eq_none_iff (f := Filter.core), hc2, ← hc1]; rfl
      rw [this]; trivial
    | some f' =>
      rw [hf] at hc1
      cases hg : applyAll P g (sort f.queued) with
      | none => rw [hg] at hc2; rw [← hc1] at hc2; simp at hc2
      | some g' =>
        rw [hg, ← hc1] at hc2
        simp only [Option.map_some, Option.some.injEq] at hc2
        refine ⟨?_, rfl, rfl, ?_, ?_⟩
        · show f'.pruned.core = g'.pruned.core
          rw [pruned_core, pruned_core]; exact hc2.symm
        · exact pruned_hist f' (applyAll_hist P _ f f' h.histf hss
            (fun i hi => hle i ((hsort _).1.mem_iff.mp hi)) hf)
        · exact pruned_hist g' (applyAll_hist P _ g g' h.histg hss
            (fun i hi => by rw [hts]; exact hle i ((hsort _).1.mem_iff.mp hi)) hg)
  | clearControlQueue => exact ⟨h.core, rfl, h.mq, h.histf, h.histg⟩
  | clearMeasurementQueue => exact ⟨h.core, h.cq, rfl, h.histf, h.histg⟩
  | revertToState t => exact absurd hop (by simp [InOrder])
  | setParams p => exact absurd hop (by simp [InOrder])
  | userModel u =>
    simp only [Filter.step]
    rw [← henv]
    cases u f.env with
    | none => trivial
    | some e =>
      refine ⟨?_, h.cq, h.mq, h.histf, h.histg⟩
      have hc := h.core
      simp only [Filter.core, Core.mk.injEq] at hc
      simp [Filter.core, hc]

/-- **C21**.  Start two filters equal except for their parameters (any `rewind_history`, any window, any
`allow_measurements_in_past`), with nothing remembered, and make the same calls on both.  If every call is in order
when it is made on the first, then both end with the same state, covariance, time, control in use and models, or both
fail. -/
theorem C21_modes_agree_in_order (P : Plant T V M K E) (sort) (hsort : IsTimeSort sort) (f : Filter T V M K E)
    (p : Params T) (hh : f.history = []) (ops : List (Op T V M K E)) (hops : f.InOrderRun P sort ops) :
    (f.run P sort ops).map (fun g => (g.getState, g.getCovariance, g.getStateTime, g.prevControl, g.prevControlCov, g.env))
      = (({ f with params := p } : Filter T V M K E).run P sort ops).map
        (fun g => (g.getState, g.getCovariance, g.getStateTime, g.prevControl, g.prevControlCov, g.env)) := by
  have key : ∀ (ops : List (Op T V M K E)) (f g : Filter T V M K E), ModeSim f g → f.InOrderRun P sort ops →
      BothOr ModeSim (f.run P sort ops) (g.run P sort ops) := by
    intro ops
    induction ops with
    | nil => intro f g h _; exact h
    | cons op ops ih =>
      intro f g h ho
      have hs := h.step P sort hsort f g op ho.1
      rw [run, run]
      cases hf : f.step P sort op with
      | none =>
        cases hg : g.step P sort op with
        | none => trivial
        | some g' => rw [hf, hg] at hs; exact absurd hs (by simp [BothOr])
      | some f' =>
        cases hg : g.step P sort op with
        | none => rw [hf, hg] at hs; exact absurd hs (by simp [BothOr])
        | some g' =>
          rw [hf, hg] at hs
          exact ih f' g' hs (ho.2 f' hf)
  have h0 : ModeSim f ({ f with params := p } : Filter T V M K E) :=
    ⟨rfl, rfl, rfl, by simp [hh], by simp [hh]⟩
  have := key ops f _ h0 hops
  cases hf : f.run P sort ops with
  | none =>
    cases hg : ({ f with params := p } : Filter T V M K E).run P sort ops with
    | none => rfl
    | some g' => rw [hf, hg] at this; exact absurd this (by simp [BothOr])
  | some f' =>
    cases hg : ({ f with params := p } : Filter T V M K E).run P sort ops with
    | none => rw [hf, hg] at this; exact absurd this (by simp [BothOr])
    | some g' =>
      rw [hf, hg] at this
      have hc := ModeSim.core this
      simp only [Filter.core, Core.mk.injEq] at hc
      simp [getState, getCovariance, getStateTime, hc]

/-- an in-order sequence with queues and a re-initialisation -/
example : toyPlain.InOrderRun toy insSort
    [.predictControl [5] 3, .correct [1] 1 5 (some ()), .enqueueControl [4] 9, .enqueueMeasurement [6] 2 8 (some ()),
      .processQueues, .predictTime 4, .init [3] 1 2, .predictTime 4] := by
  refine ⟨by unfold InOrder; decide, fun g hg => ?_⟩; cases hg
  refine ⟨by unfold InOrder; decide, fun g hg => ?_⟩; cases hg
  refine ⟨trivial, fun g hg => ?_⟩; cases hg
  refine ⟨trivial, fun g hg => ?_⟩; cases hg
  refine ⟨by unfold InOrder; decide, fun g hg => ?_⟩; cases hg
  refine ⟨trivial, fun g hg => ?_⟩; cases hg
  refine ⟨trivial, fun g hg => ?_⟩; cases hg
  exact ⟨trivial, fun g hg => trivial⟩

/-- without the in-order condition the modes differ -/
example : estimate (toyPlain.run toy insSort [.predictControl [5] 3, .predictControl [4] 2])
    ≠ estimate (({ toyPlain with params := ⟨true, 100, false⟩ } : Filter ℤ (List ℤ) ℤ Unit ℤ).run toy insSort
      [.predictControl [5] 3, .predictControl [4] 2]) := by decide

end Props
end StateEstimation
