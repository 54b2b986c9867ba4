import Verif.Lemmas.Queues
import Verif.Props.Modes

/-!
# C114: a longer history window changes nothing about what a shorter one could handle
-/

set_option linter.unusedSectionVars false

namespace StateEstimation
namespace Props

open Filter

variable {T V M K E : Type} [LinearOrder T] [ExactTime T]

/-- The filter can still place the call in time: its time stamp is not before the state's, or a remembered state is older (for
reverts and queued data: it is after the state's time, or a remembered state is older).  Changing parameters is not considered. -/
def CanPlace (f : Filter T V M K E) : Op T V M K E → Prop
  | .predictControl _ t | .correct _ _ t _ => f.getStateTime ≤ t ∨ ∃ s ∈ f.history, s.timestamp < t
  | .revertToState t => f.getStateTime < t ∨ ∃ s ∈ f.history, s.timestamp < t
  | .processQueues => ∀ i ∈ f.controlQueue ++ f.measQueue, f.getStateTime < i.timestamp ∨ ∃ s ∈ f.history, s.timestamp < i.timestamp
  | .setParams _ => False
  | _ => True

/-- Every call of the sequence can be placed at the moment it is made. -/
def CanPlaceAll (P : Plant T V M K E) (sort : List (FilterInput T V M K) → List (FilterInput T V M K)) :
    Filter T V M K E → List (Op T V M K E) → Prop
  | _, [] => True
  | f, op :: ops => CanPlace f op ∧ ∀ g, f.step P sort op = some g → CanPlaceAll P sort g ops

/-- equal but for the parameters, and for older states remembered by the second -/
private structure Longer (f g : Filter T V M K E) : Prop where
  st : f.state = g.state
  pc : f.prevControl = g.prevControl
  pcc : f.prevControlCov = g.prevControlCov
  env : f.env = g.env
  cq : f.controlQueue = g.controlQueue
  mq : f.measQueue = g.measQueue
  hist : ∃ pre, g.history = pre ++ f.history
  rf : f.params.rewindHistory = true
  rg : g.params.rewindHistory = true
  win : ∀ t, TimeOps.sub t g.params.historyWindow ≤ TimeOps.sub t f.params.historyWindow

private theorem Longer.core {f g : Filter T V M K E} (h : Longer f g) : f.core = g.core := by
  unfold Filter.core; rw [h.st, h.pc, h.pcc, h.env]

private theorem Longer.applyInput (P : Plant T V M K E) {f g : Filter T V M K E} (h : Longer f g) (i) :
    BothOr Longer (Filter.applyInput P f i) (Filter.applyInput P g i) := by
  rw [applyInput_eq, applyInput_eq, ← h.core]
  cases Core.apply P f.core i with
  | none => trivial
  | some c =>
    obtain ⟨pre, hpre⟩ := h.hist
    refine ⟨rfl, rfl, rfl, rfl, h.cq, h.mq, ⟨pre, ?_⟩, h.rf, h.rg, h.win⟩
    show g.pushed = pre ++ f.pushed
    unfold pushed
    rw [h.rf, h.rg, if_pos rfl, if_pos rfl, hpre, h.st, List.append_assoc]

private theorem Longer.applyAll (P : Plant T V M K E) (is) {f g : Filter T V M K E} (h : Longer f g) :
    BothOr Longer (Filter.applyAll P f is) (Filter.applyAll P g is) := by
  induction is generalizing f g with
  | nil => exact h
  | cons i is ih =>
    rw [Filter.applyAll, Filter.applyAll]
    have := h.applyInput P i
    cases e1 : Filter.applyInput P f i with
    | none =>
      cases e2 : Filter.applyInput P g i with
      | none => trivial
      | some g' => rw [e1, e2] at this; exact absurd this (by simp [BothOr])
    | some f' =>
      cases e2 : Filter.applyInput P g i with
      | none => rw [e1, e2] at this; exact absurd this (by simp [BothOr])
      | some g' => rw [e1, e2] at this; exact ih this

private theorem Longer.pruned {f g : Filter T V M K E} (h : Longer f g) (hg : TimeSorted g.history) :
    Longer f.pruned g.pruned := by
  obtain ⟨pre, hpre⟩ := h.hist
  have hf : TimeSorted f.history := by rw [hpre] at hg; exact (List.pairwise_append.mp hg).2.1
  refine ⟨by rw [pruned_state, pruned_state, h.st], ?_, ?_, ?_, by rw [pruned_cq, pruned_cq, h.cq],
    by rw [pruned_mq, pruned_mq, h.mq], ?_, by rw [pruned_params, h.rf], by rw [pruned_params, h.rg],
    by rw [pruned_params, pruned_params]; exact h.win⟩
  · have := congrArg Core.pc h.core; rw [← pruned_core f, ← pruned_core g] at this; exact this
  · have := congrArg Core.pcc h.core; rw [← pruned_core f, ← pruned_core g] at this; exact this
  · have := congrArg Core.env h.core; rw [← pruned_core f, ← pruned_core g] at this; exact this
  · unfold Filter.pruned
    rw [h.rf, h.rg, if_pos rfl, if_pos rfl]
    dsimp only
    rw [rdropWhile_sorted _ hf, rdropWhile_sorted _ hg]
    by_cases h1 : ∀ s ∈ f.history.getLast?, s.timestamp < TimeOps.sub f.state.timestamp f.params.historyWindow
    · rw [if_pos h1]
      exact ⟨_, (List.append_nil _).symm⟩
    · rw [if_neg h1]
      have h2 : ¬ ∀ s ∈ g.history.getLast?, s.timestamp < TimeOps.sub g.state.timestamp g.params.historyWindow := by
        intro h3
        apply h1
        intro s hs
        have hs' : s ∈ g.history.getLast? := by
          rw [hpre]
          have hne : f.history ≠ [] := by
            intro he; rw [he] at hs; simp at hs
          rw [List.getLast?_append_of_ne_nil _ hne]
          exact hs
        refine lt_of_lt_of_le (h3 s hs') ?_
        rw [h.st]
        exact h.win _
      rw [if_neg h2]
      exact ⟨pre, hpre⟩

/-- both rewinds reach the same state -/
private theorem Longer.rewind (P : Plant T V M K E) {f g : Filter T V M K E} (h : Longer f g) (hinv : RewindInv P g) (t : T)
    (ht : t ≤ f.state.timestamp) (hs : ∃ s ∈ f.history, s.timestamp < t) :
    ∃ (f' g' : Filter T V M K E) (post : List (FilterState T V M K)),
      f.rewindHistory (some t) = some (f', true, post) ∧ g.rewindHistory (some t) = some (g', true, post) ∧ Longer f' g' ∧
      RewindInv P g' ∧ g'.state.timestamp < t ∧ (∀ b ∈ post, b.prevInput.timestamp = b.timestamp ∧ t ≤ b.timestamp) ∧
      post.Pairwise (fun a b => a.timestamp ≤ b.timestamp) := by
  have hg : TimeSorted g.history := (hinv.history_le P g).1
  obtain ⟨pre, hpre⟩ := h.hist
  have hg2 := hg
  rw [hpre] at hg2
  have hf : TimeSorted f.history := (List.pairwise_append.mp hg2).2.1
  obtain ⟨s, hs1, hs2⟩ := hs
  cases hh : f.history with
  | nil => rw [hh] at hs1; simp at hs1
  | cons front rest =>
    have hfront : front.timestamp < t := by
      refine lt_of_le_of_lt ?_ hs2
      rw [hh] at hs1 hf
      rcases List.mem_cons.mp hs1 with rfl | hs1
      · exact le_refl _
      · exact (List.pairwise_cons.mp hf).1 s hs1
    obtain ⟨older, b, newer, e1, e2, e3, e4, e5⟩ := rewindHistory_sorted f hf t ht front rest hh hfront
    have hgt : t ≤ g.state.timestamp := by rw [← h.st]; exact ht
    have hgc : ∃ front' rest', g.history = front' :: rest' ∧ front'.timestamp < t := by
      cases hp : pre with
      | nil => rw [hp] at hpre; exact ⟨front, rest, by rw [hpre, hh]; rfl, hfront⟩
      | cons q pre' =>
        refine ⟨q, pre' ++ f.history, by rw [hpre, hp]; rfl, ?_⟩
        refine lt_of_le_of_lt ?_ hfront
        refine (List.pairwise_append.mp hg2).2.2 q (by rw [hp]; simp) front (by rw [hh]; simp)
    obtain ⟨front', rest', hh', hfront'⟩ := hgc
    obtain ⟨older', b', newer', e1', e2', e3', e4', e5', e6', e7', e8'⟩ := rewindHistory_inv P g hinv t hgt front' rest' hh' hfront'
    have hsplit : ∀ (l r l' r' : List (FilterState T V M K)), (∀ b ∈ l, b.timestamp < t) →
        (∀ b ∈ l', b.timestamp < t) → (∀ b ∈ r, t ≤ b.timestamp) → (∀ b ∈ r', t ≤ b.timestamp) →
        l ++ r = l' ++ r' → l = l' ∧ r = r' := by
      intro l
      induction l with
      | nil =>
        intro r l' r' _ h2 h3 _ he
        cases l' with
        | nil => exact ⟨rfl, he⟩
        | cons b l' =>
          rw [List.nil_append] at he
          exact absurd (h2 b (by simp)) (not_lt.mpr (h3 b (by rw [he]; simp)))
      | cons a l ih =>
        intro r l' r' h1 h2 h3 h4 he
        cases l' with
        | nil =>
          rw [List.nil_append] at he
          exact absurd (h1 a (by simp)) (not_lt.mpr (h4 a (by rw [← he]; simp)))
        | cons b l' =>
          simp only [List.cons_append, List.cons.injEq] at he
          obtain ⟨i1, i2⟩ := ih r l' r' (fun b hb => h1 b (by simp [hb])) (fun b hb => h2 b (by simp [hb])) h3 h4 he.2
          exact ⟨by rw [he.1, i1], i2⟩
    have hold : ∀ {o : List (FilterState T V M K)} {s : FilterState T V M K}, (∀ b ∈ o, b.timestamp < t) →
        s.timestamp < t → ∀ b ∈ o ++ [s], b.timestamp < t := by
      intro o s ho hs b hb
      rcases List.mem_append.mp hb with hb | hb
      · exact ho b hb
      · rw [List.mem_singleton] at hb; rw [hb]; exact hs
    have hpreT : ∀ q ∈ pre, q.timestamp < t := fun q hq =>
      lt_of_le_of_lt ((List.pairwise_append.mp hg2).2.2 q hq front (by rw [hh]; simp)) hfront
    obtain ⟨q1, q2⟩ := hsplit ((pre ++ older) ++ [b]) newer (older' ++ [b']) newer'
      (hold (fun q hq => by
        rcases List.mem_append.mp hq with hq | hq
        · exact hpreT q hq
        · exact e2 q hq) e3) (hold e2' e3') e4 e4' (by
        have : pre ++ (older ++ b :: newer) = older' ++ b' :: newer' := by rw [← e1, ← hpre, e1']
        simpa using this)
    obtain ⟨q3, q4⟩ := List.append_inj' q1 rfl
    simp only [List.cons.injEq, and_true] at q4
    subst q2 q4
    refine ⟨{ f with state := b, history := older }, { g with state := b, history := older' }, newer ++ [g.state], ?_, e5', ?_, e6', e3', ?_, e8'⟩
    · rw [e5, h.st]
    · exact ⟨rfl, h.pc, h.pcc, h.env, h.cq, h.mq, ⟨pre, q3.symm⟩, h.rf, h.rg, h.win⟩
    · intro s hs
      refine ⟨e7' s hs, ?_⟩
      rcases List.mem_append.mp hs with hs | hs
      · exact e4 s hs
      · rw [List.mem_singleton] at hs; rw [hs]; exact hgt

/-- `Longer`, with the invariant of rewind mode for the longer one -/
private def Sim (P : Plant T V M K E) (f g : Filter T V M K E) : Prop := Longer f g ∧ RewindInv P g

private theorem Sim.batch (P : Plant T V M K E) {f g : Filter T V M K E} (h : Sim P f g) (is)
    (hs : is.Pairwise (fun a b => a.timestamp ≤ b.timestamp)) (ht : ∀ i ∈ is, g.state.timestamp ≤ i.timestamp) :
    BothOr (Sim P) (applyBatchInputs P f is) (applyBatchInputs P g is) := by
  rw [applyBatchInputs_eq, applyBatchInputs_eq]
  have h1 := h.1.applyAll P is
  cases e1 : Filter.applyAll P f is with
  | none =>
    cases e2 : Filter.applyAll P g is with
    | none => trivial
    | some g' => rw [e1, e2] at h1; exact absurd h1 (by simp [BothOr])
  | some f' =>
    cases e2 : Filter.applyAll P g is with
    | none => rw [e1, e2] at h1; exact absurd h1 (by simp [BothOr])
    | some g' =>
      rw [e1, e2] at h1
      obtain ⟨r1, r2, r3⟩ := applyAll_inv P g g' is h.1.rg h.2 hs ht e2
      exact ⟨Longer.pruned h1 (r1.history_le P g').1, pruned_inv P g' r1⟩

private theorem Sim.insert (P : Plant T V M K E) {f g : Filter T V M K E} (h : Sim P f g) (i)
    (hp : f.state.timestamp ≤ i.timestamp ∨ ∃ s ∈ f.history, s.timestamp < i.timestamp) :
    BothOr (Sim P) (insertInput P f i) (insertInput P g i) := by
  unfold insertInput
  rw [← h.1.st]
  by_cases hlt : i.timestamp < f.state.timestamp
  · rw [if_pos ((LawfulTime.lt_iff _ _).mpr hlt), if_pos ((LawfulTime.lt_iff _ _).mpr hlt)]
    obtain ⟨f', g', post, e1, e2, e3, e4, e5, e6, e7⟩ := h.1.rewind P h.2 i.timestamp hlt.le
      (hp.resolve_left (not_le.mpr hlt))
    rw [e1, e2]
    dsimp only
    have hsort : (i :: post.map FilterState.prevInput).Pairwise (fun a b => a.timestamp ≤ b.timestamp) := by
      rw [List.pairwise_cons]
      constructor
      · intro a ha
        obtain ⟨b, hb, rfl⟩ := List.mem_map.mp ha
        rw [(e6 b hb).1]; exact (e6 b hb).2
      · rw [List.pairwise_map]
        refine List.Pairwise.imp_of_mem ?_ e7
        intro a b ha hb hab
        rw [(e6 a ha).1, (e6 b hb).1]; exact hab
    refine Sim.batch P ⟨e3, e4⟩ _ hsort ?_
    intro j hj
    refine le_trans e5.le ?_
    rcases List.mem_cons.mp hj with rfl | hj
    · exact le_refl _
    · exact (List.pairwise_cons.mp hsort).1 j hj
  · rw [if_neg (by rw [LawfulTime.lt_iff]; exact hlt), if_neg (by rw [LawfulTime.lt_iff]; exact hlt)]
    exact Sim.batch P h [i] (by simp) (by rw [← h.1.st]; simpa using not_lt.mp hlt)

theorem pruneQueue_placed (f : Filter T V M K E) (hs : TimeSorted f.history)
    (hle : ∀ s ∈ f.history, s.timestamp ≤ f.state.timestamp) (q : List (FilterInput T V M K))
    (hq : ∀ i ∈ q, f.state.timestamp < i.timestamp ∨ ∃ s ∈ f.history, s.timestamp < i.timestamp) : f.pruneQueue q = q := by
  unfold pruneQueue
  split
  · rename_i front rest _ hh
    rw [List.filter_eq_self]
    intro i hi
    rw [Bool.not_eq_true', lt_false_iff]
    rw [hh] at hs hle
    rcases hq i hi with h1 | ⟨s, h1, h2⟩
    · exact (hle front (by simp)).trans h1.le
    · rw [hh] at h1
      rcases List.mem_cons.mp h1 with rfl | h1
      · exact h2.le
      · exact ((List.pairwise_cons.mp hs).1 s h1).trans h2.le
  · rfl

private theorem Sim.queues (P : Plant T V M K E) (sort) (hsort : IsTimeSort sort) {f g : Filter T V M K E} (h : Sim P f g)
    (hp : CanPlace f (.processQueues : Op T V M K E)) :
    BothOr (Sim P) (f.processQueues P sort) (g.processQueues P sort) := by
  have hpf : ∀ i ∈ f.controlQueue ++ f.measQueue, f.state.timestamp < i.timestamp ∨ ∃ s ∈ f.history, s.timestamp < i.timestamp := hp
  obtain ⟨pre, hpre⟩ := h.1.hist
  have hgs := h.2.history_le P g
  have hfs : TimeSorted f.history := by
    have := hgs.1; rw [hpre] at this; exact (List.pairwise_append.mp this).2.1
  have hfle : ∀ s ∈ f.history, s.timestamp ≤ f.state.timestamp := by
    intro s hs; rw [h.1.st]; exact hgs.2 s (by rw [hpre]; exact List.mem_append_right _ hs)
  have hpg : ∀ i ∈ g.controlQueue ++ g.measQueue, g.state.timestamp < i.timestamp ∨ ∃ s ∈ g.history, s.timestamp < i.timestamp := by
    rw [← h.1.cq, ← h.1.mq, ← h.1.st]
    intro i hi
    rcases hpf i hi with h1 | ⟨s, h1, h2⟩
    · exact Or.inl h1
    · exact Or.inr ⟨s, by rw [hpre]; exact List.mem_append_right _ h1, h2⟩
  unfold processQueues
  dsimp only
  rw [pruneQueue_placed f hfs hfle f.controlQueue (fun i hi => hpf i (List.mem_append_left _ hi)),
    pruneQueue_placed f hfs hfle f.measQueue (fun i hi => hpf i (List.mem_append_right _ hi)),
    pruneQueue_placed g hgs.1 hgs.2 g.controlQueue (fun i hi => hpg i (List.mem_append_left _ hi)),
    pruneQueue_placed g hgs.1 hgs.2 g.measQueue (fun i hi => hpg i (List.mem_append_right _ hi)),
    if_pos h.1.rf, if_pos h.1.rg]
  have finish : ∀ (f' g' : Filter T V M K E) (is : List (FilterInput T V M K)), Sim P f' g' →
      (∀ i ∈ is, g'.state.timestamp ≤ i.timestamp) →
      BothOr (Sim P) (match applyBatchInputs P f' (sort is) with
        | none => none
        | some g => some g.clearControlQueue.clearMeasurementQueue)
      (match applyBatchInputs P g' (sort is) with
        | none => none
        | some g => some g.clearControlQueue.clearMeasurementQueue) := by
    intro f' g' is h' hle
    have := Sim.batch P h' (sort is) ((hsort is).2.imp fun hab => (lt_false_iff _ _).mp hab)
      (fun i hi => hle i ((hsort is).1.mem_iff.mp hi))
    cases e1 : applyBatchInputs P f' (sort is) with
    | none =>
      cases e2 : applyBatchInputs P g' (sort is) with
      | none => trivial
      | some k => rw [e1, e2] at this; exact absurd this (by simp [BothOr])
    | some j =>
      cases e2 : applyBatchInputs P g' (sort is) with
      | none => rw [e1, e2] at this; exact absurd this (by simp [BothOr])
      | some k =>
        rw [e1, e2] at this
        obtain ⟨a, b⟩ := this
        exact ⟨⟨a.st, a.pc, a.pcc, a.env, rfl, rfl, a.hist, a.rf, a.rg, a.win⟩, b.congr P k _ rfl⟩
  have hf0 : ({ f with controlQueue := f.controlQueue, measQueue := f.measQueue } : Filter T V M K E) = f := rfl
  have hg0 : ({ g with controlQueue := f.controlQueue, measQueue := f.measQueue } : Filter T V M K E) = g := by
    rw [h.1.cq, h.1.mq]
  rw [hf0, ← h.1.cq, ← h.1.mq, hg0]
  cases ho : oldestQueued f.controlQueue f.measQueue with
  | none =>
    obtain ⟨e1, e2⟩ := oldestQueued_none _ _ ho
    rw [rewindHistory_gt f none ((LawfulTime.le_iff _ _).mpr (le_refl _)),
      rewindHistory_gt g none ((LawfulTime.le_iff _ _).mpr (le_refl _))]
    refine finish f g _ h ?_
    rw [e1, e2]; simp
  | some t =>
    obtain ⟨⟨i0, hi0, ht0⟩, hmin⟩ := oldestQueued_some _ _ t ho
    by_cases hlt : f.state.timestamp < t
    · rw [rewindHistory_gt f (some t) ((LawfulTime.lt_iff _ _).mpr hlt),
        rewindHistory_gt g (some t) ((LawfulTime.lt_iff _ _).mpr (by rw [← h.1.st]; exact hlt))]
      refine finish f g _ h ?_
      intro i hi
      rw [← h.1.st]
      exact hlt.le.trans (hmin i (by simpa using hi))
    · have hs0 : ∃ s ∈ f.history, s.timestamp < t := by
        have := hpf i0 hi0
        rw [ht0] at this
        exact this.resolve_left hlt
      obtain ⟨f', g', post, e1, e2, e3, e4, e5, e6, e7⟩ := h.1.rewind P h.2 t (not_lt.mp hlt) hs0
      rw [e1, e2]
      refine finish f' g' _ ⟨e3, e4⟩ ?_
      intro i hi
      rw [List.append_assoc] at hi
      refine e5.le.trans ?_
      rcases List.mem_append.mp hi with hi | hi
      · obtain ⟨b, hb, rfl⟩ := List.mem_map.mp hi
        rw [(e6 b hb).1]; exact (e6 b hb).2
      · exact hmin i hi

private theorem Sim.step (P : Plant T V M K E) (sort) (hsort : IsTimeSort sort) {f g : Filter T V M K E} (h : Sim P f g)
    (op : Op T V M K E) (hp : CanPlace f op) : BothOr (Sim P) (f.step P sort op) (g.step P sort op) := by
  have hL := h.1
  cases op with
  | init x c t =>
    refine ⟨⟨?_, hL.pc, hL.pcc, hL.env, rfl, rfl, ⟨[], rfl⟩, hL.rf, hL.rg, hL.win⟩, RewindInv.of_empty P _ rfl⟩
    simp [Filter.init, clear, hL.st]
  | predictTime t =>
    simp only [Filter.step]
    by_cases ht : f.state.timestamp < t
    · have e : ∀ k : Filter T V M K E, k.state = f.state → k.env = f.env →
          k.predictTime P t = applyBatchInputs P k [⟨P.emptyV, P.rc f.env, t, true, none⟩] := by
        intro k hk he
        unfold predictTime
        rw [hk, if_pos ((LawfulTime.lt_iff _ _).mpr ht), applyBatchInputs_eq, Filter.applyAll, he]
        cases Filter.applyInput P k ⟨P.emptyV, P.rc f.env, t, true, none⟩ with
        | none => rfl
        | some q => simp [pruneHistory_pruned, Filter.applyAll]
      rw [e f rfl rfl, e g hL.st.symm hL.env.symm]
      exact Sim.batch P h _ (by simp) (by rw [← hL.st]; simpa using ht.le)
    · have e : ∀ k : Filter T V M K E, k.state = f.state → k.predictTime P t = some k := by
        intro k hk
        unfold predictTime
        rw [hk, if_neg (by rw [LawfulTime.lt_iff]; exact ht)]
      rw [e f rfl, e g hL.st.symm]
      exact h
  | predictControl u t =>
    simp only [Filter.step, predictControl, hL.rf, hL.rg, Bool.not_true, Bool.false_eq_true, if_false]
    rw [← hL.env]
    exact Sim.insert P h _ hp
  | correct z R t m =>
    simp only [Filter.step, Filter.correct, hL.rf, hL.rg, Bool.not_true, Bool.false_eq_true, if_false]
    exact Sim.insert P h _ hp
  | enqueueControl u t =>
    refine ⟨⟨hL.st, hL.pc, hL.pcc, hL.env, ?_, hL.mq, hL.hist, hL.rf, hL.rg, hL.win⟩, h.2.congr P g _ rfl⟩
    simp [enqueueControl, hL.cq, hL.env]
  | enqueueMeasurement z R t m =>
    refine ⟨⟨hL.st, hL.pc, hL.pcc, hL.env, hL.cq, ?_, hL.hist, hL.rf, hL.rg, hL.win⟩, h.2.congr P g _ rfl⟩
    simp [enqueueMeasurement, hL.mq]
  | processQueues => exact Sim.queues P sort hsort h hp
  | clearControlQueue =>
    exact ⟨⟨hL.st, hL.pc, hL.pcc, hL.env, rfl, hL.mq, hL.hist, hL.rf, hL.rg, hL.win⟩, h.2.congr P g _ rfl⟩
  | clearMeasurementQueue =>
    exact ⟨⟨hL.st, hL.pc, hL.pcc, hL.env, hL.cq, rfl, hL.hist, hL.rf, hL.rg, hL.win⟩, h.2.congr P g _ rfl⟩
  | revertToState t =>
    simp only [Filter.step, revertToState]
    by_cases hlt : f.state.timestamp < t
    · rw [rewindHistory_gt f (some t) ((LawfulTime.lt_iff _ _).mpr hlt),
        rewindHistory_gt g (some t) ((LawfulTime.lt_iff _ _).mpr (by rw [← hL.st]; exact hlt))]
      exact ⟨⟨hL.st, hL.pc, hL.pcc, hL.env, rfl, rfl, hL.hist, hL.rf, hL.rg, hL.win⟩, h.2.congr P g _ rfl⟩
    · obtain ⟨f', g', post, e1, e2, e3, e4, _⟩ := hL.rewind P h.2 t (not_lt.mp hlt) (Or.resolve_left hp hlt)
      rw [e1, e2]
      exact ⟨⟨e3.st, e3.pc, e3.pcc, e3.env, rfl, rfl, e3.hist, e3.rf, e3.rg, e3.win⟩, e4.congr P g' _ rfl⟩
  | setParams p => exact absurd hp (by simp [CanPlace])
  | userModel u =>
    simp only [Filter.step]
    rw [← hL.env]
    cases u f.env with
    | none => trivial
    | some e => exact ⟨⟨hL.st, hL.pc, hL.pcc, rfl, hL.cq, hL.mq, hL.hist, hL.rf, hL.rg, hL.win⟩, h.2.congr P g _ rfl⟩

/-- whole runs -/
private theorem Sim.run (P : Plant T V M K E) (sort) (hsort : IsTimeSort sort) : ∀ (ops : List (Op T V M K E))
    (f g : Filter T V M K E), Sim P f g → CanPlaceAll P sort f ops → BothOr (Sim P) (f.run P sort ops) (g.run P sort ops) := by
  intro ops
  induction ops with
  | nil => intro f g h _; exact h
  | cons op ops ih =>
    intro f g h ho
    have hs := Sim.step P sort hsort h op ho.1
    rw [Filter.run, Filter.run]
    cases hf : f.step P sort op with
    | none =>
      cases hg : g.step P sort op with
      | none => trivial
      | some g' => rw [hf, hg] at hs; exact absurd hs (by simp [BothOr])
    | some f' =>
      cases hg : g.step P sort op with
      | none => rw [hf, hg] at hs; exact absurd hs (by simp [BothOr])
      | some g' =>
        rw [hf, hg] at hs
        exact ih f' g' hs (ho.2 f' hf)

/-- what the user sees of two simulated runs -/
private theorem Sim.view (P : Plant T V M K E) {x y : Option (Filter T V M K E)} (h : BothOr (Sim P) x y) :
    x.map (fun g => (g.getState, g.getCovariance, g.getStateTime, g.prevControl, g.prevControlCov, g.env))
      = y.map (fun g => (g.getState, g.getCovariance, g.getStateTime, g.prevControl, g.prevControlCov, g.env)) := by
  cases x with
  | none =>
    cases y with
    | none => rfl
    | some g' => exact absurd h (by simp [BothOr])
  | some f' =>
    cases y with
    | none => exact absurd h (by simp [BothOr])
    | some g' =>
      obtain ⟨hL, _⟩ := h
      simp [getState, getCovariance, getStateTime, hL.st, hL.pc, hL.pcc, hL.env]

/-- A filter in rewind mode with empty queues, and the filter obtained from it by forgetting the history: as long as the one
without history can place the calls, both go on alike.  (Used for C145.) -/
theorem forgetting_history (P : Plant T V M K E) (sort) (hsort : IsTimeSort sort) (f : Filter T V M K E) (hf : RewindInv P f)
    (hr : f.params.rewindHistory = true) (ops : List (Op T V M K E))
    (hops : CanPlaceAll P sort ({ f with history := [] } : Filter T V M K E) ops) :
    (({ f with history := [] } : Filter T V M K E).run P sort ops).map
        (fun g => (g.getState, g.getCovariance, g.getStateTime, g.prevControl, g.prevControlCov, g.env))
      = (f.run P sort ops).map
        (fun g => (g.getState, g.getCovariance, g.getStateTime, g.prevControl, g.prevControlCov, g.env)) :=
  Sim.view P (Sim.run P sort hsort ops _ _ ⟨⟨rfl, rfl, rfl, rfl, rfl, rfl, ⟨f.history, by simp⟩, hr, hr, fun _ => le_refl _⟩, hf⟩
    hops)

/-- **C114.**  Two filters in rewind mode, equal except that the second has a longer history window, nothing remembered
yet; the same calls on both: direct calls, late or not, queues, reverts, re-initialisations, model changes.  If the one with the
shorter window can place every call, then both give the same state, covariance, time, control in use and models, or both
abort. -/
theorem C114_longer_window (P : Plant T V M K E) (sort) (hsort : IsTimeSort sort) (f : Filter T V M K E)
    (hr : f.params.rewindHistory = true) (hh : f.history = []) (p : Params T) (hp : p.rewindHistory = true)
    (hW : ∀ t, TimeOps.sub t p.historyWindow ≤ TimeOps.sub t f.params.historyWindow) (ops : List (Op T V M K E))
    (hops : CanPlaceAll P sort f ops) :
    (f.run P sort ops).map (fun g => (g.getState, g.getCovariance, g.getStateTime, g.prevControl, g.prevControlCov, g.env))
      = (({ f with params := p } : Filter T V M K E).run P sort ops).map
        (fun g => (g.getState, g.getCovariance, g.getStateTime, g.prevControl, g.prevControlCov, g.env)) := by
  exact Sim.view P (Sim.run P sort hsort ops f { f with params := p } ⟨⟨rfl, rfl, rfl, rfl, rfl, rfl, ⟨[], rfl⟩, hr, hp, hW⟩,
    RewindInv.of_empty P ({ f with params := p } : Filter T V M K E) hh⟩ hops)

/-- On a clock with exact arithmetic, "longer" is what it says. -/
theorem longer_window {T : Type} [LinearOrder T] [AddCommGroup T] [IsOrderedAddMonoid T] (W W' : T) (h : W ≤ W') (t : T) :
    TimeOps.sub t W' ≤ TimeOps.sub t W := sub_le_sub_left h t

/-! ### A concrete case -/

/-- late and queued data for a filter with window 3 -/
def bustle : List (Op ℤ (List ℤ) ℤ Unit ℤ) :=
  [.correct [8] 1 1 (some ()), .correct [16] 1 3 (some ()), .correct [40] 1 2 (some ()), .predictControl [5] 9,
    .correct [64] 1 12 (some ()), .enqueueMeasurement [7] 1 11 (some ()), .enqueueControl [3] 13, .processQueues, .revertToState 12]

/-- Non-vacuity: `bustle` can be placed by the filter with window 3, whose history is pruned on the way. -/
example : CanPlaceAll toy insSort ({ toyRewind with params := ⟨true, 3, false⟩ } : Filter ℤ (List ℤ) ℤ Unit ℤ) bustle := by
  refine ⟨by unfold CanPlace; decide, fun g hg => ?_⟩; cases hg
  refine ⟨by unfold CanPlace; decide, fun g hg => ?_⟩; cases hg
  refine ⟨by unfold CanPlace; decide, fun g hg => ?_⟩; cases hg
  refine ⟨by unfold CanPlace; decide, fun g hg => ?_⟩; cases hg
  refine ⟨by unfold CanPlace; decide, fun g hg => ?_⟩; cases hg
  refine ⟨trivial, fun g hg => ?_⟩; cases hg
  refine ⟨trivial, fun g hg => ?_⟩; cases hg
  refine ⟨by unfold CanPlace; decide, fun g hg => ?_⟩; cases hg
  exact ⟨by unfold CanPlace; decide, fun g hg => trivial⟩

/-- and the filters do remember different things -/
example : ((({ toyRewind with params := ⟨true, 3, false⟩ } : Filter ℤ (List ℤ) ℤ Unit ℤ).run toy insSort bustle).map
      fun g => g.history.length)
    ≠ ((({ toyRewind with params := ⟨true, 100, false⟩ } : Filter ℤ (List ℤ) ℤ Unit ℤ).run toy insSort bustle).map
      fun g => g.history.length) := by decide

/-- without the condition the windows differ: the late reading is refused by one and used by the other -/
example : estimate (({ toyRewind with params := ⟨true, 3, false⟩ } : Filter ℤ (List ℤ) ℤ Unit ℤ).run toy insSort
      [.predictControl [5] 1, .predictControl [5] 9, .correct [64] 1 5 (some ())])
    ≠ estimate (({ toyRewind with params := ⟨true, 100, false⟩ } : Filter ℤ (List ℤ) ℤ Unit ℤ).run toy insSort
      [.predictControl [5] 1, .predictControl [5] 9, .correct [64] 1 5 (some ())]) := by decide

end Props
end StateEstimation
