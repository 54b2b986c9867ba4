import Verif.Props.Window
import Verif.Props.Ledger
import Verif.Lemmas.Effect

/-!
# C115: a history window as long as the longest gap in the data loses nothing

Pruning looks only at the newest remembered state: as long as each piece of data is at most one window after another one, the
filter remembers everything since `initialize`, however long ago that was.
-/

set_option linter.unusedSectionVars false

namespace StateEstimation
namespace Props

open Filter

section general
variable {T V M K E : Type} [LinearOrder T] [ExactTime T]

/-- All calls but `initialize`, changing the parameters, and reverting to a time not after `t0`. -/
def KeepsBooks (t0 : T) : Op T V M K E → Prop
  | .init _ _ _ | .setParams _ => False
  | .revertToState t => t0 < t
  | _ => True

private abbrev times (f : Filter T V M K E) : List T := f.retained.map FilterState.timestamp

/-- the filter remembers exactly what the books say -/
private structure Remembered (P : Plant T V M K E) (w : T) (L : Ledger T V M K) (f : Filter T V M K E) : Prop where
  inv : RewindInv P f
  rewind : f.params.rewindHistory = true
  window : f.params.historyWindow = w
  times : (times f).Perm (L.start :: L.applied.map Given.time)
  later : ∀ a ∈ L.applied, L.start < a.time
  cq : f.controlQueue.map FilterInput.timestamp = (L.waiting.filter fun a => !a.isReading).map Given.time
  mq : f.measQueue.map FilterInput.timestamp = (L.waiting.filter fun a => a.isReading).map Given.time

/-- an unbroken history is not pruned -/
private theorem pruned_unbroken (P : Plant T V M K E) (w : T) (L : Ledger T V M K) (f : Filter T V M K E) (hinv : RewindInv P f)
    (hw : f.params.historyWindow = w) (ht : (times f).Perm (L.start :: L.applied.map Given.time)) (hL : L.Unbroken w) :
    f.pruned = f := by
  have hs := hinv.history_le P f
  by_cases hr : f.params.rewindHistory = true
  · by_cases hh : f.history = []
    · unfold Filter.pruned
      rw [if_pos hr, hh]
      cases f; simp_all
    · have hstate : ∃ a ∈ L.applied, a.time = f.state.timestamp ∧ L.start < a.time := by
        have h1 : f.state.timestamp ∈ times f := by simp [Filter.retained]
        rw [ht.mem_iff] at h1
        rcases List.mem_cons.mp h1 with h1 | h1
        · -- the state is at the start: then nothing else was applied
          exfalso
          have hlen := ht.length_eq
          have h2 : 2 ≤ f.retained.length := by
            unfold Filter.retained
            have := List.length_pos_iff.mpr hh
            simp only [List.length_append, List.length_singleton]; omega
          cases ha : L.applied with
          | nil => rw [ha] at hlen; simp at hlen; omega
          | cons a l =>
            have h3 := (hL a (by rw [ha]; simp)).1
            have h4 : a.time ∈ times f := by rw [ht.mem_iff, ha]; simp
            obtain ⟨s, hs1, hs2⟩ := List.mem_map.mp h4
            unfold Filter.retained at hs1
            rcases List.mem_append.mp hs1 with hs1 | hs1
            · exact absurd (hs.2 s hs1) (by rw [hs2, h1]; exact not_le.mpr h3)
            · rw [List.mem_singleton] at hs1
              rw [← hs2, hs1, h1] at h3
              exact lt_irrefl _ h3
        · obtain ⟨a, ha1, ha2⟩ := List.mem_map.mp h1
          exact ⟨a, ha1, ha2, (hL a ha1).1⟩
      obtain ⟨a, ha1, ha2, _⟩ := hstate
      obtain ⟨_, s, hs1, hs2, hs3⟩ := hL a ha1
      have h5 : s ∈ times f := ht.mem_iff.mpr hs1
      obtain ⟨q, hq1, hq2⟩ := List.mem_map.mp h5
      have hq : q ∈ f.history := by
        unfold Filter.retained at hq1
        rcases List.mem_append.mp hq1 with h | h
        · exact h
        · rw [List.mem_singleton] at h
          rw [← hq2, h, ha2] at hs2
          exact absurd hs2 (lt_irrefl _)
      have hlast : ¬ ∀ s ∈ f.history.getLast?, s.timestamp < TimeOps.sub f.state.timestamp f.params.historyWindow := by
        intro h
        have h6 := h (f.history.getLast hh) (List.getLast?_eq_some_getLast hh)
        have h7 : q.timestamp ≤ (f.history.getLast hh).timestamp := by
          have hso := hs.1
          rw [← List.dropLast_append_getLast hh] at hso hq
          rcases List.mem_append.mp hq with h | h
          · exact (List.pairwise_append.mp hso).2.2 q h _ (by simp)
          · rw [List.mem_singleton] at h; rw [h]
        rw [hw, ← ha2] at h6
        exact absurd (lt_of_le_of_lt h7 h6) (not_lt.mpr (by rw [hq2]; exact hs3))
      unfold Filter.pruned
      rw [if_pos hr, rdropWhile_sorted _ hs.1, if_neg hlast]
  · unfold Filter.pruned
    rw [if_neg hr]

/-- applying a batch on top of what is remembered -/
private theorem batch_times (P : Plant T V M K E) (w : T) (L : Ledger T V M K) (f g : Filter T V M K E) (is)
    (hinv : RewindInv P f) (hr : f.params.rewindHistory = true) (hw : f.params.historyWindow = w)
    (hs : is.Pairwise (fun a b => a.timestamp ≤ b.timestamp)) (ht : ∀ i ∈ is, f.state.timestamp ≤ i.timestamp)
    (hg : applyBatchInputs P f is = some g)
    (hperm : (times f ++ is.map FilterInput.timestamp).Perm (L.start :: L.applied.map Given.time)) (hL : L.Unbroken w) :
    RewindInv P g ∧ g.params = f.params ∧ (times g).Perm (L.start :: L.applied.map Given.time) ∧
      g.controlQueue = f.controlQueue ∧ g.measQueue = f.measQueue := by
  obtain ⟨g', h1, rfl⟩ := applyBatchInputs_some P f g is hg
  obtain ⟨a1, _, a3⟩ := applyAll_inv P f g' is hr hinv hs ht h1
  obtain ⟨ss, h3, h4⟩ := applyAll_full P f g' is hr h1
  have h3' : g'.retained = f.retained ++ ss := h3
  have hne : f.retained ≠ [] := by unfold Filter.retained; simp
  have hst : ss.map FilterState.timestamp = is.map FilterInput.timestamp := by
    rw [← h4, List.map_map]
    refine List.map_congr_left fun s hs => ?_
    refine (a1.stamped s ?_).symm
    show s ∈ g'.retained.tail
    rw [h3', List.tail_append_of_ne_nil hne]
    exact List.mem_append_right _ hs
  have ht' : (times g').Perm (L.start :: L.applied.map Given.time) := by
    show (g'.retained.map FilterState.timestamp).Perm _
    rw [h3', List.map_append, hst]; exact hperm
  rw [pruned_unbroken P w L g' a1 (by rw [a3]; exact hw) ht' hL]
  have hfr := applyAll_frame P f g' is h1
  exact ⟨a1, a3, ht', hfr.2.1, hfr.2.2⟩

private theorem Remembered.le_state {P : Plant T V M K E} {w : T} {L : Ledger T V M K} {f : Filter T V M K E}
    (h : Remembered P w L f) : L.start ≤ f.state.timestamp ∧ ∀ a ∈ L.applied, a.time ≤ f.state.timestamp := by
  have key : ∀ x ∈ Props.times f, x ≤ f.state.timestamp := by
    intro x hx
    obtain ⟨s, hs, rfl⟩ := List.mem_map.mp hx
    unfold Filter.retained at hs
    rcases List.mem_append.mp hs with hs | hs
    · exact (h.inv.history_le P f).2 s hs
    · rw [List.mem_singleton] at hs; rw [hs]
  refine ⟨key _ (h.times.mem_iff.mpr (by simp)), fun a ha => key _ (h.times.mem_iff.mpr ?_)⟩
  exact List.mem_cons_of_mem _ (List.mem_map_of_mem ha)

private theorem Remembered.state_mem {P : Plant T V M K E} {w : T} {L : Ledger T V M K} {f : Filter T V M K E}
    (h : Remembered P w L f) : f.state.timestamp = L.start ∨ ∃ a ∈ L.applied, a.time = f.state.timestamp := by
  have h1 : f.state.timestamp ∈ Props.times f := by simp [Filter.retained]
  rw [h.times.mem_iff] at h1
  rcases List.mem_cons.mp h1 with h1 | h1
  · exact Or.inl h1
  · exact Or.inr (List.mem_map.mp h1)

private theorem Remembered.place {P : Plant T V M K E} {w : T} {L : Ledger T V M K} {f : Filter T V M K E}
    (h : Remembered P w L f) {t : T} (ht : L.start < t) :
    f.state.timestamp < t ∨ ∃ s ∈ f.history, s.timestamp < t := by
  have h1 : L.start ∈ Props.times f := h.times.mem_iff.mpr (by simp)
  obtain ⟨s, hs, h2⟩ := List.mem_map.mp h1
  unfold Filter.retained at hs
  rcases List.mem_append.mp hs with hs | hs
  · exact Or.inr ⟨s, hs, by rw [h2]; exact ht⟩
  · rw [List.mem_singleton] at hs
    exact Or.inl (by rw [← hs, h2]; exact ht)

private theorem Remembered.front {P : Plant T V M K E} {w : T} {L : Ledger T V M K} {f : Filter T V M K E}
    (h : Remembered P w L f) {t : T} (ht : L.start < t) (hle : t ≤ f.state.timestamp) :
    ∃ front rest, f.history = front :: rest ∧ front.timestamp < t := by
  obtain ⟨s, hs1, hs2⟩ := (h.place ht).resolve_left (not_lt.mpr hle)
  have hso := (h.inv.history_le P f).1
  cases hh : f.history with
  | nil => rw [hh] at hs1; simp at hs1
  | cons front rest =>
    refine ⟨front, rest, rfl, ?_⟩
    rw [hh] at hs1 hso
    rcases List.mem_cons.mp hs1 with rfl | hs1
    · exact hs2
    · exact lt_of_le_of_lt ((List.pairwise_cons.mp hso).1 s hs1) hs2

/-- a direct call adds its time stamp to what is remembered -/
private theorem Remembered.insert {P : Plant T V M K E} {w : T} {L : Ledger T V M K} {f g : Filter T V M K E}
    (h : Remembered P w L f) (i : FilterInput T V M K) (a : Given T V M K) (hi : i.timestamp = a.time)
    (hL : ({ L with applied := L.applied ++ [a] } : Ledger T V M K).Unbroken w) (hg : insertInput P f i = some g) :
    Remembered P w { L with applied := L.applied ++ [a] } g := by
  have hlater : L.start < i.timestamp := by rw [hi]; exact (hL a (by simp)).1
  have done : ∀ (f' : Filter T V M K E) (is : List (FilterInput T V M K)), RewindInv P f' → f'.params = f.params →
      f'.controlQueue = f.controlQueue → f'.measQueue = f.measQueue →
      is.Pairwise (fun a b => a.timestamp ≤ b.timestamp) → (∀ i ∈ is, f'.state.timestamp ≤ i.timestamp) →
      (Props.times f' ++ is.map FilterInput.timestamp).Perm (Props.times f ++ [i.timestamp]) →
      applyBatchInputs P f' is = some g → Remembered P w { L with applied := L.applied ++ [a] } g := by
    intro f' is h1 h2 h3 h4 h5 h6 h7 h8
    obtain ⟨a1, a2, a3, a4, a5⟩ := batch_times P w { L with applied := L.applied ++ [a] } f' g is h1
      (by rw [h2]; exact h.rewind) (by rw [h2]; exact h.window) h5 h6 h8 (by
        refine h7.trans ?_
        rw [List.map_append, hi]
        exact (h.times.append_right [a.time])) hL
    exact ⟨a1, by rw [a2, h2]; exact h.rewind, by rw [a2, h2]; exact h.window, a3, fun b hb => (hL b hb).1,
      by rw [a4, h3]; exact h.cq, by rw [a5, h4]; exact h.mq⟩
  unfold insertInput at hg
  split at hg
  · rename_i hlt
    rw [LawfulTime.lt_iff] at hlt
    obtain ⟨front, rest, hh, hfront⟩ := h.front hlater hlt.le
    obtain ⟨older, s, newer, e1, e2, e3, e4, e5, e6, e7, e8⟩ := rewindHistory_inv P f h.inv i.timestamp hlt.le front rest hh hfront
    rw [e5] at hg
    have hsort : (i :: (newer ++ [f.state]).map FilterState.prevInput).Pairwise (fun a b => a.timestamp ≤ b.timestamp) := by
      rw [List.pairwise_cons]
      constructor
      · intro b hb
        obtain ⟨q, hq, rfl⟩ := List.mem_map.mp hb
        rw [e7 q hq]
        rcases List.mem_append.mp hq with hq | hq
        · exact e4 q hq
        · rw [List.mem_singleton] at hq; rw [hq]; exact hlt.le
      · rw [List.pairwise_map]
        refine List.Pairwise.imp_of_mem ?_ e8
        intro a b ha hb hab
        rw [e7 a ha, e7 b hb]; exact hab
    refine done { f with state := s, history := older } _ e6 rfl rfl rfl hsort ?_ ?_ hg
    · intro j hj
      refine e3.le.trans ?_
      rcases List.mem_cons.mp hj with rfl | hj
      · exact le_refl _
      · exact (List.pairwise_cons.mp hsort).1 j hj
    · have hts : ((newer ++ [f.state]).map FilterState.prevInput).map FilterInput.timestamp
          = (newer ++ [f.state]).map FilterState.timestamp := by
        rw [List.map_map]
        exact List.map_congr_left e7
      have hf : Props.times f = (older ++ [s]).map FilterState.timestamp ++ (newer ++ [f.state]).map FilterState.timestamp := by
        show (f.history ++ [f.state]).map _ = _
        rw [e1]; simp
      rw [List.map_cons, hts, hf, List.append_assoc]
      refine List.Perm.append_left _ ?_
      exact (List.perm_append_singleton _ _).symm
  · rename_i hlt
    rw [LawfulTime.lt_iff, not_lt] at hlt
    exact done f [i] h.inv rfl rfl rfl (by simp) (by simpa using hlt) (List.Perm.refl _) hg

private theorem Remembered.queues {P : Plant T V M K E} {w : T} {L : Ledger T V M K} {f g : Filter T V M K E} (sort)
    (hsort : IsTimeSort sort) (h : Remembered P w L f)
    (hL : ({ L with applied := L.applied ++ L.waiting, waiting := [] } : Ledger T V M K).Unbroken w)
    (hg : f.processQueues P sort = some g) :
    CanPlace f (.processQueues : Op T V M K E) ∧
    Remembered P w { L with applied := L.applied ++ L.waiting, waiting := [] } g := by
  have hperm : (f.queued.map FilterInput.timestamp).Perm (L.waiting.map Given.time) := by
    unfold Filter.queued
    rw [List.map_append, h.cq, h.mq, ← List.map_append]
    refine List.Perm.map _ ?_
    refine List.perm_append_comm.trans ?_
    exact List.filter_append_perm _ _
  have hq : ∀ i ∈ f.queued, L.start < i.timestamp := by
    intro i hi
    have := hperm.mem_iff.mp (List.mem_map_of_mem (f := FilterInput.timestamp) hi)
    obtain ⟨a, ha, hat⟩ := List.mem_map.mp this
    rw [← hat]
    exact (hL a (List.mem_append_right _ ha)).1
  have hplace : ∀ i ∈ f.controlQueue ++ f.measQueue, f.state.timestamp < i.timestamp ∨ ∃ s ∈ f.history, s.timestamp < i.timestamp :=
    fun i hi => h.place (hq i hi)
  refine ⟨hplace, ?_⟩
  have hqp : f.QueuesPlaceable := by
    intro i hi
    rcases hplace i hi with h1 | ⟨s, h1, h2⟩
    · exact Or.inl ((LawfulTime.le_iff _ _).mpr h1.le)
    · exact Or.inr (Or.inl ⟨s, h1, (LawfulTime.lt_iff _ _).mpr h2⟩)
  obtain ⟨older, base, newer, e1, e2, e3, e4⟩ := processQueues_form P sort f h.rewind h.inv hqp
  have hs := h.inv.history_le P f
  have hpq : f.pruneQueue f.queued = f.queued := pruneQueue_placed f hs.1 hs.2 _ hplace
  rw [hpq] at e2 e4
  rw [e4] at hg
  obtain ⟨g1, h1, rfl⟩ := Option.map_eq_some_iff.mp hg
  have hst : ∀ b ∈ newer, b.prevInput.timestamp = b.timestamp := by
    intro b hb
    refine h.inv.stamped b ?_
    show b ∈ f.retained.tail
    rw [e1]
    cases older <;> simp [hb]
  obtain ⟨a1, a2, a3, a4, a5⟩ := batch_times P w { L with applied := L.applied ++ L.waiting, waiting := [] }
    ({ f with
        state := base
        history := older
        controlQueue := f.pruneQueue f.controlQueue
        measQueue := f.pruneQueue f.measQueue } : Filter T V M K E) g1 _
    (h.inv.of_prefix P f _ (by
      show older ++ [base] <+: f.retained
      rw [e1]; exact ⟨newer, by simp⟩)) h.rewind h.window
    ((hsort _).2.imp (fun hab => (lt_false_iff _ _).mp hab))
    (fun i hi => e2 i ((hsort _).1.mem_iff.mp hi)) h1 (by
      show ((older ++ [base]).map FilterState.timestamp ++ _).Perm (L.start :: (L.applied ++ L.waiting).map Given.time)
      have hnew : (newer.map FilterState.prevInput).map FilterInput.timestamp = newer.map FilterState.timestamp := by
        rw [List.map_map]; exact List.map_congr_left hst
      have hf : Props.times f = (older ++ [base]).map FilterState.timestamp ++ newer.map FilterState.timestamp := by
        show f.retained.map _ = _
        rw [e1]; simp
      refine (List.Perm.append_left _ ((hsort _).1.map _)).trans ?_
      rw [List.map_append (l₁ := newer.map _), hnew, ← List.append_assoc, ← hf]
      have := h.times.append hperm
      rw [List.cons_append, ← List.map_append] at this
      exact this) hL
  exact ⟨a1.congr P g1 _ rfl, (congrArg Params.rewindHistory a2).trans h.rewind,
    (congrArg Params.historyWindow a2).trans h.window, a3, fun b hb => (hL b hb).1, rfl, rfl⟩

private theorem Remembered.revert {P : Plant T V M K E} {w : T} {L : Ledger T V M K} {f : Filter T V M K E} {t : T} {g b}
    (h : Remembered P w L f) (ht : L.start < t) (hg : f.revertToState t = some (g, b)) :
    Remembered P w { L with applied := L.applied.filter fun a => decide (a.time < t), waiting := [] } g := by
  have htimes : (L.start :: (L.applied.filter fun a => decide (a.time < t)).map Given.time)
      = (L.start :: L.applied.map Given.time).filter fun x => decide (x < t) := by
    rw [List.filter_cons_of_pos (by simpa using ht), List.filter_map]
    rfl
  unfold revertToState at hg
  by_cases hlt : f.state.timestamp < t
  · rw [rewindHistory_gt f (some t) ((LawfulTime.lt_iff _ _).mpr hlt)] at hg
    simp only [Option.some.injEq, Prod.mk.injEq] at hg
    rw [← hg.1]
    have hall : (L.applied.filter fun a => decide (a.time < t)) = L.applied := by
      rw [List.filter_eq_self]
      intro a ha
      simpa using lt_of_le_of_lt (h.le_state.2 a ha) hlt
    exact ⟨h.inv.congr P f _ rfl, h.rewind, h.window, by rw [hall]; exact h.times, by rw [hall]; exact h.later, rfl, rfl⟩
  · obtain ⟨front, rest, hh, hfront⟩ := h.front ht (not_lt.mp hlt)
    obtain ⟨older, s, newer, e1, e2, e3, e4, e5, e6, e7, e8⟩ := rewindHistory_inv P f h.inv t (not_lt.mp hlt) front rest hh hfront
    rw [e5] at hg
    simp only [Option.some.injEq, Prod.mk.injEq] at hg
    rw [← hg.1]
    refine ⟨e6.congr P _ _ rfl, h.rewind, h.window, ?_, ?_, rfl, rfl⟩
    · show ((older ++ [s]).map FilterState.timestamp).Perm _
      rw [htimes]
      have hf : Props.times f = (older ++ [s]).map FilterState.timestamp ++ (newer ++ [f.state]).map FilterState.timestamp := by
        show (f.history ++ [f.state]).map _ = _
        rw [e1]; simp
      have h1 : (older ++ [s]).map FilterState.timestamp = (Props.times f).filter fun x => decide (x < t) := by
        rw [hf, List.filter_append, List.filter_eq_self.mpr, List.filter_eq_nil_iff.mpr, List.append_nil]
        · intro x hx
          obtain ⟨q, hq, rfl⟩ := List.mem_map.mp hx
          simp only [decide_eq_true_eq, not_lt]
          rcases List.mem_append.mp hq with hq | hq
          · exact e4 q hq
          · rw [List.mem_singleton] at hq; rw [hq]; exact not_lt.mp hlt
        · intro x hx
          obtain ⟨q, hq, rfl⟩ := List.mem_map.mp hx
          simp only [decide_eq_true_eq]
          rcases List.mem_append.mp hq with hq | hq
          · exact e2 q hq
          · rw [List.mem_singleton] at hq; rw [hq]; exact e3
      rw [h1]
      exact h.times.filter _
    · intro a ha
      exact h.later a (List.mem_of_mem_filter ha)

private theorem Remembered.step {P : Plant T V M K E} {w : T} {L : Ledger T V M K} {f : Filter T V M K E} (sort)
    (hsort : IsTimeSort sort) (h : Remembered P w L f) (op : Op T V M K E) (hop : KeepsBooks L.start op)
    (hL : (L.note op).Unbroken w) :
    CanPlace f op ∧ ∀ g, f.step P sort op = some g → Remembered P w (L.note op) g := by
  cases op with
  | init x c t => exact absurd hop (by simp [KeepsBooks])
  | setParams p => exact absurd hop (by simp [KeepsBooks])
  | predictTime t =>
    refine ⟨trivial, fun g hg => ?_⟩
    simp only [Filter.step] at hg
    simp only [Ledger.note] at hL ⊢
    by_cases ht : f.state.timestamp < t
    · have hc : L.start < t ∧ ∀ a ∈ L.applied, a.time < t :=
        ⟨lt_of_le_of_lt h.le_state.1 ht, fun a ha => lt_of_le_of_lt (h.le_state.2 a ha) ht⟩
      rw [if_pos hc] at hL ⊢
      refine h.insert ⟨P.emptyV, P.rc f.env, t, true, none⟩ (.advance t) rfl hL ?_
      unfold insertInput
      rw [if_neg (by rw [LawfulTime.lt_iff, not_lt]; exact ht.le), ← hg]
      unfold predictTime
      rw [if_pos ((LawfulTime.lt_iff _ _).mpr ht), applyBatchInputs_eq, Filter.applyAll]
      cases Filter.applyInput P f ⟨P.emptyV, P.rc f.env, t, true, none⟩ with
      | none => rfl
      | some q => simp [pruneHistory_pruned, Filter.applyAll]
    · have hc : ¬ (L.start < t ∧ ∀ a ∈ L.applied, a.time < t) := by
        rintro ⟨h1, h2⟩
        rcases h.state_mem with h3 | ⟨a, ha, h3⟩
        · exact ht (by rw [h3]; exact h1)
        · exact ht (by rw [← h3]; exact h2 a ha)
      rw [if_neg hc]
      unfold predictTime at hg
      rw [if_neg (by rw [LawfulTime.lt_iff]; exact ht), Option.some.injEq] at hg
      rw [← hg]; exact h
  | predictControl u t =>
    have hl : L.start < t := (hL (.control u t) (by simp [Ledger.note])).1
    refine ⟨?_, fun g hg => ?_⟩
    · rcases h.place hl with h1 | h1
      · exact Or.inl h1.le
      · exact Or.inr h1
    · simp only [Filter.step, predictControl, h.rewind, Bool.not_true, Bool.false_eq_true, if_false] at hg
      exact h.insert _ (.control u t) rfl hL hg
  | correct z R t m =>
    have hl : L.start < t := (hL (.reading z R t m) (by simp [Ledger.note])).1
    refine ⟨?_, fun g hg => ?_⟩
    · rcases h.place hl with h1 | h1
      · exact Or.inl h1.le
      · exact Or.inr h1
    · simp only [Filter.step, Filter.correct, h.rewind, Bool.not_true, Bool.false_eq_true, if_false] at hg
      exact h.insert _ (.reading z R t m) rfl hL hg
  | enqueueControl u t =>
    refine ⟨trivial, fun g hg => ?_⟩
    simp only [Filter.step, Option.some.injEq] at hg
    rw [← hg]
    refine ⟨h.inv.congr P f _ rfl, h.rewind, h.window, h.times, h.later, ?_, ?_⟩
    · simp [enqueueControl, Ledger.note, h.cq, Given.isReading, Given.time]
    · simp [enqueueControl, Ledger.note, h.mq, Given.isReading]
  | enqueueMeasurement z R t m =>
    refine ⟨trivial, fun g hg => ?_⟩
    simp only [Filter.step, Option.some.injEq] at hg
    rw [← hg]
    refine ⟨h.inv.congr P f _ rfl, h.rewind, h.window, h.times, h.later, ?_, ?_⟩
    · simp [enqueueMeasurement, Ledger.note, h.cq, Given.isReading]
    · simp [enqueueMeasurement, Ledger.note, h.mq, Given.isReading, Given.time]
  | processQueues =>
    refine ⟨?_, fun g hg => (h.queues sort hsort hL hg).2⟩
    intro i hi
    have hperm : (f.queued.map FilterInput.timestamp).Perm (L.waiting.map Given.time) := by
      unfold Filter.queued
      rw [List.map_append, h.cq, h.mq, ← List.map_append]
      refine List.Perm.map _ ?_
      refine List.perm_append_comm.trans ?_
      exact List.filter_append_perm _ _
    have := hperm.mem_iff.mp (List.mem_map_of_mem (f := FilterInput.timestamp) hi)
    obtain ⟨a, ha, hat⟩ := List.mem_map.mp this
    refine h.place ?_
    rw [← hat]
    exact (hL a (List.mem_append_right _ ha)).1
  | clearControlQueue =>
    refine ⟨trivial, fun g hg => ?_⟩
    simp only [Filter.step, Option.some.injEq] at hg
    rw [← hg]
    refine ⟨h.inv.congr P f _ rfl, h.rewind, h.window, h.times, h.later, ?_, ?_⟩
    · simp [clearControlQueue, Ledger.note, List.filter_filter]
    · simp [clearControlQueue, Ledger.note, List.filter_filter, h.mq]
  | clearMeasurementQueue =>
    refine ⟨trivial, fun g hg => ?_⟩
    simp only [Filter.step, Option.some.injEq] at hg
    rw [← hg]
    refine ⟨h.inv.congr P f _ rfl, h.rewind, h.window, h.times, h.later, ?_, ?_⟩
    · simp [clearMeasurementQueue, Ledger.note, List.filter_filter, h.cq]
    · simp [clearMeasurementQueue, Ledger.note, List.filter_filter]
  | revertToState t =>
    have ht : L.start < t := hop
    refine ⟨h.place ht, fun g hg => ?_⟩
    simp only [Filter.step, Option.map_eq_some_iff] at hg
    obtain ⟨⟨g', b⟩, h1, rfl⟩ := hg
    simp only [Ledger.note]
    rw [if_pos ht]
    exact h.revert ht h1
  | userModel u =>
    refine ⟨trivial, fun g hg => ?_⟩
    simp only [Filter.step, Option.map_eq_some_iff] at hg
    obtain ⟨e, _, rfl⟩ := hg
    exact ⟨h.inv.congr P f _ rfl, h.rewind, h.window, h.times, h.later, h.cq, h.mq⟩

private theorem Remembered.run {P : Plant T V M K E} {w : T} (sort) (hsort : IsTimeSort sort) (ops : List (Op T V M K E)) :
    ∀ {L : Ledger T V M K} {f : Filter T V M K E}, Remembered P w L f → (∀ op ∈ ops, KeepsBooks L.start op) →
      (∀ n, (L.after (ops.take n)).Unbroken w) →
      CanPlaceAll P sort f ops ∧ ∀ g, f.run P sort ops = some g → Remembered P w (L.after ops) g := by
  induction ops with
  | nil =>
    intro L f h _ _
    refine ⟨trivial, fun g hg => ?_⟩
    simp only [Filter.run, Option.some.injEq] at hg
    rw [← hg]; exact h
  | cons op ops ih =>
    intro L f h hops hL
    obtain ⟨h1, h2⟩ := h.step sort hsort op (hops op (by simp)) (hL 1)
    have hst : (L.note op).start = L.start := after_start L [op]
    have next : ∀ g, f.step P sort op = some g → CanPlaceAll P sort g ops ∧
        ∀ k, g.run P sort ops = some k → Remembered P w ((L.note op).after ops) k := by
      intro g hg
      exact ih (h2 g hg) (fun o ho => by rw [hst]; exact hops o (by simp [ho])) (fun n => hL (n + 1))
    refine ⟨⟨h1, fun g hg => (next g hg).1⟩, fun k hk => ?_⟩
    rw [Filter.run] at hk
    cases hs : f.step P sort op with
    | none => rw [hs] at hk; simp at hk
    | some g => rw [hs] at hk; exact (next g hs).2 k hk

/-- **C115 (nothing is refused or forgotten).**  Rewind mode, after `initialize(x, c, t0)`: as long as everything in the books
(Spec/Ledger.lean: given and not taken back) is after `t0` and at most one history window after something else in the books (or
after `t0`), every call can be placed, however late it is and however long ago `t0` is, and the filter remembers one state for
`t0` and one for every piece of data in the books. -/
theorem C115_nothing_lost (P : Plant T V M K E) (sort) (hsort : IsTimeSort sort) (f0 : Filter T V M K E)
    (hr : f0.params.rewindHistory = true) (x : V) (c : M) (t0 : T) (ops : List (Op T V M K E))
    (hops : ∀ op ∈ ops, KeepsBooks t0 op)
    (hL : ∀ n, ((Ledger.mk t0 [] []).after (ops.take n)).Unbroken f0.params.historyWindow) :
    CanPlaceAll P sort (f0.init x c t0) ops ∧
    ∀ g, (f0.init x c t0).run P sort ops = some g →
      (g.retained.map FilterState.timestamp).Perm (t0 :: ((Ledger.mk t0 [] []).after ops).applied.map Given.time) := by
  have h0 : Remembered P f0.params.historyWindow (Ledger.mk t0 [] []) (f0.init x c t0) :=
    ⟨RewindInv.of_empty P _ rfl, hr, rfl, List.Perm.refl _, by simp, rfl, rfl⟩
  obtain ⟨h1, h2⟩ := h0.run sort hsort ops hops hL
  refine ⟨h1, fun g hg => ?_⟩
  have := (h2 g hg).times
  rwa [after_start] at this

/-- **C115 (as good as any longer window).**  Under the same condition the calls give what they give with any longer history
window: same state, covariance, time, control in use and models, or both abort. -/
theorem C115_as_longer_window (P : Plant T V M K E) (sort) (hsort : IsTimeSort sort) (f0 : Filter T V M K E)
    (hr : f0.params.rewindHistory = true) (x : V) (c : M) (t0 : T) (ops : List (Op T V M K E))
    (hops : ∀ op ∈ ops, KeepsBooks t0 op)
    (hL : ∀ n, ((Ledger.mk t0 [] []).after (ops.take n)).Unbroken f0.params.historyWindow)
    (p : Params T) (hp : p.rewindHistory = true)
    (hW : ∀ t, TimeOps.sub t p.historyWindow ≤ TimeOps.sub t f0.params.historyWindow) :
    ((f0.init x c t0).run P sort ops).map
        (fun g => (g.getState, g.getCovariance, g.getStateTime, g.prevControl, g.prevControlCov, g.env))
      = ((({ f0 with params := p } : Filter T V M K E).init x c t0).run P sort ops).map
        (fun g => (g.getState, g.getCovariance, g.getStateTime, g.prevControl, g.prevControlCov, g.env)) :=
  C114_longer_window P sort hsort (f0.init x c t0) hr rfl p hp hW ops
    (C115_nothing_lost P sort hsort f0 hr x c t0 ops hops hL).1

end general

section decide
variable {T V M K E : Type} [LinearOrder T] [AddCommGroup T] [IsOrderedAddMonoid T]

/-- C111's claim with the condition "within the history window" replaced by "no gap longer than the history window". -/
structure OnlyBooksMatterUnbroken (P : Plant T V M K E) (f0 : Filter T V M K E) (kind : Given T V M K → Prop) : Prop where
  inOrder : ∀ sort, IsTimeSort sort → ∀ (x : V) (c : M) (t0 : T) (ops : List (Op T V M K E)),
    (∀ op ∈ ops, op.IsBooked ∧ KeepsBooks t0 op) →
    (∀ n, ((Ledger.mk t0 [] []).after (ops.take n)).CleanUnbroken kind f0.params.historyWindow) →
    ∀ g, (f0.init x c t0).run P sort ops = some g →
    ∀ ordered : List (Given T V M K), ordered.Perm ((Ledger.mk t0 [] []).after ops).applied →
      ordered.Pairwise (fun a b => a.time < b.time) →
    ∃ g', (f0.init x c t0).run P sort (ordered.map Given.call) = some g' ∧
      g.getState = g'.getState ∧ g.getCovariance = g'.getCovariance ∧ g.getStateTime = g'.getStateTime
  same : ∀ sort sort', IsTimeSort sort → IsTimeSort sort' → ∀ (x : V) (c : M) (t0 : T) (ops ops' : List (Op T V M K E)),
    (∀ op ∈ ops ++ ops', op.IsBooked ∧ KeepsBooks t0 op) →
    (∀ n, ((Ledger.mk t0 [] []).after (ops.take n)).CleanUnbroken kind f0.params.historyWindow) →
    (∀ n, ((Ledger.mk t0 [] []).after (ops'.take n)).CleanUnbroken kind f0.params.historyWindow) →
    ((Ledger.mk t0 [] []).after ops).applied.Perm ((Ledger.mk t0 [] []).after ops').applied →
    ∀ g g', (f0.init x c t0).run P sort ops = some g → (f0.init x c t0).run P sort' ops' = some g' →
      g.getState = g'.getState ∧ g.getCovariance = g'.getCovariance ∧ g.getStateTime = g'.getStateTime

/-- some window is long enough for finitely many times -/
private theorem exists_window (w t0 : T) (l : List T) : ∃ W, w ≤ W ∧ ∀ t ∈ l, t - W ≤ t0 := by
  induction l with
  | nil => exact ⟨w, le_refl _, by simp⟩
  | cons a l ih =>
    obtain ⟨W, h1, h2⟩ := ih
    refine ⟨max W (a - t0), h1.trans (le_max_left _ _), ?_⟩
    intro t ht
    rcases List.mem_cons.mp ht with rfl | ht
    · exact sub_le_comm.mp (le_max_right _ _)
    · exact (sub_le_sub_left (le_max_left _ _) t).trans (h2 t ht)

/-- ... and for all data of a sequence of calls -/
private theorem exists_window_run (w t0 : T) (L : Ledger T V M K) (ops : List (Op T V M K E)) :
    ∃ W, w ≤ W ∧ ∀ n, ∀ a ∈ (L.after (ops.take n)).applied ++ (L.after (ops.take n)).waiting, a.time - W ≤ t0 := by
  obtain ⟨W, h1, h2⟩ := exists_window w t0 ((List.range (ops.length + 1)).flatMap fun n =>
    ((L.after (ops.take n)).applied ++ (L.after (ops.take n)).waiting).map Given.time)
  refine ⟨W, h1, fun n a ha => h2 _ ?_⟩
  rw [List.mem_flatMap]
  refine ⟨min n ops.length, by simp, ?_⟩
  have : ops.take (min n ops.length) = ops.take n := by
    rcases le_total n ops.length with h | h
    · rw [min_eq_left h]
    · rw [min_eq_right h, List.take_length, List.take_of_length_le h]
  rw [this]
  exact List.mem_map_of_mem ha

/-- the books of direct calls in time order -/
private theorem ordered_books (l : List (Given T V M K)) : ∀ (L : Ledger T V M K),
    (∀ a ∈ L.applied, ∀ b ∈ l, a.time < b.time) → (∀ b ∈ l, L.start < b.time) → l.Pairwise (fun a b => a.time < b.time) →
    L.after (l.map (Given.call : Given T V M K → Op T V M K E)) = { L with applied := L.applied ++ l } := by
  induction l with
  | nil => intro L _ _ _; simp [Ledger.after]
  | cons a l ih =>
    intro L h2 h3 h4
    have h4' := List.pairwise_cons.mp h4
    have hn : L.note (a.call : Op T V M K E) = { L with applied := L.applied ++ [a] } := by
      cases a with
      | control u t => rfl
      | reading z R t m => rfl
      | advance t => exact if_pos ⟨h3 (.advance t) (by simp), fun b hb => h2 b hb (.advance t) (by simp)⟩
    show (L.note (a.call : Op T V M K E)).after (l.map Given.call) = _
    rw [hn, ih { L with applied := L.applied ++ [a] } ?_ (fun b hb => h3 b (by simp [hb])) h4'.2]
    · simp
    · intro b hb d hd
      rcases List.mem_append.mp hb with hb | hb
      · exact h2 b hb d (by simp [hd])
      · rw [List.mem_singleton] at hb; subst hb; exact h4'.1 d hd

theorem onlyBooksMatterUnbroken {P : Plant T V M K E} (f0 : Filter T V M K E) (hr : f0.params.rewindHistory = true)
    (kind : Given T V M K → Prop)
    (hB : ∀ p : Params T, p.rewindHistory = true → OnlyBooksMatter P ({ f0 with params := p } : Filter T V M K E) kind) :
    OnlyBooksMatterUnbroken P f0 kind := by
  have view : ∀ (a b : Option (Filter T V M K E)),
      a.map (fun g => (g.getState, g.getCovariance, g.getStateTime, g.prevControl, g.prevControlCov, g.env))
        = b.map (fun g => (g.getState, g.getCovariance, g.getStateTime, g.prevControl, g.prevControlCov, g.env)) →
      ∀ g, a = some g → ∃ h, b = some h ∧ g.getState = h.getState ∧ g.getCovariance = h.getCovariance ∧
        g.getStateTime = h.getStateTime := by
    rintro a b he g rfl
    cases b with
    | none => simp at he
    | some h =>
      simp only [Option.map_some, Option.some.injEq, Prod.mk.injEq] at he
      exact ⟨h, rfl, he.1, he.2.1, he.2.2.1⟩
  constructor
  · intro sort hsort x c t0 ops hops hL g hg ordered hperm hsorted
    obtain ⟨W, hW1, hW2⟩ := exists_window_run f0.params.historyWindow t0 (Ledger.mk t0 [] []) ops
    set p : Params T := ⟨true, W, f0.params.allowPast⟩ with hp
    have hlong : ∀ t, TimeOps.sub t p.historyWindow ≤ TimeOps.sub t f0.params.historyWindow := longer_window _ _ hW1
    have hLfull := hL ops.length
    rw [List.take_length] at hLfull
    have hmem : ∀ a ∈ ordered, t0 < a.time := by
      intro a ha
      have := (hLfull.1 a (List.mem_append_left _ (hperm.mem_iff.mp ha))).2
      rwa [after_start] at this
    obtain ⟨g1, hg1, e1⟩ := view _ _ (C115_as_longer_window P sort hsort f0 hr x c t0 ops (fun o ho => (hops o ho).2)
      (fun n => (hL n).2.2) p rfl hlong) g hg
    obtain ⟨g2, hg2, e2⟩ := (hB p rfl).inOrder sort hsort x c t0 ops (fun o ho => (hops o ho).1) (fun n => by
      refine ⟨fun a ha => ⟨((hL n).1 a ha).1, ((hL n).1 a ha).2, ?_⟩, (hL n).2.1⟩
      rw [after_start]
      exact hW2 n a ha) g1 hg1 ordered hperm hsorted
    obtain ⟨g3, hg3, e3⟩ := view _ _ (C115_as_longer_window P sort hsort f0 hr x c t0 (ordered.map Given.call) (by
        intro op hop
        obtain ⟨a, _, rfl⟩ := List.mem_map.mp hop
        cases a <;> trivial) (by
        intro n
        rw [← List.map_take, ordered_books (ordered.take n) (Ledger.mk t0 [] []) (by simp)
          (fun b hb => hmem b (List.mem_of_mem_take hb)) (hsorted.sublist (List.take_sublist _ _))]
        intro a ha
        have ha' : a ∈ ordered.take n := by simpa using ha
        refine ⟨hmem a (List.mem_of_mem_take ha'), ?_⟩
        obtain ⟨_, s, h1, h2, h3⟩ := hLfull.2.2 a (hperm.mem_iff.mp (List.mem_of_mem_take ha'))
        refine ⟨s, ?_, h2, h3⟩
        rw [after_start] at h1
        rcases List.mem_cons.mp h1 with rfl | h1
        · simp
        · obtain ⟨b, hb, rfl⟩ := List.mem_map.mp h1
          refine List.mem_cons_of_mem _ (List.mem_map_of_mem ?_)
          have hb' : b ∈ ordered := hperm.mem_iff.mpr hb
          simp only [List.nil_append]
          rw [← List.take_append_drop n ordered] at hb' hsorted
          rcases List.mem_append.mp hb' with hb' | hb'
          · exact hb'
          · exact absurd ((List.pairwise_append.mp hsorted).2.2 a ha' b hb') (lt_asymm h2)) p rfl hlong).symm g2 hg2
    exact ⟨g3, hg3, e1.1.trans (e2.1.trans e3.1), e1.2.1.trans (e2.2.1.trans e3.2.1), e1.2.2.trans (e2.2.2.trans e3.2.2)⟩
  · intro sort sort' hsort hsort' x c t0 ops ops' hops hL hL' hperm g g' hg hg'
    obtain ⟨W, hW1, hW2⟩ := exists_window_run f0.params.historyWindow t0 (Ledger.mk t0 [] []) ops
    obtain ⟨W', hW1', hW2'⟩ := exists_window_run W t0 (Ledger.mk t0 [] []) ops'
    set p : Params T := ⟨true, W', f0.params.allowPast⟩ with hp
    have hlong : ∀ t, TimeOps.sub t p.historyWindow ≤ TimeOps.sub t f0.params.historyWindow :=
      longer_window _ _ (hW1.trans hW1')
    obtain ⟨g1, hg1, e1⟩ := view _ _ (C115_as_longer_window P sort hsort f0 hr x c t0 ops
      (fun o ho => (hops o (by simp [ho])).2) (fun n => (hL n).2.2) p rfl hlong) g hg
    obtain ⟨g2, hg2, e2⟩ := view _ _ (C115_as_longer_window P sort' hsort' f0 hr x c t0 ops'
      (fun o ho => (hops o (by simp [ho])).2) (fun n => (hL' n).2.2) p rfl hlong) g' hg'
    have e3 := (hB p rfl).same sort sort' hsort hsort' x c t0 ops ops' (fun o ho => (hops o ho).1) (fun n => by
        refine ⟨fun a ha => ⟨((hL n).1 a ha).1, ((hL n).1 a ha).2, ?_⟩, (hL n).2.1⟩
        rw [after_start]
        exact (sub_le_sub_left hW1' a.time).trans (hW2 n a ha)) (fun n => by
        refine ⟨fun a ha => ⟨((hL' n).1 a ha).1, ((hL' n).1 a ha).2, ?_⟩, (hL' n).2.1⟩
        rw [after_start]
        exact hW2' n a ha) hperm g1 g2 hg1 hg2
    exact ⟨e1.1.trans (e3.1.trans e2.1.symm), e1.2.1.trans (e3.2.1.trans e2.2.1.symm), e1.2.2.trans (e3.2.2.trans e2.2.2.symm)⟩

/-- The two forms, as in C111. -/
structure BooksDecideUnbroken (P : Plant T V M K E) (f0 : Filter T V M K E) : Prop where
  controls : OnlyBooksMatterUnbroken P f0 (IsControl P)
  underControl : (P.vsize f0.prevControl > 0 → f0.prevControlCov = P.rc f0.env) →
    OnlyBooksMatterUnbroken P f0 (IsUnderControl P f0.prevControl)

/-- **C115 (only the books matter; any filter class with memoryless models).** -/
theorem C115_books_decide (P : Plant T V M K E) (eqv : E → E → Prop) (hM : Memoryless P eqv) (hE : P.vsize P.emptyV = 0)
    (f0 : Filter T V M K E) (hr : f0.params.rewindHistory = true) : BooksDecideUnbroken P f0 where
  controls := onlyBooksMatterUnbroken f0 hr _ fun p hp => (C111_books_decide P eqv hM hE { f0 with params := p } hp).controls
  underControl h :=
    onlyBooksMatterUnbroken f0 hr _ fun p hp => (C111_books_decide P eqv hM hE { f0 with params := p } hp).underControl h

end decide

section filters

variable {T K X Y Gm Gs : Type} [LinearOrder T] [AddCommGroup T] [IsOrderedAddMonoid T] [DecidableEq K]

/-- **C115 (Kalman filter).** -/
theorem C115_kf {sc : SysClass T LinSysData X} {mc : K → MeasClass T LinMeasData Y} (cfgS : Sys LinSysData X → Gs)
    (hsc : sc.Stateless cfgS) (cfg : K → Meas LinMeasData Y → Gm) (hmc : ∀ k, (mc k).Stateless (cfg k))
    (f0 : Filter T DVec DMat K (Env K LinSysData X LinMeasData Y)) (hr : f0.params.rewindHistory = true) :
    BooksDecideUnbroken (kfPlant sc mc) f0 := C115_books_decide _ _ (kf_memoryless cfgS hsc cfg hmc) rfl f0 hr

/-- **C115 (Kalman filter with variable states).** -/
theorem C115_kf_vs {sc : SysClass T LinSysData X} {mc : K → MeasClass T LinMeasData Y} (cfgS : Sys LinSysData X → Gs)
    (hsc : sc.Stateless cfgS) (cfg : K → Meas LinMeasData Y → Gm) (hmc : ∀ k, (mc k).Stateless (cfg k))
    (f0 : Filter T DVec DMat K (Env K LinSysData X LinMeasData Y)) (hr : f0.params.rewindHistory = true) :
    BooksDecideUnbroken (kfvsPlant sc mc) f0 := C115_books_decide _ _ (kfvs_memoryless cfgS hsc cfg hmc) rfl f0 hr

/-- **C115 (EKF).** -/
theorem C115_ekf {sc : SysClass T NonlinSysData X} {mc : K → MeasClass T NonlinMeasData Y} (cfgS : Sys NonlinSysData X → Gs)
    (hsc : sc.Stateless cfgS) (cfg : K → Meas NonlinMeasData Y → Gm) (hmc : ∀ k, (mc k).Stateless (cfg k))
    (f0 : Filter T DVec DMat K (Env K NonlinSysData X NonlinMeasData Y)) (hr : f0.params.rewindHistory = true) :
    BooksDecideUnbroken (ekfPlant sc mc) f0 := C115_books_decide _ _ (ekf_memoryless cfgS hsc cfg hmc) rfl f0 hr

/-- **C115 (EKF with variable states).** -/
theorem C115_ekf_vs {sc : SysClass T NonlinSysData X} {mc : K → MeasClass T NonlinMeasData Y} (cfgS : Sys NonlinSysData X → Gs)
    (hsc : sc.Stateless cfgS) (cfg : K → Meas NonlinMeasData Y → Gm) (hmc : ∀ k, (mc k).Stateless (cfg k))
    (f0 : Filter T DVec DMat K (Env K NonlinSysData X NonlinMeasData Y)) (hr : f0.params.rewindHistory = true) :
    BooksDecideUnbroken (ekfvsPlant sc mc) f0 := C115_books_decide _ _ (ekfvs_memoryless cfgS hsc cfg hmc) rfl f0 hr

/-- **C115 (UKF)**, for every factorisation routine and whatever is in uninitialised memory. -/
theorem C115_ukf (llt : DMat → Option DMat) (junk : Nat → Nat → ℝ) {sc : SysClass T NonlinSysData X}
    {mc : K → MeasClass T NonlinMeasData Y} (cfgS : Sys NonlinSysData X → Gs) (hsc : sc.Stateless cfgS)
    (cfg : K → Meas NonlinMeasData Y → Gm) (hmc : ∀ k, (mc k).Stateless (cfg k))
    (f0 : Filter T DVec DMat K (Env K NonlinSysData X NonlinMeasData Y × SigmaParams)) (hr : f0.params.rewindHistory = true) :
    BooksDecideUnbroken (ukfPlant llt junk sc mc) f0 :=
  C115_books_decide _ _ (ukf_memoryless llt junk cfgS hsc cfg hmc) rfl f0 hr

/-- **C115 (UKF with variable states).** -/
theorem C115_ukf_vs (llt : DMat → Option DMat) (junk : Nat → Nat → ℝ) {sc : SysClass T NonlinSysData X}
    {mc : K → MeasClass T NonlinMeasData Y} (cfgS : Sys NonlinSysData X → Gs) (hsc : sc.Stateless cfgS)
    (cfg : K → Meas NonlinMeasData Y → Gm) (hmc : ∀ k, (mc k).Stateless (cfg k))
    (f0 : Filter T DVec DMat K (Env K NonlinSysData X NonlinMeasData Y × SigmaParams)) (hr : f0.params.rewindHistory = true) :
    BooksDecideUnbroken (ukfvsPlant llt junk sc mc) f0 :=
  C115_books_decide _ _ (ukfvs_memoryless llt junk cfgS hsc cfg hmc) rfl f0 hr

/-- the six-D rates model with its two sensors is among them -/
example (f0 : Filter ℝ DVec DMat Bool (Env Bool NonlinSysData SixDRates.Flags NonlinMeasData TfData))
    (hr : f0.params.rewindHistory = true) : BooksDecideUnbroken (ekfPlant SixDRates.cls sixDSensors) f0 :=
  C115_ekf SixDRates.config SixDRates.stateless sixDCfg sixDSensors_stateless f0 hr

end filters

/-! ### A concrete case -/

/-- Window 3: readings at 2, 4, 6, 8, then a late one at 1 (seven behind), one at 3 through the queue, a revert to 7 and a
prediction to 9. -/
def longRun : List (Op ℤ (List ℤ) ℤ Unit ℤ) :=
  [.correct [8] 1 2 (some ()), .correct [16] 1 4 (some ()), .correct [40] 1 6 (some ()), .correct [64] 1 8 (some ()),
    .correct [96] 1 1 (some ()), .enqueueMeasurement [160] 1 3 (some ()), .processQueues, .revertToState 7, .predictTime 9]

/-- what remains of it, in time order -/
def longRunTidy : List (Given ℤ (List ℤ) ℤ Unit) :=
  [.reading [96] 1 1 (some ()), .reading [8] 1 2 (some ()), .reading [160] 1 3 (some ()), .reading [16] 1 4 (some ()),
    .reading [40] 1 6 (some ()), .advance 9]

theorem longRun_books : ((Ledger.mk 0 [] []).after longRun).applied
    = [.reading [8] 1 2 (some ()), .reading [16] 1 4 (some ()), .reading [40] 1 6 (some ()), .reading [96] 1 1 (some ()),
      .reading [160] 1 3 (some ()), .advance 9] := by
  simp [longRun, Ledger.after, Ledger.note, Given.time]

/-- Non-vacuity: the conditions of C115 hold for `longRun` with window 3, although it lasts thrice as long and contains data
more than two windows late; the estimate is that of the tidy calls. -/
example : ∃ g', toyRun (({ toyRewind with params := ⟨true, 3, false⟩ } : Filter ℤ (List ℤ) ℤ Unit ℤ).init [0] 0 0)
      (longRunTidy.map Given.call) = some g' ∧ g'.getState = [47] := by
  have h1 : estimate (toyRun (({ toyRewind with params := ⟨true, 3, false⟩ } : Filter ℤ (List ℤ) ℤ Unit ℤ).init [0] 0 0) longRun)
      = some ([47], 6, 9) := by decide
  simp only [estimate, Option.map_eq_some_iff] at h1
  obtain ⟨g, hg, hv⟩ := h1
  simp only [Prod.mk.injEq] at hv
  obtain ⟨g', h2, h3, _⟩ := ((C115_books_decide toy _ toy_memoryless rfl
      ({ toyRewind with params := ⟨true, 3, false⟩ } : Filter ℤ (List ℤ) ℤ Unit ℤ) rfl).underControl (by decide)).inOrder insSort
    insSort_isTimeSort [0] 0 0 longRun (by
      intro op hop
      simp only [longRun, List.mem_cons, List.not_mem_nil, or_false] at hop
      rcases hop with rfl | rfl | rfl | rfl | rfl | rfl | rfl | rfl | rfl <;> simp [Op.IsBooked, KeepsBooks])
    (by
      have hk : ∀ z R t m, IsUnderControl toy toyRewind.prevControl (.reading z R t m) := fun z R t m => Or.inl ⟨z, R, t, m, rfl⟩
      have ha : ∀ t, IsUnderControl toy toyRewind.prevControl (.advance t) := fun t => Or.inr (Or.inl ⟨t, rfl⟩)
      have hsub : ∀ a b : ℤ, TimeOps.sub a b = a - b := fun _ _ => rfl
      intro n
      rcases n with _ | _ | _ | _ | _ | _ | _ | _ | _ | n <;>
      simp [longRun, Ledger.after, Ledger.note, Given.time, Ledger.CleanUnbroken, Ledger.Unbroken, hk, ha, hsub])
    g hg longRunTidy (by
      rw [longRun_books]
      exact List.Perm.trans (.cons _ (.cons _ (List.perm_middle (l₁ := [_, _])).symm)) (List.perm_middle (l₁ := [_, _, _])).symm)
    (by simp [longRunTidy, Given.time])
  exact ⟨g', h2, by rw [← h3, hv.1]⟩

end Props
end StateEstimation
