import Verif.Lemmas.Order
import Mathlib.Data.List.Chain

/-! # Invariant of rewind mode: the history is the ordered run of the retained inputs -/

set_option linter.unusedSectionVars false

namespace StateEstimation

variable {T V M K E : Type}

namespace Filter

variable [LinearOrder T] [ExactTime T]

/-- Invariant of a filter used with `rewind_history = true`. -/
structure RewindInv (P : Plant T V M K E) (f : Filter T V M K E) : Prop where
  sorted : TimeSorted f.full
  stamped : ∀ s ∈ f.full.tail, s.prevInput.timestamp = s.timestamp
  chain : f.full.IsChain (Produced P)

theorem RewindInv.of_empty (P : Plant T V M K E) (f : Filter T V M K E) (h : f.history = []) :
    RewindInv P f := by
  constructor <;> simp [full, retained, h, TimeSorted]

theorem RewindInv.history_le (P : Plant T V M K E) (f : Filter T V M K E) (h : RewindInv P f) :
    TimeSorted f.history ∧ ∀ s ∈ f.history, s.timestamp ≤ f.state.timestamp := by
  have := h.sorted
  unfold full retained TimeSorted at this
  rw [List.pairwise_append] at this
  exact ⟨this.1, fun s hs => this.2.2 s hs _ (by simp)⟩

/-- invariants only depend on the retained states -/
theorem RewindInv.congr (P : Plant T V M K E) (f g : Filter T V M K E) (h : RewindInv P f)
    (hp : g.full = f.full) : RewindInv P g :=
  ⟨hp ▸ h.sorted, hp ▸ h.stamped, hp ▸ h.chain⟩

theorem RewindInv.of_prefix (P : Plant T V M K E) (f g : Filter T V M K E) (h : RewindInv P f)
    (hp : g.full <+: f.full) : RewindInv P g := by
  obtain ⟨r, hr⟩ := hp
  have hne : g.full ≠ [] := by simp [full, retained]
  refine ⟨?_, ?_, ?_⟩
  · have := h.sorted
    rw [← hr] at this
    exact (List.pairwise_append.mp this).1
  · intro s hs
    refine h.stamped s ?_
    rw [← hr, List.tail_append_of_ne_nil hne]
    exact List.mem_append_left _ hs
  · have := h.chain
    rw [← hr] at this
    exact this.left_of_append

theorem applyInput_inv (P : Plant T V M K E) (f g : Filter T V M K E) (inp)
    (hr : f.params.rewindHistory = true) (h : RewindInv P f) (ht : f.state.timestamp ≤ inp.timestamp)
    (ha : applyInput P f inp = some g) :
    RewindInv P g ∧ g.state.timestamp = inp.timestamp ∧ g.params = f.params := by
  obtain ⟨c, hc, rfl⟩ := applyInput_some P f g inp ha
  have hts : c.ts = inp.timestamp := by
    rw [Core.apply_ts P f.core c inp hc]
    split
    · rfl
    · exact max_eq_right ht
  have hfull := applyInput_full P f _ inp hr ha
  refine ⟨⟨?_, ?_, ?_⟩, hts, rfl⟩
  · rw [hfull]
    unfold TimeSorted
    rw [List.pairwise_append]
    refine ⟨h.sorted, by simp, ?_⟩
    intro a ha b hb
    rw [List.mem_singleton] at hb
    subst hb
    have hle : a.timestamp ≤ f.state.timestamp := by
      unfold full retained at ha
      rcases List.mem_append.mp ha with ha | ha
      · exact (h.history_le P f).2 a ha
      · rw [List.mem_singleton] at ha; rw [ha]
    show a.timestamp ≤ c.ts
    rw [hts]; exact le_trans hle ht
  · rw [hfull, List.tail_append_of_ne_nil (by simp [full, retained])]
    intro s hs
    rcases List.mem_append.mp hs with hs | hs
    · exact h.stamped s hs
    · rw [List.mem_singleton] at hs; subst hs
      exact hts.symm
  · rw [hfull, List.isChain_append]
    refine ⟨h.chain, by simp, ?_⟩
    intro x hx y hy
    have hx' : x = f.state := by
      unfold full retained at hx; simpa using hx.symm
    have hy' : y = ({ f.withCore c inp with history := f.pushed } : Filter T V M K E).state := by
      simpa using hy.symm
    subst hx' hy'
    exact ⟨f, _, rfl, ha, rfl⟩

/-- a batch of ordered, non-old inputs keeps the invariant and ends at the last time stamp -/
theorem applyAll_inv (P : Plant T V M K E) (f g : Filter T V M K E) (is)
    (hr : f.params.rewindHistory = true) (h : RewindInv P f)
    (hs : is.Pairwise (fun a b => a.timestamp ≤ b.timestamp))
    (ht : ∀ i ∈ is, f.state.timestamp ≤ i.timestamp) (ha : applyAll P f is = some g) :
    RewindInv P g ∧ g.state.timestamp = ((is.getLast?).map FilterInput.timestamp).getD f.state.timestamp ∧
      g.params = f.params := by
  induction is generalizing f with
  | nil => simp only [applyAll, Option.some.injEq] at ha; subst ha; exact ⟨h, by simp, rfl⟩
  | cons i is ih =>
    rw [applyAll] at ha
    split at ha
    · simp at ha
    · rename_i f' h'
      obtain ⟨h1, h2, h3⟩ := applyInput_inv P f f' i hr h (ht i (by simp)) h'
      have hs' := List.pairwise_cons.mp hs
      obtain ⟨h4, h5, h6⟩ := ih f' (by rw [h3]; exact hr) h1 hs'.2
        (by intro j hj; rw [h2]; exact hs'.1 j hj) ha
      refine ⟨h4, ?_, by rw [h6, h3]⟩
      rw [h5]
      cases is with
      | nil => simp [h2]
      | cons j js =>
        rw [List.getLast?_cons_cons]
        have : (j :: js).getLast? = some ((j :: js).getLast (by simp)) :=
          List.getLast?_eq_some_getLast _
        rw [this]; rfl

/-- On an ordered history pruning keeps everything or drops everything. -/
theorem rdropWhile_sorted (h : List (FilterState T V M K)) (hs : TimeSorted h) (cutoff : T) :
    h.rdropWhile (fun s => TimeOps.lt s.timestamp cutoff)
      = if ∀ s ∈ h.getLast?, s.timestamp < cutoff then [] else h := by
  induction h using List.reverseRecOn with
  | nil => simp
  | append_singleton l a ih =>
    rw [List.rdropWhile_concat]
    have hs' := List.pairwise_append.mp hs
    by_cases hc : a.timestamp < cutoff
    · have h1 : TimeOps.lt a.timestamp cutoff = true := (LawfulTime.lt_iff _ _).mpr hc
      rw [if_pos h1, ih hs'.1, if_pos, if_pos]
      · simpa using hc
      · intro s hs2
        have hm : s ∈ l := List.mem_of_getLast? (Option.mem_def.mp hs2)
        exact lt_of_le_of_lt (hs'.2.2 s hm a (by simp)) hc
    · have h1 : ¬ TimeOps.lt a.timestamp cutoff = true := by rw [LawfulTime.lt_iff]; exact hc
      rw [if_neg h1, if_neg]
      simpa using hc

theorem pruned_history_sorted (f : Filter T V M K E) (hs : TimeSorted f.history) :
    f.pruned.history = f.history ∨ f.pruned.history = [] := by
  unfold pruned
  split
  · rw [rdropWhile_sorted f.history hs]
    split
    · right; rfl
    · left; rfl
  · left; rfl

theorem pruned_inv (P : Plant T V M K E) (f : Filter T V M K E) (h : RewindInv P f) :
    RewindInv P f.pruned := by
  rcases pruned_history_sorted f (h.history_le P f).1 with h1 | h1
  · exact h.congr P f _ (by simp [full, retained, h1])
  · exact RewindInv.of_empty P _ h1

theorem applyBatchInputs_inv (P : Plant T V M K E) (f g : Filter T V M K E) (is)
    (hr : f.params.rewindHistory = true) (h : RewindInv P f)
    (hs : is.Pairwise (fun a b => a.timestamp ≤ b.timestamp))
    (ht : ∀ i ∈ is, f.state.timestamp ≤ i.timestamp) (ha : applyBatchInputs P f is = some g) :
    RewindInv P g ∧ g.state.timestamp = ((is.getLast?).map FilterInput.timestamp).getD f.state.timestamp ∧
      g.params = f.params := by
  obtain ⟨g', h1, rfl⟩ := applyBatchInputs_some P f g is ha
  obtain ⟨h2, h3, h4⟩ := applyAll_inv P f g' is hr h hs ht h1
  exact ⟨pruned_inv P g' h2, by rw [pruned_state, h3], by rw [pruned_params, h4]⟩

/-- Under the invariant a rewind exposes a split of the retained states. -/
theorem rewindHistory_inv (P : Plant T V M K E) (f : Filter T V M K E) (h : RewindInv P f) (t : T)
    (ht : t ≤ f.state.timestamp) (front) (rest) (hh : f.history = front :: rest)
    (hb : front.timestamp < t) :
    ∃ older s newer, f.history = older ++ s :: newer ∧ (∀ a ∈ older, a.timestamp < t) ∧
      s.timestamp < t ∧ (∀ b ∈ newer, t ≤ b.timestamp) ∧
      f.rewindHistory (some t)
        = some ({ f with state := s, history := older }, true, newer ++ [f.state]) ∧
      RewindInv P ({ f with state := s, history := older } : Filter T V M K E) ∧
      (∀ b ∈ newer ++ [f.state], b.prevInput.timestamp = b.timestamp) ∧
      (newer ++ [f.state]).Pairwise (fun a b => a.timestamp ≤ b.timestamp) := by
  obtain ⟨older, s, newer, h1, h2, h3, h4, h5⟩ :=
    rewindHistory_sorted f (h.history_le P f).1 t ht front rest hh hb
  have hfull : f.full = (older ++ [s]) ++ (newer ++ [f.state]) := by
    unfold full retained; rw [h1]; simp
  refine ⟨older, s, newer, h1, h2, h3, h4, h5, ?_, ?_, ?_⟩
  · refine h.of_prefix P f _ ?_
    rw [hfull]
    exact ⟨newer ++ [f.state], rfl⟩
  · intro b hb
    refine h.stamped b ?_
    rw [hfull, List.tail_append_of_ne_nil (by simp)]
    exact List.mem_append_right _ hb
  · have := h.sorted
    rw [hfull] at this
    exact (List.pairwise_append.mp this).2.1

/-- Outcome of `insertInput` under the invariant. -/
theorem insertInput_inv (P : Plant T V M K E) (f g : Filter T V M K E) (inp)
    (hr : f.params.rewindHistory = true) (h : RewindInv P f) (ha : insertInput P f inp = some g) :
    RewindInv P g ∧ g.params = f.params ∧
      (g = f ∧ inp.timestamp < f.state.timestamp ∨
        g.state.timestamp = max f.state.timestamp inp.timestamp) := by
  unfold insertInput at ha
  split at ha
  · rename_i hlt
    rw [LawfulTime.lt_iff] at hlt
    rcases rewindHistory_cases f (some inp.timestamp) with ⟨h1, _⟩ | ⟨h1, h2, h3⟩ | ⟨h1, front, rest, hh, hb, _⟩
    · rw [gt_iff] at h1; exact absurd hlt (not_lt.mpr h1.le)
    · rw [h3] at ha
      simp only [Option.some.injEq] at ha
      subst ha
      exact ⟨h, rfl, Or.inl ⟨rfl, hlt⟩⟩
    · rw [gt_iff] at hb
      obtain ⟨older, s, newer, e1, e2, e3, e4, e5, e6, e7, e8⟩ :=
        rewindHistory_inv P f h inp.timestamp hlt.le front rest hh hb
      rw [e5] at ha
      dsimp only at ha
      have hsort : (inp :: (newer ++ [f.state]).map FilterState.prevInput).Pairwise
          (fun a b => a.timestamp ≤ b.timestamp) := by
        rw [List.pairwise_cons]
        constructor
        · intro a ha
          obtain ⟨b, hb, rfl⟩ := List.mem_map.mp ha
          rw [e7 b hb]
          rcases List.mem_append.mp hb with hb | hb
          · exact e4 b hb
          · rw [List.mem_singleton] at hb; rw [hb]; exact hlt.le
        · rw [List.pairwise_map]
          refine List.Pairwise.imp_of_mem ?_ e8
          intro a b ha hb hab
          rw [e7 a ha, e7 b hb]; exact hab
      obtain ⟨r1, r2, r3⟩ := applyBatchInputs_inv P _ g _ (by exact hr) e6 hsort (by
        intro i hi
        refine le_trans e3.le ?_
        rcases List.mem_cons.mp hi with rfl | hi
        · exact le_refl _
        · exact (List.pairwise_cons.mp hsort).1 i hi) ha
      refine ⟨r1, r3, Or.inr ?_⟩
      rw [r2]
      rw [List.map_append, ← List.cons_append, List.map_singleton, List.getLast?_concat]
      simp only [Option.map_some, Option.getD_some]
      rw [e7 f.state (by simp), max_eq_left hlt.le]
  · rename_i hlt
    rw [LawfulTime.lt_iff, not_lt] at hlt
    obtain ⟨r1, r2, r3⟩ := applyBatchInputs_inv P f g [inp] hr h (by simp) (by simpa using hlt) ha
    refine ⟨r1, r3, Or.inr ?_⟩
    rw [r2, max_eq_right hlt]; rfl

end Filter
end StateEstimation
