import Verif.Lemmas.Loops

/-! # Time order of the history -/

set_option linter.unusedSectionVars false

namespace StateEstimation

variable {T V M K E : Type}

section raw
variable [TimeOps T]

theorem Core.control_ts (P : Plant T V M K E) (c d : Core T V M E) (inp)
    (h : Core.control P c inp = some d) : d.ts = c.ts := by
  unfold Core.control at h
  dsimp only at h
  split at h
  · split at h
    · simp at h
    · split at h
      · simp at h
      · simp only [Option.some.injEq] at h; rw [← h]
  · split at h
    · simp at h
    · split at h
      · simp at h
      · simp only [Option.some.injEq] at h; rw [← h]

theorem Core.meas_frame (P : Plant T V M K E) (c d : Core T V M E) (inp dt)
    (h : Core.meas P c inp dt = some d) : d.ts = c.ts ∧ d.pc = c.pc ∧ d.pcc = c.pcc := by
  unfold Core.meas at h
  split at h
  · simp at h
  · split at h
    · simp at h
    · split at h
      · split at h
        · simp at h
        · simp only [Option.some.injEq] at h; rw [← h]; simp
      · split at h
        · simp at h
        · split at h
          · simp at h
          · simp only [Option.some.injEq] at h; rw [← h]; simp

theorem Core.apply_ts_raw (P : Plant T V M K E) (c d : Core T V M E) (inp)
    (h : Core.apply P c inp = some d) :
    d.ts = if inp.isControl || TimeOps.lt TimeOps.zero (TimeOps.sub inp.timestamp c.ts)
      then TimeOps.add c.ts (TimeOps.sub inp.timestamp c.ts) else c.ts := by
  unfold Core.apply at h
  dsimp only at h
  split at h
  · rename_i hc
    rw [Option.map_eq_some_iff] at h
    obtain ⟨e, he, rfl⟩ := h
    simp [hc, Core.tick, Core.control_ts P c e inp he]
  · rename_i hc
    split at h
    · rename_i ht
      rw [Option.bind_eq_some_iff] at h
      obtain ⟨e, he, h2⟩ := h
      rw [Option.map_eq_some_iff] at he
      obtain ⟨e', he', rfl⟩ := he
      rw [(Core.meas_frame P _ _ _ _ h2).1]
      simp [ht, Core.tick, Core.control_ts P _ _ _ he']
    · rename_i ht
      rw [(Core.meas_frame P _ _ _ _ h).1]
      simp [hc, ht]

end raw

section exact
variable [LinearOrder T] [ExactTime T]

theorem Core.apply_ts (P : Plant T V M K E) (c d : Core T V M E) (inp)
    (h : Core.apply P c inp = some d) :
    d.ts = if inp.isControl then inp.timestamp else max c.ts inp.timestamp := by
  rw [Core.apply_ts_raw P c d inp h, ExactTime.add_sub_cancel]
  cases hc : inp.isControl with
  | true => simp
  | false =>
    simp only [Bool.false_or, Bool.false_eq_true, if_false]
    split
    · rename_i h1
      rw [LawfulTime.lt_iff, LawfulTime.sub_pos_iff] at h1
      rw [max_eq_right h1.le]
    · rename_i h1
      rw [LawfulTime.lt_iff, LawfulTime.sub_pos_iff, not_lt] at h1
      rw [max_eq_left h1]

end exact

namespace Filter

section raw
variable [TimeOps T]

/-- shorthand -/
abbrev full (f : Filter T V M K E) := f.retained

theorem applyInput_some (P : Plant T V M K E) (f g : Filter T V M K E) (inp)
    (h : applyInput P f inp = some g) :
    ∃ c, Core.apply P f.core inp = some c ∧ g = { f.withCore c inp with history := f.pushed } := by
  rw [applyInput_eq, Option.map_eq_some_iff] at h
  obtain ⟨c, h1, h2⟩ := h
  exact ⟨c, h1, h2.symm⟩

theorem applyInput_frame (P : Plant T V M K E) (f g : Filter T V M K E) (inp)
    (h : applyInput P f inp = some g) :
    g.params = f.params ∧ g.controlQueue = f.controlQueue ∧ g.measQueue = f.measQueue ∧
      g.history = f.pushed ∧ g.state.prevInput = inp := by
  obtain ⟨c, _, rfl⟩ := applyInput_some P f g inp h
  exact ⟨rfl, rfl, rfl, rfl, rfl⟩

theorem applyInput_full (P : Plant T V M K E) (f g : Filter T V M K E) (inp)
    (hr : f.params.rewindHistory = true)
    (h : applyInput P f inp = some g) : g.full = f.full ++ [g.state] := by
  obtain ⟨c, _, rfl⟩ := applyInput_some P f g inp h
  simp [full, retained, pushed, hr]

theorem applyAll_frame (P : Plant T V M K E) (f g : Filter T V M K E) (is)
    (h : applyAll P f is = some g) :
    g.params = f.params ∧ g.controlQueue = f.controlQueue ∧ g.measQueue = f.measQueue := by
  induction is generalizing f with
  | nil => simp only [applyAll, Option.some.injEq] at h; subst h; simp
  | cons i is ih =>
    rw [applyAll] at h
    split at h
    · simp at h
    · rename_i f' h'
      have h1 := applyInput_frame P f f' i h'
      have h2 := ih f' h
      rw [h2.1, h2.2.1, h2.2.2]
      exact ⟨h1.1, h1.2.1, h1.2.2.1⟩

theorem applyAll_append (P : Plant T V M K E) (f : Filter T V M K E) (is js) :
    applyAll P f (is ++ js) = (applyAll P f is).bind (fun g => applyAll P g js) := by
  induction is generalizing f with
  | nil => rfl
  | cons i is ih =>
    rw [List.cons_append, applyAll, applyAll]
    split
    · rfl
    · exact ih _

/-- a whole batch appends one state per input -/
theorem applyAll_full (P : Plant T V M K E) (f g : Filter T V M K E) (is)
    (hr : f.params.rewindHistory = true) (h : applyAll P f is = some g) :
    ∃ ss, g.full = f.full ++ ss ∧ ss.map FilterState.prevInput = is := by
  induction is generalizing f with
  | nil => simp only [applyAll, Option.some.injEq] at h; subst h; exact ⟨[], by simp⟩
  | cons i is ih =>
    rw [applyAll] at h
    split at h
    · simp at h
    · rename_i f' h'
      have h1 := applyInput_frame P f f' i h'
      obtain ⟨ss, h2, h3⟩ := ih f' (by rw [h1.1]; exact hr) h
      refine ⟨f'.state :: ss, ?_, ?_⟩
      · rw [h2, applyInput_full P f f' i hr h']; simp
      · simp [h3, h1.2.2.2.2]

theorem applyBatchInputs_some (P : Plant T V M K E) (f g : Filter T V M K E) (is)
    (h : applyBatchInputs P f is = some g) : ∃ g', applyAll P f is = some g' ∧ g = g'.pruned := by
  unfold applyBatchInputs at h
  split at h
  · simp at h
  · rename_i g' h'
    rw [pruneHistory_pruned, Option.some.injEq] at h
    exact ⟨g', h', h.symm⟩

theorem applyBatchInputs_eq (P : Plant T V M K E) (f : Filter T V M K E) (is) :
    applyBatchInputs P f is = (applyAll P f is).map pruned := by
  unfold applyBatchInputs
  cases applyAll P f is with
  | none => rfl
  | some g => exact pruneHistory_pruned g

theorem pruned_full_suffix_state (f : Filter T V M K E) :
    ∃ h, h <+: f.history ∧ f.pruned.full = h ++ [f.state] :=
  ⟨f.pruned.history, pruned_history_prefix f, by simp [full, retained]⟩

end raw

section lawful
variable [LinearOrder T] [LawfulTime T]

/-- time ordered list of states -/
def TimeSorted (h : List (FilterState T V M K)) : Prop :=
  h.Pairwise (fun a b => a.timestamp ≤ b.timestamp)

theorem isPost_iff (t : T) (s : FilterState T V M K) : isPost (some t) s = true ↔ t ≤ s.timestamp :=
  LawfulTime.le_iff _ _

theorem gt_iff (t s : T) : Bound.gt (some t) s = true ↔ s < t := LawfulTime.lt_iff _ _
theorem gt_false_iff (t s : T) : Bound.gt (some t) s = false ↔ t ≤ s := by
  rw [← Bool.not_eq_true, gt_iff, not_lt]
theorem lt_false_iff (t s : T) : TimeOps.lt t s = false ↔ s ≤ t := by
  rw [← Bool.not_eq_true, LawfulTime.lt_iff, not_lt]

/-- A sorted list splits into the part before `t` and the part from `t` on. -/
theorem sorted_split (h : List (FilterState T V M K)) (hs : TimeSorted h) (t : T) :
    ∃ A B, h = A ++ B ∧ (∀ a ∈ A, a.timestamp < t) ∧ (∀ b ∈ B, t ≤ b.timestamp) := by
  induction h with
  | nil => exact ⟨[], [], rfl, by simp, by simp⟩
  | cons a h ih =>
    have hs' := List.pairwise_cons.mp hs
    rcases lt_or_ge a.timestamp t with hlt | hge
    · obtain ⟨A, B, rfl, hA, hB⟩ := ih hs'.2
      refine ⟨a :: A, B, rfl, ?_, hB⟩
      intro x hx
      rcases List.mem_cons.mp hx with rfl | hx
      · exact hlt
      · exact hA x hx
    · refine ⟨[], a :: h, rfl, by simp, ?_⟩
      intro x hx
      rcases List.mem_cons.mp hx with rfl | hx
      · exact hge
      · exact le_trans hge (hs'.1 x hx)

theorem kept_split (f : Filter T V M K E) (A B : List (FilterState T V M K)) (t : T)
    (h : f.history = A ++ B) (hA : ∀ a ∈ A, a.timestamp < t) (hB : ∀ b ∈ B, t ≤ b.timestamp) :
    f.kept (some t) = A ∧ f.post (some t) = B ++ [f.state] := by
  have hfA : A.filter (isPost (some t)) = [] := by
    rw [List.filter_eq_nil_iff]
    intro a ha; rw [isPost_iff, not_le]; exact hA a ha
  have hfB : B.filter (isPost (some t)) = B := by
    rw [List.filter_eq_self]
    intro a ha; rw [isPost_iff]; exact hB a ha
  constructor
  · unfold kept
    rw [h, List.filter_append, hfA, hfB]
    simp
  · unfold post
    rw [h, List.filter_append, hfA, hfB]
    simp

/-- A rewind to `t` on a time ordered history: the newest older state becomes current. -/
theorem rewindHistory_sorted (f : Filter T V M K E) (hs : TimeSorted f.history) (t : T)
    (ht : t ≤ f.state.timestamp) (front) (rest) (hh : f.history = front :: rest)
    (hb : front.timestamp < t) :
    ∃ older s newer, f.history = older ++ s :: newer ∧ (∀ a ∈ older, a.timestamp < t) ∧
      s.timestamp < t ∧ (∀ b ∈ newer, t ≤ b.timestamp) ∧
      f.rewindHistory (some t)
        = some ({ f with state := s, history := older }, true, newer ++ [f.state]) := by
  obtain ⟨A, B, hAB, hA, hB⟩ := sorted_split f.history hs t
  have hne : A ≠ [] := by
    rintro rfl
    rw [List.nil_append] at hAB
    have := hB front (by rw [← hAB, hh]; simp)
    exact absurd hb (not_lt.mpr this)
  obtain ⟨hk, hp⟩ := kept_split f A B t hAB hA hB
  refine ⟨A.dropLast, A.getLast hne, B, ?_, ?_, ?_, hB, ?_⟩
  · rw [hAB]
    conv_lhs => rw [← List.dropLast_append_getLast hne]
    simp
  · intro a ha; exact hA a ((List.dropLast_sublist A).subset ha)
  · exact hA _ (List.getLast_mem hne)
  · rw [rewindHistory_true f (some t) ((gt_false_iff _ _).mpr ht) front rest hh ((gt_iff _ _).mpr hb), hk, hp]
    rw [List.getLast?_eq_some_getLast hne]
    rfl

end lawful

end Filter
end StateEstimation
