import Verif.Lemmas.OutOfOrder
import Verif.Lemmas.Queues
import Verif.Spec.Ledger
import Verif.Spec.Filter

/-! # Queues, reverts and direct calls all keep a filter the run of its inputs -/

set_option linter.unusedSectionVars false

namespace StateEstimation

variable {T V M K E : Type}

/-- the stored form of a piece of data -/
def Given.input (e : V) (R : M) : Given T V M K → FilterInput T V M K
  | .control u t => ⟨u, R, t, true, none⟩
  | .reading z c t m => ⟨z, c, t, false, m⟩
  | .advance t => ⟨e, R, t, true, none⟩

@[simp] theorem Given.input_time (e : V) (R : M) (a : Given T V M K) : (a.input e R).timestamp = a.time := by
  cases a <;> rfl

namespace Filter

variable [LinearOrder T] [ExactTime T] {P : Plant T V M K E} {G : V → M → E → Prop} {A : FilterInput T V M K → Prop}
  {F : V → M → T → FilterInput T V M K → Option (V × M)} {s0 : FilterState T V M K}

theorem Holds.queues {is} {f : Filter T V M K E} (h : Holds G A F s0 is f) (cq mq) :
    Holds G A F s0 is ({ f with controlQueue := cq, measQueue := mq } : Filter T V M K E) :=
  ⟨h.rewind, h.glob, h.kinds, h.first, h.inputs, h.chain, h.stamped, h.sorted⟩

/-- history is empty exactly when nothing was given -/
theorem Holds.history_nil {f : Filter T V M K E} (h : Holds G A F s0 [] f) : f.history = [] := by
  have := h.inputs
  unfold Filter.inputs retained at this
  cases hh : f.history with
  | nil => rfl
  | cons a l => rw [hh] at this; simp at this

theorem Holds.front {is} {f : Filter T V M K E} (h : Holds G A F s0 is f) (front rest) (hh : f.history = front :: rest) :
    front = s0 := by
  have := h.first
  unfold retained at this
  rw [hh] at this
  simpa using this

/-- A rewind splits the held inputs. -/
theorem Holds.split {is} {f : Filter T V M K E} (h : Holds G A F s0 is f) (t : T) (h0 : s0.timestamp < t)
    (ht : t ≤ f.state.timestamp) :
    ∃ bef aft s older post, is = bef ++ aft ∧
      f.rewindHistory (some t) = some ({ f with state := s, history := older }, true, post) ∧
      post.map FilterState.prevInput = aft ∧ Holds G A F s0 bef ({ f with state := s, history := older } : Filter T V M K E) ∧
      s.timestamp < t ∧ (∀ j ∈ bef, j.timestamp < t) ∧ ∀ j ∈ aft, t ≤ j.timestamp := by
  have hsorted := h.sorted
  unfold TimeSorted retained at hsorted
  rw [List.pairwise_append] at hsorted
  cases hh : f.history with
  | nil =>
    have := h.first
    unfold retained at this
    rw [hh] at this
    simp only [List.nil_append, List.head?_cons, Option.some.injEq] at this
    rw [this] at ht
    exact absurd h0 (not_lt.mpr ht)
  | cons front rest =>
    have hfront := h.front front rest hh
    obtain ⟨older, s, newer, e1, e2, e3, e4, e5⟩ :=
      rewindHistory_sorted f hsorted.1 t ht front rest hh (by rw [hfront]; exact h0)
    have hret : f.retained = (older ++ [s]) ++ (newer ++ [f.state]) := by
      unfold retained; rw [e1]; simp
    have hinp : is = (older ++ [s]).tail.map FilterState.prevInput
        ++ (newer ++ [f.state]).map FilterState.prevInput := by
      rw [← h.inputs]
      unfold Filter.inputs
      rw [hret, List.tail_append_of_ne_nil (by simp), List.map_append]
    have hst : ∀ b ∈ newer ++ [f.state], b.prevInput.timestamp = b.timestamp := by
      intro b hb
      refine h.stamped b ?_
      rw [hret, List.tail_append_of_ne_nil (by simp)]
      exact List.mem_append_right _ hb
    have hs2 := h.sorted
    rw [hret] at hs2
    have hs3 := List.pairwise_append.mp hs2
    have hold : Holds G A F s0 ((older ++ [s]).tail.map FilterState.prevInput)
        ({ f with state := s, history := older } : Filter T V M K E) := by
      refine ⟨h.rewind, h.glob, ?_, ?_, rfl, ?_, ?_, ?_⟩
      · intro j hj; exact h.kinds j (by rw [hinp]; exact List.mem_append_left _ hj)
      · have := h.first
        rw [hret, List.head?_append_of_ne_nil _ (by simp)] at this
        exact this
      · have := h.chain
        rw [hret] at this
        exact this.left_of_append
      · intro b hb
        refine h.stamped b ?_
        rw [hret, List.tail_append_of_ne_nil (by simp)]
        exact List.mem_append_left _ hb
      · exact hs3.1
    refine ⟨_, _, s, older, newer ++ [f.state], hinp, e5, rfl, hold, e3, ?_, ?_⟩
    · intro j hj
      obtain ⟨b, hb, rfl⟩ := List.mem_map.mp hj
      have hb' : b ∈ older ++ [s] := List.mem_of_mem_tail hb
      rw [h.stamped b (by
        rw [hret, List.tail_append_of_ne_nil (by simp)]
        exact List.mem_append_left _ hb)]
      rcases List.mem_append.mp hb' with hb' | hb'
      · exact e2 b hb'
      · rw [List.mem_singleton] at hb'; rw [hb']; exact e3
    · intro j hj
      obtain ⟨b, hb, rfl⟩ := List.mem_map.mp hj
      rw [hst b hb]
      rcases List.mem_append.mp hb with hb | hb
      · exact e4 b hb
      · rw [List.mem_singleton] at hb; rw [hb]; exact ht

/-- nothing leaves the window -/
theorem Holds.stays {is} {f : Filter T V M K E} (h : Holds G A F s0 is f)
    (hw : ∀ j ∈ is, TimeOps.sub j.timestamp f.params.historyWindow ≤ s0.timestamp) : f.pruned = f := by
  rcases List.eq_nil_or_concat is with rfl | ⟨l, b, rfl⟩
  · unfold Filter.pruned
    rw [h.rewind, if_pos rfl, h.history_nil, List.rdropWhile_nil]
    have := h.history_nil
    cases f
    simp only at this
    subst this
    rfl
  · refine h.pruned_eq ?_
    rw [h.state_time, List.concat_eq_append, List.getLast?_append_of_ne_nil _ (by simp), List.getLast?_singleton]
    exact hw b (by simp)

/-- `processQueues` adds the waiting inputs. -/
theorem Holds.process (hF : PureStep P G A F) (sort) (hsort : IsTimeSort sort) {is} {f g : Filter T V M K E}
    (h : Holds G A F s0 is f) (hq : ∀ i ∈ f.controlQueue ++ f.measQueue, A i ∧ s0.timestamp < i.timestamp)
    (hw : ∀ j ∈ is ++ (f.controlQueue ++ f.measQueue), TimeOps.sub j.timestamp f.params.historyWindow ≤ s0.timestamp)
    (hg : f.processQueues P sort = some g) :
    ∃ ks, ks.Perm (is ++ (f.controlQueue ++ f.measQueue)) ∧ Holds G A F s0 ks g ∧ g.params = f.params ∧
      g.controlQueue = [] ∧ g.measQueue = [] := by
  have hprune : ∀ q, (∀ i ∈ q, i ∈ f.controlQueue ++ f.measQueue) → f.pruneQueue q = q := by
    intro q hqs
    unfold pruneQueue
    split
    · rename_i front rest _ hh
      rw [List.filter_eq_self]
      intro i hi
      rw [h.front _ _ hh, Bool.not_eq_true', lt_false_iff]
      exact (hq i (hqs i hi)).2.le
    · rfl
  unfold processQueues at hg
  rw [hprune f.controlQueue (fun i hi => List.mem_append_left _ hi),
    hprune f.measQueue (fun i hi => List.mem_append_right _ hi)] at hg
  dsimp only at hg
  rw [if_pos h.rewind] at hg
  -- common end: a held run of `bef`, and `aft` with the queues to apply
  have finish : ∀ (bef aft : List (FilterInput T V M K)) (f' : Filter T V M K E), is = bef ++ aft → f'.params = f.params →
      Holds G A F s0 bef f' →
      (∀ j ∈ aft ++ f.controlQueue ++ f.measQueue, f'.state.timestamp ≤ j.timestamp) →
      (match applyBatchInputs P f' (sort (aft ++ f.controlQueue ++ f.measQueue)) with
        | none => none
        | some g => some g.clearControlQueue.clearMeasurementQueue) = some g →
      ∃ ks, ks.Perm (is ++ (f.controlQueue ++ f.measQueue)) ∧ Holds G A F s0 ks g ∧ g.params = f.params ∧
        g.controlQueue = [] ∧ g.measQueue = [] := by
    intro bef aft f' hsplit hpar hbef hle hrun
    split at hrun
    · simp at hrun
    · rename_i g1 hg1
      rw [Option.some.injEq] at hrun
      obtain ⟨g', h1, rfl⟩ := applyBatchInputs_some P _ g1 _ hg1
      have hperm := (hsort (aft ++ f.controlQueue ++ f.measQueue)).1
      obtain ⟨r1, r2⟩ := hbef.applyAll hF (js := sort (aft ++ f.controlQueue ++ f.measQueue)) (by
          intro j hj
          have hj := hperm.mem_iff.mp hj
          rw [List.append_assoc] at hj
          rcases List.mem_append.mp hj with hj | hj
          · exact h.kinds j (by rw [hsplit]; exact List.mem_append_right _ hj)
          · exact (hq j hj).1)
        ((hsort _).2.imp (fun hab => (lt_false_iff _ _).mp hab)) (fun j hj => hle j (hperm.mem_iff.mp hj)) h1
      have hp2 : (bef ++ sort (aft ++ f.controlQueue ++ f.measQueue)).Perm (is ++ (f.controlQueue ++ f.measQueue)) := by
        rw [hsplit, List.append_assoc bef aft]
        refine List.Perm.append_left bef ?_
        rw [← List.append_assoc]
        exact hperm
      rw [r1.stays (by
        intro j hj
        rw [r2, hpar]
        exact hw j (hp2.mem_iff.mp hj))] at hrun
      subst hrun
      exact ⟨_, hp2, r1.queues [] [], by rw [← hpar, ← r2]; rfl, rfl, rfl⟩
  cases ho : oldestQueued f.controlQueue f.measQueue with
  | none =>
    obtain ⟨e1, e2⟩ := oldestQueued_none _ _ ho
    rw [ho, rewindHistory_gt _ _ ((LawfulTime.le_iff _ _).mpr (le_refl _))] at hg
    refine finish is [] _ (by simp) rfl h ?_ hg
    rw [e1, e2]; simp
  | some t =>
    obtain ⟨⟨i0, hi0, ht0⟩, hmin⟩ := oldestQueued_some _ _ t ho
    have h0t : s0.timestamp < t := by rw [← ht0]; exact (hq i0 hi0).2
    rw [ho] at hg
    rcases lt_or_ge f.state.timestamp t with hst | hst
    · rw [rewindHistory_gt _ _ ((gt_iff _ _).mpr hst)] at hg
      refine finish is [] _ (by simp) rfl h ?_ hg
      intro j hj
      exact le_trans hst.le (hmin j (by simpa using hj))
    · obtain ⟨bef, aft, s, older, post, e1, e2, e3, e4, e5, e6, e7⟩ := h.split t h0t hst
      have e2' : ({ f with controlQueue := f.controlQueue, measQueue := f.measQueue } : Filter T V M K E).rewindHistory (some t)
        = some ({ f with state := s, history := older }, true, post) := e2
      rw [e2'] at hg
      dsimp only at hg
      rw [e3] at hg
      refine finish bef aft ({ f with state := s, history := older } : Filter T V M K E) e1 rfl e4 ?_ hg
      intro j hj
      rw [List.append_assoc] at hj
      refine le_trans e5.le ?_
      rcases List.mem_append.mp hj with hj | hj
      · exact e7 j hj
      · exact hmin j hj

/-- `revertToState` takes inputs back. -/
theorem Holds.revert {is} {f g : Filter T V M K E} (h : Holds G A F s0 is f) (t : T) (h0 : s0.timestamp < t) (b : Bool)
    (hg : f.revertToState t = some (g, b)) :
    Holds G A F s0 (is.filter fun i => decide (i.timestamp < t)) g ∧ g.params = f.params ∧ g.controlQueue = [] ∧
      g.measQueue = [] := by
  unfold revertToState at hg
  rcases lt_or_ge f.state.timestamp t with hst | hst
  · rw [rewindHistory_gt _ _ ((gt_iff _ _).mpr hst)] at hg
    simp only [Option.some.injEq, Prod.mk.injEq] at hg
    obtain ⟨rfl, _⟩ := hg
    have : (is.filter fun i => decide (i.timestamp < t)) = is := by
      rw [List.filter_eq_self]
      intro j hj
      rw [decide_eq_true_eq]
      refine lt_of_le_of_lt ?_ hst
      have hj' : j ∈ f.inputs := by rw [h.inputs]; exact hj
      unfold Filter.inputs at hj'
      obtain ⟨b, hb, rfl⟩ := List.mem_map.mp hj'
      rw [h.stamped b hb]
      have hs := h.sorted
      have hb' := List.mem_of_mem_tail hb
      unfold TimeSorted at hs
      unfold retained at hs hb'
      rw [List.pairwise_append] at hs
      rcases List.mem_append.mp hb' with hb' | hb'
      · exact hs.2.2 b hb' _ (by simp)
      · rw [List.mem_singleton] at hb'; rw [hb']
    rw [this]
    exact ⟨h.queues [] [], rfl, rfl, rfl⟩
  · obtain ⟨bef, aft, s, older, post, e1, e2, e3, e4, e5, e6, e7⟩ := h.split t h0 hst
    rw [e2] at hg
    simp only [Option.some.injEq, Prod.mk.injEq] at hg
    obtain ⟨rfl, _⟩ := hg
    have : (is.filter fun i => decide (i.timestamp < t)) = bef := by
      rw [e1, List.filter_append]
      have a1 : (bef.filter fun i => decide (i.timestamp < t)) = bef := by
        rw [List.filter_eq_self]
        intro j hj; rw [decide_eq_true_eq]; exact e6 j hj
      have a2 : (aft.filter fun i => decide (i.timestamp < t)) = [] := by
        rw [List.filter_eq_nil_iff]
        intro j hj; rw [decide_eq_true_eq, not_lt]; exact e7 j hj
      rw [a1, a2, List.append_nil]
    rw [this]
    exact ⟨e4.queues [] [], rfl, rfl, rfl⟩

/-- a revert to before everything does nothing -/
theorem Holds.revert_refused {is} {f g : Filter T V M K E} (h : Holds G A F s0 is f) (t : T) (h0 : t ≤ s0.timestamp) (b : Bool)
    (hg : f.revertToState t = some (g, b)) : g = f := by
  have hst : t ≤ f.state.timestamp := le_trans h0 (h.le_all _ (by simp [retained]))
  unfold revertToState at hg
  rcases rewindHistory_cases f (some t) with ⟨h1, h2⟩ | ⟨h1, h3, h2⟩ | ⟨h1, front, rest, hh, hb, _⟩
  · rw [gt_iff] at h1; exact absurd h1 (not_lt.mpr hst)
  · rw [h2] at hg
    simp only [Option.some.injEq, Prod.mk.injEq] at hg
    exact hg.1.symm
  · rw [gt_iff, h.front _ _ hh] at hb; exact absurd hb (not_lt.mpr h0)

/-- The state carried through a sequence of calls: the filter holds the run of what the books say. -/
structure Booked (G : V → M → E → Prop) (A : FilterInput T V M K → Prop)
    (F : V → M → T → FilterInput T V M K → Option (V × M)) (s0 : FilterState T V M K) (e : V) (R : M) (W : T)
    (L : Ledger T V M K) (f : Filter T V M K E) : Prop where
  holds : ∃ is, is.Perm (L.applied.map (Given.input e R)) ∧ Holds G A F s0 is f
  start : s0.timestamp = L.start
  window : f.params.historyWindow = W
  controls : f.controlQueue = (L.waiting.filter fun a => !a.isReading).map (Given.input e R)
  readings : f.measQueue = (L.waiting.filter fun a => a.isReading).map (Given.input e R)

theorem queue_perm {e : V} {R : M} (l : List (Given T V M K)) :
    ((l.filter fun a => !a.isReading).map (Given.input e R) ++ (l.filter fun a => a.isReading).map (Given.input e R)).Perm
      (l.map (Given.input e R)) := by
  rw [← List.map_append]
  refine List.Perm.map _ ?_
  refine List.perm_append_comm.trans ?_
  exact List.filter_append_perm (fun a => a.isReading) l

theorem Booked.step (hF : PureStep P G A F) (sort) (hsort : IsTimeSort sort) (R : M)
    (hG : ∀ pc pcc e, G pc pcc e → P.rc e = R) {W : T} {kind : Given T V M K → Prop}
    (hkind : ∀ a, kind a → A (a.input P.emptyV R)) {L : Ledger T V M K}
    {f g : Filter T V M K E} (h : Booked G A F s0 P.emptyV R W L f) (op : Op T V M K E) (hop : op.IsBooked)
    (hL : L.Fits kind W) (hL' : (L.note op).Fits kind W) (hg : f.step P sort op = some g) :
    Booked G A F s0 P.emptyV R W (L.note op) g := by
  obtain ⟨⟨is, hp, hh⟩, hstart, hW, hcq, hmq⟩ := h
  have hpt : ∀ j ∈ is, ∃ a ∈ L.applied, a.input P.emptyV R = j := fun j hj => List.mem_map.mp (hp.mem_iff.mp hj)
  -- handing over one more piece directly
  have direct : ∀ a : Given T V M K, ({ L with applied := L.applied ++ [a] } : Ledger T V M K).Fits kind W →
      insertInput P f (a.input P.emptyV R) = some g →
      Booked G A F s0 P.emptyV R W { L with applied := L.applied ++ [a] } g := by
    intro a hc hins
    have hka := hc a (by simp)
    obtain ⟨bef, aft, e1, e2, e3, _, _⟩ := hh.insert_ties hF (hkind a hka.1)
      (by rw [Given.input_time, hstart]; exact hka.2.1) (by
        intro j hj
        rw [hW, hstart]
        rcases List.mem_cons.mp hj with rfl | hj
        · rw [Given.input_time]; exact hka.2.2
        · obtain ⟨b, hb, rfl⟩ := hpt j hj
          rw [Given.input_time]
          exact (hc b (by simp [hb])).2.2) hins
    obtain ⟨_, q1, q2⟩ := insertInput_frame P f g _ hins
    refine ⟨⟨_, ?_, e2⟩, hstart, by rw [e3]; exact hW, by rw [q1]; exact hcq, by rw [q2]; exact hmq⟩
    rw [List.map_append, List.map_singleton]
    refine (List.perm_middle).trans ?_
    rw [← e1]
    exact ((hp.cons _).trans (List.perm_append_singleton _ _).symm)
  have hrc : P.rc f.env = R := hG _ _ _ hh.glob
  cases op with
  | init x c t => exact hop.elim
  | setParams p => exact hop.elim
  | userModel u => exact hop.elim
  | predictControl u t =>
    refine direct (.control u t) hL' ?_
    rw [← step_inputWith P sort f hh.rewind (.predictControl u t) _ (by rw [hrc]; rfl)]; exact hg
  | correct z c t m =>
    refine direct (.reading z c t m) hL' ?_
    rw [← step_inputWith P sort f hh.rewind (.correct z c t m) _ (by rw [hrc]; rfl)]; exact hg
  | predictTime t =>
    have hcond : (L.start < t ∧ ∀ a ∈ L.applied, a.time < t) ↔ f.state.timestamp < t := by
      constructor
      · rintro ⟨h1, h2⟩
        rw [hh.state_time]
        rcases List.eq_nil_or_concat is with rfl | ⟨l, b, rfl⟩
        · simpa [hstart] using h1
        · rw [List.concat_eq_append, List.getLast?_append_of_ne_nil _ (by simp), List.getLast?_singleton]
          obtain ⟨a, ha, e⟩ := hpt b (by simp)
          show b.timestamp < t
          rw [← e, Given.input_time]; exact h2 a ha
      · intro h1
        refine ⟨lt_of_le_of_lt ?_ h1, ?_⟩
        · rw [← hstart]; exact hh.le_all _ (by simp [retained])
        · intro a ha
          refine lt_of_le_of_lt ?_ h1
          have hm : a.input P.emptyV R ∈ f.inputs := by
            rw [hh.inputs]; exact hp.mem_iff.mpr (List.mem_map.mpr ⟨a, ha, rfl⟩)
          unfold Filter.inputs at hm
          obtain ⟨b, hb, eb⟩ := List.mem_map.mp hm
          have h2 := hh.stamped b hb
          rw [eb, Given.input_time] at h2
          rw [h2]
          have hs := hh.sorted
          have hb' := List.mem_of_mem_tail hb
          unfold TimeSorted at hs
          unfold retained at hs hb'
          rw [List.pairwise_append] at hs
          rcases List.mem_append.mp hb' with hb' | hb'
          · exact hs.2.2 b hb' _ (by simp)
          · rw [List.mem_singleton] at hb'; rw [hb']
    by_cases hc : L.start < t ∧ ∀ a ∈ L.applied, a.time < t
    · have hn : L.note (.predictTime t : Op T V M K E) = { L with applied := L.applied ++ [.advance t] } := if_pos hc
      rw [hn] at hL' ⊢
      refine direct (.advance t) hL' ?_
      have hlt := hcond.mp hc
      have hg' : f.predictTime P t = some g := hg
      unfold predictTime at hg'
      rw [if_pos ((LawfulTime.lt_iff _ _).mpr hlt), hrc] at hg'
      unfold insertInput
      rw [if_neg (by
        rw [LawfulTime.lt_iff, Given.input_time]
        exact not_lt.mpr hlt.le), applyBatch_single]
      unfold Given.input
      dsimp only
      revert hg'
      cases Filter.applyInput P f ⟨P.emptyV, R, t, true, none⟩ with
      | none => simp
      | some q => simp [pruneHistory_pruned]
    · have hn : L.note (.predictTime t : Op T V M K E) = L := if_neg hc
      rw [hn]
      have hg' : f.predictTime P t = some g := hg
      unfold predictTime at hg'
      rw [if_neg (by rw [LawfulTime.lt_iff]; exact fun k => hc (hcond.mpr k)), Option.some.injEq] at hg'
      subst hg'
      exact ⟨⟨is, hp, hh⟩, hstart, hW, hcq, hmq⟩
  | enqueueControl u t =>
    have hg' : f.enqueueControl P u t = g := by simpa [Filter.step] using hg
    subst hg'
    refine ⟨⟨is, hp, hh.queues _ _⟩, hstart, hW, ?_, ?_⟩
    · show f.controlQueue ++ _ = List.map _ (List.filter _ (L.waiting ++ [_]))
      rw [hcq, List.filter_append, List.map_append, hrc]; rfl
    · show f.measQueue = List.map _ (List.filter _ (L.waiting ++ [_]))
      rw [hmq, List.filter_append, List.map_append]; simp [Given.isReading]
  | enqueueMeasurement z c t m =>
    have hg' : f.enqueueMeasurement z c t m = g := by simpa [Filter.step] using hg
    subst hg'
    refine ⟨⟨is, hp, hh.queues _ _⟩, hstart, hW, ?_, ?_⟩
    · show f.controlQueue = List.map _ (List.filter _ (L.waiting ++ [_]))
      rw [hcq, List.filter_append, List.map_append]; simp [Given.isReading]
    · show f.measQueue ++ _ = List.map _ (List.filter _ (L.waiting ++ [_]))
      rw [hmq, List.filter_append, List.map_append]; rfl
  | processQueues =>
    have hqp : (f.controlQueue ++ f.measQueue).Perm (L.waiting.map (Given.input P.emptyV R)) := by
      rw [hcq, hmq]; exact queue_perm _
    have hqm : ∀ i ∈ f.controlQueue ++ f.measQueue, ∃ a ∈ L.waiting, a.input P.emptyV R = i :=
      fun i hi => List.mem_map.mp (hqp.mem_iff.mp hi)
    obtain ⟨ks, k1, k2, k3, k4, k5⟩ := hh.process hF sort hsort (g := g) (by
        intro i hi
        obtain ⟨a, ha, rfl⟩ := hqm i hi
        have := hL a (by simp [ha])
        exact ⟨hkind a this.1, by rw [Given.input_time, hstart]; exact this.2.1⟩) (by
        intro i hi
        have : ∃ a ∈ L.applied ++ L.waiting, a.input P.emptyV R = i := by
          rcases List.mem_append.mp hi with hi | hi
          · obtain ⟨a, ha, e⟩ := hpt i hi; exact ⟨a, by simp [ha], e⟩
          · obtain ⟨a, ha, e⟩ := hqm i hi; exact ⟨a, by simp [ha], e⟩
        obtain ⟨a, ha, rfl⟩ := this
        rw [Given.input_time, hW, hstart]
        exact (hL a ha).2.2) hg
    refine ⟨⟨ks, k1.trans ?_, k2⟩, hstart, by rw [k3]; exact hW, k4, k5⟩
    show List.Perm _ (List.map _ (L.applied ++ L.waiting))
    rw [List.map_append]
    exact hp.append hqp
  | clearControlQueue =>
    have hg' : f.clearControlQueue = g := by simpa [Filter.step] using hg
    subst hg'
    refine ⟨⟨is, hp, hh.queues _ _⟩, hstart, hW, ?_, ?_⟩
    · show [] = List.map _ (List.filter _ (List.filter _ L.waiting))
      rw [List.filter_filter]
      simp
    · show f.measQueue = List.map _ (List.filter _ (List.filter _ L.waiting))
      rw [hmq, List.filter_filter]
      simp
  | clearMeasurementQueue =>
    have hg' : f.clearMeasurementQueue = g := by simpa [Filter.step] using hg
    subst hg'
    refine ⟨⟨is, hp, hh.queues _ _⟩, hstart, hW, ?_, ?_⟩
    · show f.controlQueue = List.map _ (List.filter _ (List.filter _ L.waiting))
      rw [hcq, List.filter_filter]
      simp
    · show [] = List.map _ (List.filter _ (List.filter _ L.waiting))
      rw [List.filter_filter]
      simp
  | revertToState t =>
    have hg' : ∃ b, f.revertToState t = some (g, b) := by
      simp only [Filter.step] at hg
      obtain ⟨⟨a, b⟩, h1, h2⟩ := Option.map_eq_some_iff.mp hg
      exact ⟨b, by rw [h1]; simp only at h2; rw [h2]⟩
    obtain ⟨b, hb⟩ := hg'
    by_cases hc : L.start < t
    · have hn : L.note (.revertToState t : Op T V M K E)
        = { L with applied := L.applied.filter fun a => decide (a.time < t), waiting := [] } := if_pos hc
      rw [hn]
      obtain ⟨r1, r2, r3, r4⟩ := hh.revert t (by rw [hstart]; exact hc) b hb
      refine ⟨⟨_, ?_, r1⟩, hstart, by rw [r2]; exact hW, r3, r4⟩
      refine (hp.filter _).trans ?_
      rw [List.filter_map]
      refine List.Perm.of_eq ?_
      congr 2
      funext a
      simp
    · have hn : L.note (.revertToState t : Op T V M K E) = L := if_neg hc
      rw [hn, hh.revert_refused t (by rw [hstart]; exact not_lt.mp hc) b hb]
      exact ⟨⟨is, hp, hh⟩, hstart, hW, hcq, hmq⟩

theorem Booked.run (hF : PureStep P G A F) (sort) (hsort : IsTimeSort sort) (R : M)
    (hG : ∀ pc pcc e, G pc pcc e → P.rc e = R) {W : T} {kind : Given T V M K → Prop}
    (hkind : ∀ a, kind a → A (a.input P.emptyV R)) (ops : List (Op T V M K E)) (hops : ∀ op ∈ ops, op.IsBooked)
    {L : Ledger T V M K} {f g : Filter T V M K E} (h : Booked G A F s0 P.emptyV R W L f)
    (hL : ∀ n, (L.after (ops.take n)).Fits kind W) (hg : f.run P sort ops = some g) :
    Booked G A F s0 P.emptyV R W (L.after ops) g := by
  induction ops generalizing f L with
  | nil =>
    simp only [Filter.run, Option.some.injEq] at hg
    subst hg; exact h
  | cons op ops ih =>
    obtain ⟨f', h1, h2⟩ := run_cons_some P sort f g op ops hg
    exact ih (fun o ho => hops o (by simp [ho]))
      (h.step hF sort hsort R hG hkind op (hops op (by simp)) (hL 0) (hL 1) h1) (fun n => hL (n + 1)) h2

/-- Direct calls in time order succeed when the pure run does, and hold it. -/
theorem inorder_calls (hF : PureStep P G A F) (sort) (R : M) (hG : ∀ pc pcc e, G pc pcc e → P.rc e = R)
    (js : List (Given T V M K)) {f : Filter T V M K E} (hr : f.params.rewindHistory = true)
    (hg : G f.prevControl f.prevControlCov f.env) (hA : ∀ j ∈ js, A (j.input P.emptyV R))
    (hs : js.Pairwise (fun a b => a.time < b.time)) (ht : ∀ j ∈ js, f.state.timestamp < j.time)
    (hp : (pureRun F f.state.x f.state.covariance f.state.timestamp (js.map (Given.input P.emptyV R))).isSome = true) :
    (f.run P sort (js.map Given.call)).isSome = true := by
  have hcall : ∀ (j : Given T V M K) (f : Filter T V M K E), f.params.rewindHistory = true → P.rc f.env = R →
      f.state.timestamp < j.time → f.step P sort j.call
        = f.step P sort (match j with | .advance t => .predictControl P.emptyV t | a => a.call) := by
    intro j f hr hrc hlt
    cases j with
    | control u t => rfl
    | reading z c t m => rfl
    | advance t =>
      change f.state.timestamp < t at hlt
      show f.predictTime P t = f.predictControl P P.emptyV t
      unfold predictTime predictControl insertInput
      rw [if_pos ((LawfulTime.lt_iff _ _).mpr hlt), hr]
      have : TimeOps.lt t f.state.timestamp = false := (lt_false_iff _ _).mpr (le_of_lt hlt)
      simp only [this, Bool.not_true, Bool.false_eq_true, if_false, applyBatch_single]
      cases Filter.applyInput P f ⟨P.emptyV, P.rc f.env, t, true, none⟩ with
      | none => rfl
      | some q => simp [pruneHistory_pruned]
  induction js generalizing f with
  | nil => rfl
  | cons j js ih =>
    have hs' := List.pairwise_cons.mp hs
    have hrc := hG _ _ _ hg
    have hlt : TimeOps.lt j.time f.state.timestamp = false := (lt_false_iff _ _).mpr (ht j (by simp)).le
    have hstep := hF f.core (j.input P.emptyV R) hg (hA j (by simp))
    rw [List.map_cons, pureRun] at hp
    cases hFv : F f.state.x f.state.covariance f.state.timestamp (j.input P.emptyV R) with
    | none => rw [hFv] at hp; simp at hp
    | some r =>
      rw [hFv, Option.bind_some] at hp
      rw [show F f.core.x f.core.cov f.core.ts (j.input P.emptyV R) = some r from hFv] at hstep
      cases hc : Core.apply P f.core (j.input P.emptyV R) with
      | none => rw [hc] at hstep; exact hstep.elim
      | some c =>
        rw [hc] at hstep
        obtain ⟨h1, h2, h3⟩ := hstep
        have hap : Filter.applyInput P f (j.input P.emptyV R)
            = some { f.withCore c (j.input P.emptyV R) with history := f.pushed } := by
          rw [applyInput_eq, hc]; rfl
        have htime := applyInput_time P f _ (j.input P.emptyV R) hap
        have htime' : c.ts = j.time := by
          have : c.ts = if (j.input P.emptyV R).isControl then (j.input P.emptyV R).timestamp
            else max f.state.timestamp (j.input P.emptyV R).timestamp := htime
          rw [this, Given.input_time]
          split
          · rfl
          · exact max_eq_right (ht j (by simp)).le
        rw [List.map_cons, Filter.run, hcall j f hr hrc (ht j (by simp)),
          step_inputWith P sort f hr _ (j.input P.emptyV R) (by rw [hrc]; cases j <;> rfl)]
        unfold insertInput
        rw [Given.input_time, hlt]
        simp only [Bool.false_eq_true, if_false, applyBatch_single, hap, Option.map_some]
        refine ih (by rw [pruned_params]; exact hr) ?_ (fun k hk => hA k (by simp [hk])) hs'.2 ?_ ?_
        · have e := pruned_core ({ f.withCore c (j.input P.emptyV R) with history := f.pushed } : Filter T V M K E)
          have e1 := congrArg Core.pc e
          have e2 := congrArg Core.pcc e
          have e3 := congrArg Core.env e
          change (pruned _).prevControl = c.pc at e1
          change (pruned _).prevControlCov = c.pcc at e2
          change (pruned _).env = c.env at e3
          rw [e1, e2, e3]; exact h3
        · intro k hk
          rw [pruned_state]
          show c.ts < k.time
          rw [htime']; exact hs'.1 k hk
        · rw [pruned_state]
          show (pureRun F c.x c.cov c.ts (js.map (Given.input P.emptyV R))).isSome = true
          rw [h1, h2, htime']
          rw [Given.input_time] at hp
          exact hp

end Filter
end StateEstimation
