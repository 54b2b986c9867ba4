import Verif.Lemmas.Sim
import Verif.Lemmas.InOrder

/-!
# Out-of-order arrival reduces to a fold over the sorted inputs

Under the assumption that the outcome of an input depends only on the state it is applied to (`Pure`), a filter in rewind mode
always holds the run of its inputs in time order.
-/

set_option linter.unusedSectionVars false

namespace StateEstimation

variable {T V M K E : Type}

section
variable [TimeOps T]

/-- Applying an input of kind `A` to a core whose remembered control and models satisfy `G` is the function `F` of
state and input only, and keeps `G`. -/
def PureStep (P : Plant T V M K E) (G : V → M → E → Prop) (A : FilterInput T V M K → Prop)
    (F : V → M → T → FilterInput T V M K → Option (V × M)) : Prop :=
  ∀ (c : Core T V M E) (i : FilterInput T V M K), G c.pc c.pcc c.env → A i →
    OptRel False (fun (d : Core T V M E) (r : V × M) => d.x = r.1 ∧ d.cov = r.2 ∧ G d.pc d.pcc d.env)
      (c.apply P i) (F c.x c.cov c.ts i)

/-- the pure successor relation between retained states -/
def PureNext (F : V → M → T → FilterInput T V M K → Option (V × M)) (a b : FilterState T V M K) : Prop :=
  F a.x a.covariance a.timestamp b.prevInput = some (b.x, b.covariance)

end

namespace Filter

variable [LinearOrder T] [ExactTime T]

/-- `f` holds the run of `is` from `s0`. -/
structure Holds (G : V → M → E → Prop) (A : FilterInput T V M K → Prop)
    (F : V → M → T → FilterInput T V M K → Option (V × M)) (s0 : FilterState T V M K)
    (is : List (FilterInput T V M K)) (f : Filter T V M K E) : Prop where
  rewind : f.params.rewindHistory = true
  glob : G f.prevControl f.prevControlCov f.env
  kinds : ∀ i ∈ is, A i
  first : f.retained.head? = some s0
  inputs : f.inputs = is
  chain : f.retained.IsChain (PureNext F)
  stamped : ∀ s ∈ f.retained.tail, s.prevInput.timestamp = s.timestamp
  sorted : TimeSorted f.retained

variable {P : Plant T V M K E} {G : V → M → E → Prop} {A : FilterInput T V M K → Prop}
  {F : V → M → T → FilterInput T V M K → Option (V × M)} {s0 : FilterState T V M K}

theorem Holds.applyInput (hF : PureStep P G A F) {is} {f g : Filter T V M K E} (h : Holds G A F s0 is f) {i}
    (hi : A i) (ht : f.state.timestamp ≤ i.timestamp) (hg : Filter.applyInput P f i = some g) :
    Holds G A F s0 (is ++ [i]) g ∧ g.params = f.params ∧ g.state.timestamp = i.timestamp := by
  have htime : g.state.timestamp = i.timestamp := by
    rw [applyInput_time P f g i hg]
    split
    · rfl
    · exact max_eq_right ht
  obtain ⟨c, hc, rfl⟩ := applyInput_some P f g i hg
  have hfull := applyInput_full P f _ i h.rewind hg
  have hp := hF f.core i h.glob hi
  rw [hc] at hp
  cases hFv : F f.core.x f.core.cov f.core.ts i with
  | none => rw [hFv] at hp; exact hp.elim
  | some r =>
    rw [hFv] at hp
    obtain ⟨h1, h2, h3⟩ := hp
    have hne : f.retained ≠ [] := by simp [retained]
    refine ⟨⟨h.rewind, h3, ?_, ?_, ?_, ?_, ?_, ?_⟩, rfl, htime⟩
    · intro j hj
      rcases List.mem_append.mp hj with hj | hj
      · exact h.kinds j hj
      · rw [List.mem_singleton] at hj; rw [hj]; exact hi
    · rw [show (retained _) = f.retained ++ [_] from hfull, List.head?_append_of_ne_nil _ hne]
      exact h.first
    · unfold Filter.inputs
      rw [show (retained _) = f.retained ++ [_] from hfull, List.tail_append_of_ne_nil hne, List.map_append]
      have := h.inputs
      unfold Filter.inputs at this
      rw [this]; rfl
    · rw [show (retained _) = f.retained ++ [_] from hfull, List.isChain_append]
      refine ⟨h.chain, by simp, ?_⟩
      intro x hx y hy
      have hx' : x = f.state := by unfold retained at hx; simpa using hx.symm
      have hy' := (Option.some.inj (by simpa using hy) : _ = y)
      subst hx' hy'
      unfold PureNext
      show F f.core.x f.core.cov f.core.ts i = some (c.x, c.cov)
      rw [hFv, h1, h2]
    · rw [show (retained _) = f.retained ++ [_] from hfull, List.tail_append_of_ne_nil hne]
      intro s hs
      rcases List.mem_append.mp hs with hs | hs
      · exact h.stamped s hs
      · rw [List.mem_singleton] at hs; subst hs; exact htime.symm
    · rw [show (retained _) = f.retained ++ [_] from hfull]
      unfold TimeSorted
      rw [List.pairwise_append]
      refine ⟨h.sorted, by simp, ?_⟩
      intro a ha b hb
      rw [List.mem_singleton] at hb
      subst hb
      have hle : a.timestamp ≤ f.state.timestamp := by
        have hs := h.sorted
        unfold TimeSorted at hs
        unfold retained at hs ha
        rw [List.pairwise_append] at hs
        rcases List.mem_append.mp ha with ha | ha
        · exact hs.2.2 a ha _ (by simp)
        · rw [List.mem_singleton] at ha; rw [ha]
      rw [htime]; exact le_trans hle ht

theorem Holds.applyAll (hF : PureStep P G A F) {is js} {f g : Filter T V M K E} (h : Holds G A F s0 is f)
    (hj : ∀ j ∈ js, A j) (hs : js.Pairwise (fun a b => a.timestamp ≤ b.timestamp))
    (ht : ∀ j ∈ js, f.state.timestamp ≤ j.timestamp) (hg : Filter.applyAll P f js = some g) :
    Holds G A F s0 (is ++ js) g ∧ g.params = f.params := by
  induction js generalizing f is with
  | nil => simp only [Filter.applyAll, Option.some.injEq] at hg; subst hg; simp [h]
  | cons j js ih =>
    rw [Filter.applyAll] at hg
    split at hg
    · simp at hg
    · rename_i f' hf'
      obtain ⟨a, b, c⟩ := h.applyInput hF (hj j (by simp)) (ht j (by simp)) hf'
      have hs' := List.pairwise_cons.mp hs
      have := ih a (fun k hk => hj k (by simp [hk])) hs'.2 (by intro k hk; rw [c]; exact hs'.1 k hk) hg
      rw [List.append_assoc] at this
      exact ⟨this.1, by rw [this.2, b]⟩

theorem Holds.le_all {is} {f : Filter T V M K E} (h : Holds G A F s0 is f) :
    ∀ s ∈ f.retained, s0.timestamp ≤ s.timestamp := by
  have h1 := h.first
  have h2 := h.sorted
  cases hr : f.retained with
  | nil => rw [hr] at h1; simp at h1
  | cons a l =>
    rw [hr] at h1 h2
    simp only [List.head?_cons, Option.some.injEq] at h1
    subst h1
    intro s hs
    rcases List.mem_cons.mp hs with rfl | hs
    · exact le_refl _
    · exact (List.pairwise_cons.mp h2).1 s hs

theorem Holds.pruned_eq {is} {f : Filter T V M K E} (h : Holds G A F s0 is f)
    (hw : TimeOps.sub f.state.timestamp f.params.historyWindow ≤ s0.timestamp) : f.pruned = f := by
  unfold Filter.pruned
  rw [h.rewind, if_pos rfl]
  have : f.history.rdropWhile (fun s => TimeOps.lt s.timestamp (TimeOps.sub f.state.timestamp f.params.historyWindow))
      = f.history := by
    rw [List.rdropWhile_eq_self_iff]
    intro hl
    have hmem : f.history.getLast hl ∈ f.retained := by
      unfold retained; exact List.mem_append_left _ (List.getLast_mem hl)
    have := h.le_all _ hmem
    rw [LawfulTime.lt_iff, not_lt]
    exact le_trans hw this
  rw [this]

/-- where the state sits in time -/
theorem Holds.state_time {is} {f : Filter T V M K E} (h : Holds G A F s0 is f) :
    f.state.timestamp = ((is.getLast?).map FilterInput.timestamp).getD s0.timestamp := by
  have h1 := h.first
  have h2 := h.inputs
  have h3 := h.stamped
  unfold Filter.inputs at h2
  unfold retained at h1 h2 h3
  cases hh : f.history with
  | nil =>
    rw [hh] at h1 h2
    simp only [List.nil_append, List.head?_cons, Option.some.injEq, List.tail_cons, List.map_nil] at h1 h2
    subst h1 h2; simp
  | cons a l =>
    rw [hh] at h2 h3
    simp only [List.cons_append, List.tail_cons, List.map_append, List.map_cons, List.map_nil] at h2 h3
    rw [← h2, List.getLast?_concat]
    simp only [Option.map_some, Option.getD_some]
    exact (h3 f.state (by simp)).symm

/-- Insertion of one input, late or not, possibly with a time stamp that is there already. -/
theorem Holds.insert_ties (hF : PureStep P G A F) {is} {f g : Filter T V M K E} (h : Holds G A F s0 is f) {i}
    (hi : A i) (h0 : s0.timestamp < i.timestamp)
    (hw : ∀ j ∈ i :: is, TimeOps.sub j.timestamp f.params.historyWindow ≤ s0.timestamp)
    (hg : insertInput P f i = some g) :
    ∃ before after, is = before ++ after ∧ Holds G A F s0 (before ++ i :: after) g ∧ g.params = f.params ∧
      (∀ j ∈ before, j.timestamp ≤ i.timestamp) ∧ (∀ j ∈ after, i.timestamp ≤ j.timestamp) := by
  have hwindow : ∀ (js) (g' : Filter T V M K E), Holds G A F s0 js g' → g'.params = f.params →
      (∀ j ∈ js, j ∈ i :: is) → js ≠ [] → g'.pruned = g' := by
    intro js g' hg' hp hjs hne
    refine hg'.pruned_eq ?_
    rw [hg'.state_time, List.getLast?_eq_some_getLast hne, hp]
    exact hw _ (hjs _ (List.getLast_mem hne))
  unfold insertInput at hg
  split at hg
  · rename_i hlt
    rw [LawfulTime.lt_iff] at hlt
    have hsorted := h.sorted
    unfold TimeSorted retained at hsorted
    rw [List.pairwise_append] at hsorted
    cases hh : f.history with
    | nil =>
      have := h.first
      unfold retained at this
      rw [hh] at this
      simp only [List.nil_append, List.head?_cons, Option.some.injEq] at this
      rw [this] at hlt
      exact absurd h0 (not_lt.mpr hlt.le)
    | cons front rest =>
      have hfront : front = s0 := by
        have := h.first
        unfold retained at this
        rw [hh] at this
        simpa using this
      obtain ⟨older, s, newer, e1, e2, e3, e4, e5⟩ :=
        rewindHistory_sorted f hsorted.1 i.timestamp hlt.le front rest hh (by rw [hfront]; exact h0)
      rw [e5] at hg
      dsimp only at hg
      have hret : f.retained = (older ++ [s]) ++ (newer ++ [f.state]) := by
        unfold retained; rw [e1]; simp
      have hinp : is = (older ++ [s]).tail.map FilterState.prevInput
          ++ (newer ++ [f.state]).map FilterState.prevInput := by
        rw [← h.inputs]
        unfold Filter.inputs
        rw [hret, List.tail_append_of_ne_nil (by simp), List.map_append]
      have hst : ∀ b ∈ newer ++ [f.state], b.prevInput.timestamp = b.timestamp := by
        intro b hb
        refine h.stamped b ?_
        rw [hret, List.tail_append_of_ne_nil (by simp)]
        exact List.mem_append_right _ hb
      have hs2 := h.sorted
      rw [hret] at hs2
      have hs3 := List.pairwise_append.mp hs2
      have hafter : ∀ j ∈ (newer ++ [f.state]).map FilterState.prevInput, i.timestamp ≤ j.timestamp := by
        intro j hj
        obtain ⟨b, hb, rfl⟩ := List.mem_map.mp hj
        rw [hst b hb]
        rcases List.mem_append.mp hb with hb | hb
        · exact e4 b hb
        · rw [List.mem_singleton] at hb; rw [hb]; exact hlt.le
      have hold : Holds G A F s0 ((older ++ [s]).tail.map FilterState.prevInput)
          ({ f with state := s, history := older } : Filter T V M K E) := by
        refine ⟨h.rewind, h.glob, ?_, ?_, rfl, ?_, ?_, ?_⟩
        · intro j hj; exact h.kinds j (by rw [hinp]; exact List.mem_append_left _ hj)
        · have := h.first
          rw [hret, List.head?_append_of_ne_nil _ (by simp)] at this
          exact this
        · have := h.chain
          rw [hret] at this
          exact this.left_of_append
        · intro b hb
          refine h.stamped b ?_
          rw [hret, List.tail_append_of_ne_nil (by simp)]
          exact List.mem_append_left _ hb
        · exact hs3.1
      obtain ⟨g', h1, rfl⟩ := applyBatchInputs_some P _ g _ hg
      have hres := hold.applyAll hF (js := i :: (newer ++ [f.state]).map FilterState.prevInput) (by
          intro j hj
          rcases List.mem_cons.mp hj with rfl | hj
          · exact hi
          · exact h.kinds j (by rw [hinp]; exact List.mem_append_right _ hj)) (by
          rw [List.pairwise_cons]
          refine ⟨hafter, ?_⟩
          rw [List.pairwise_map]
          refine hs3.2.1.imp_of_mem ?_
          intro a b ha hb hab
          rw [hst a ha, hst b hb]; exact hab) (by
          intro j hj
          show s.timestamp ≤ j.timestamp
          rcases List.mem_cons.mp hj with rfl | hj
          · exact e3.le
          · exact le_trans e3.le (hafter j hj)) h1
      have hpr : g'.pruned = g' := by
        refine hwindow _ g' hres.1 hres.2 ?_ (by simp)
        intro j hj
        rcases List.mem_append.mp hj with hj | hj
        · exact List.mem_cons_of_mem _ (by rw [hinp]; exact List.mem_append_left _ hj)
        · rcases List.mem_cons.mp hj with rfl | hj
          · exact List.mem_cons_self
          · exact List.mem_cons_of_mem _ (by rw [hinp]; exact List.mem_append_right _ hj)
      rw [hpr]
      refine ⟨_, _, hinp, hres.1, hres.2, ?_, hafter⟩
      intro j hj
      obtain ⟨b, hb, rfl⟩ := List.mem_map.mp hj
      have hb' : b ∈ older ++ [s] := List.mem_of_mem_tail hb
      rw [h.stamped b (by
        rw [hret, List.tail_append_of_ne_nil (by simp)]
        exact List.mem_append_left _ hb)]
      rcases List.mem_append.mp hb' with hb' | hb'
      · exact (e2 b hb').le
      · rw [List.mem_singleton] at hb'; rw [hb']; exact e3.le
  · rename_i hlt
    rw [LawfulTime.lt_iff, not_lt] at hlt
    obtain ⟨g', h1, rfl⟩ := applyBatchInputs_some P _ g _ hg
    have hres := h.applyAll hF (js := [i]) (by simpa using hi) (by simp) (by simpa using hlt) h1
    have hpr : g'.pruned = g' := by
      refine hwindow _ g' hres.1 hres.2 ?_ (by simp)
      intro j hj
      rcases List.mem_append.mp hj with hj | hj
      · exact List.mem_cons_of_mem _ hj
      · rw [List.mem_singleton] at hj; rw [hj]; exact List.mem_cons_self
    rw [hpr]
    refine ⟨is, [], by simp, hres.1, hres.2, ?_, by simp⟩
    intro j hj
    refine le_trans ?_ hlt
    have hj' : j ∈ f.inputs := by rw [h.inputs]; exact hj
    unfold Filter.inputs at hj'
    obtain ⟨b, hb, rfl⟩ := List.mem_map.mp hj'
    rw [h.stamped b hb]
    have hs := h.sorted
    have hb' := List.mem_of_mem_tail hb
    unfold TimeSorted at hs
    unfold retained at hs hb'
    rw [List.pairwise_append] at hs
    rcases List.mem_append.mp hb' with hb' | hb'
    · exact hs.2.2 b hb' _ (by simp)
    · rw [List.mem_singleton] at hb'; rw [hb']

/-- Insertion of one input, late or not. -/
theorem Holds.insert (hF : PureStep P G A F) {is} {f g : Filter T V M K E} (h : Holds G A F s0 is f) {i}
    (hi : A i) (h0 : s0.timestamp < i.timestamp) (hdist : ∀ j ∈ is, j.timestamp ≠ i.timestamp)
    (hw : ∀ j ∈ i :: is, TimeOps.sub j.timestamp f.params.historyWindow ≤ s0.timestamp)
    (hg : insertInput P f i = some g) :
    ∃ before after, is = before ++ after ∧ Holds G A F s0 (before ++ i :: after) g ∧ g.params = f.params ∧
      (∀ j ∈ before, j.timestamp < i.timestamp) ∧ (∀ j ∈ after, i.timestamp < j.timestamp) := by
  obtain ⟨before, after, h1, h2, h3, h4, h5⟩ := h.insert_ties hF hi h0 hw hg
  refine ⟨before, after, h1, h2, h3, fun j hj => lt_of_le_of_ne (h4 j hj) (hdist j ?_),
    fun j hj => lt_of_le_of_ne (h5 j hj) (Ne.symm (hdist j ?_))⟩
  · rw [h1]; exact List.mem_append_left _ hj
  · rw [h1]; exact List.mem_append_right _ hj

/-- A call that supplies an input, together with the input it supplies while `Rc` is `R`. -/
def _root_.StateEstimation.Op.inputWith (R : M) : Op T V M K E → Option (FilterInput T V M K)
  | .predictControl u t => some ⟨u, R, t, true, none⟩
  | .correct z c t m => some ⟨z, c, t, false, m⟩
  | _ => none

theorem step_inputWith (P : Plant T V M K E) (sort) (f : Filter T V M K E) (hr : f.params.rewindHistory = true)
    (op : Op T V M K E) (i) (hop : op.inputWith (P.rc f.env) = some i) :
    f.step P sort op = insertInput P f i := by
  cases op <;> simp only [Op.inputWith, Option.some.injEq, reduceCtorEq] at hop
  · subst hop
    simp only [step, predictControl, hr]
    rfl
  · subst hop
    simp only [step, correct, hr]
    rfl

/-- Any arrival order ends up holding a time-ordered permutation of the inputs. -/
theorem Holds.run (hF : PureStep P G A F) (sort) (R : M) (hG : ∀ pc pcc e, G pc pcc e → P.rc e = R) (W : T)
    (ops : List (Op T V M K E)) (js : List (FilterInput T V M K)) (hjs : ops.map (Op.inputWith R) = js.map some)
    {is} {f g : Filter T V M K E} (h : Holds G A F s0 is f) (hW : f.params.historyWindow = W)
    (hA : ∀ j ∈ js, A j) (h0 : ∀ j ∈ js, s0.timestamp < j.timestamp)
    (hdist : (is ++ js).Pairwise (fun a b => a.timestamp ≠ b.timestamp))
    (hw : ∀ j ∈ is ++ js, TimeOps.sub j.timestamp W ≤ s0.timestamp)
    (hg : f.run P sort ops = some g) :
    ∃ ks, ks.Perm (is ++ js) ∧ Holds G A F s0 ks g := by
  induction ops generalizing f is js with
  | nil =>
    simp only [List.map_nil, List.nil_eq, List.map_eq_nil_iff] at hjs
    subst hjs
    simp only [Filter.run, Option.some.injEq] at hg
    subst hg
    exact ⟨is, by simp, h⟩
  | cons op ops ih =>
    cases js with
    | nil => simp at hjs
    | cons j js =>
      simp only [List.map_cons, List.cons.injEq] at hjs
      obtain ⟨f', h1, h2⟩ := run_cons_some P sort f g op ops hg
      rw [step_inputWith P sort f h.rewind op j (by rw [hG _ _ _ h.glob]; exact hjs.1)] at h1
      have hd := List.pairwise_append.mp hdist
      obtain ⟨bef, aft, e1, e2, e3, _, _⟩ := h.insert hF (hA j (by simp)) (h0 j (by simp))
        (by intro k hk; exact hd.2.2 k hk j (by simp))
        (by
          intro k hk
          rw [hW]
          refine hw k ?_
          rcases List.mem_cons.mp hk with rfl | hk
          · simp
          · simp [hk]) h1
      have hperm : ((bef ++ j :: aft) ++ js).Perm (is ++ j :: js) := by
        rw [e1, List.append_assoc, List.append_assoc]
        refine List.Perm.append_left bef ?_
        rw [List.cons_append]
        exact (List.perm_middle (a := j) (l₁ := aft) (l₂ := js)).symm
      obtain ⟨ks, hk1, hk2⟩ := ih js hjs.2 e2 (by rw [e3]; exact hW) (fun k hk => hA k (by simp [hk]))
        (fun k hk => h0 k (by simp [hk])) (hperm.symm.pairwise hdist (fun {a b} hab => Ne.symm hab))
        (fun k hk => hw k (hperm.mem_iff.mp hk)) h2
      exact ⟨ks, hk1.trans hperm, hk2⟩

/-- the inputs of a held run are in time order -/
theorem Holds.inputs_sorted {is} {f : Filter T V M K E} (h : Holds G A F s0 is f) :
    is.Pairwise (fun a b => a.timestamp ≤ b.timestamp) := by
  rw [← h.inputs]
  unfold Filter.inputs
  rw [List.pairwise_map]
  have : f.retained.tail.Pairwise (fun a b => a.timestamp ≤ b.timestamp) :=
    h.sorted.sublist (List.tail_sublist _)
  refine this.imp_of_mem ?_
  intro a b ha hb hab
  rw [h.stamped a ha, h.stamped b hb]; exact hab

/-- A held run determines the current state; another filter that can be fed the same inputs in order gets there. -/
theorem Holds.determined {is} {f g : Filter T V M K E} (h : Holds G A F s0 is f) (h' : Holds G A F s0 is g) :
    f.retained.map (fun s => (s.x, s.covariance, s.timestamp))
      = g.retained.map (fun s => (s.x, s.covariance, s.timestamp)) := by
  have key : ∀ (l l' : List (FilterState T V M K)) (a a' : FilterState T V M K),
      (a.x, a.covariance, a.timestamp) = (a'.x, a'.covariance, a'.timestamp) →
      (a :: l).IsChain (PureNext F) → (a' :: l').IsChain (PureNext F) →
      l.map FilterState.prevInput = l'.map FilterState.prevInput →
      (∀ s ∈ l, s.prevInput.timestamp = s.timestamp) → (∀ s ∈ l', s.prevInput.timestamp = s.timestamp) →
      l.map (fun s => (s.x, s.covariance, s.timestamp)) = l'.map (fun s => (s.x, s.covariance, s.timestamp)) := by
    intro l
    induction l with
    | nil =>
      intro l' a a' _ _ _ h4 _ _
      cases l' with
      | nil => rfl
      | cons b l' => simp at h4
    | cons b l ih =>
      intro l' a a' h1 h2 h3 h4 h5 h6
      cases l' with
      | nil => simp at h4
      | cons b' l' =>
        rw [List.isChain_cons_cons] at h2 h3
        simp only [List.map_cons, List.cons.injEq] at h4
        simp only [Prod.mk.injEq] at h1
        have e1 := h2.1
        have e2 := h3.1
        unfold PureNext at e1 e2
        rw [h1.1, h1.2.1, h1.2.2, h4.1, e2, Option.some.injEq, Prod.mk.injEq] at e1
        have ets : b.timestamp = b'.timestamp := by
          rw [← h5 b (by simp), ← h6 b' (by simp), h4.1]
        rw [List.map_cons, List.map_cons, ih l' b b' (by rw [e1.1, e1.2, ets]) h2.2 h3.2 h4.2
          (fun s hs => h5 s (by simp [hs])) (fun s hs => h6 s (by simp [hs])), e1.1, e1.2, ets]
  have a1 := h.first
  have a2 := h'.first
  have i1 := h.inputs
  have i2 := h'.inputs
  have c1 := h.chain
  have c2 := h'.chain
  have s1 := h.stamped
  have s2 := h'.stamped
  unfold Filter.inputs at i1 i2
  cases hf : f.retained with
  | nil => simp [retained] at hf
  | cons a l =>
    cases hg : g.retained with
    | nil => simp [retained] at hg
    | cons a' l' =>
      rw [hf] at a1 i1 c1 s1
      rw [hg] at a2 i2 c2 s2
      simp only [List.head?_cons, Option.some.injEq] at a1 a2
      subst a1
      subst a2
      rw [List.map_cons, List.map_cons, key l l' a' a' rfl c1 c2 (i1.trans i2.symm) s1 s2]

theorem Holds.same_estimate {is} {f g : Filter T V M K E} (h : Holds G A F s0 is f) (h' : Holds G A F s0 is g) :
    f.getState = g.getState ∧ f.getCovariance = g.getCovariance ∧ f.getStateTime = g.getStateTime := by
  have := h.determined h'
  unfold retained at this
  rw [List.map_append, List.map_append] at this
  have := (List.append_inj' this rfl).2
  simp only [List.map_cons, List.map_nil, List.cons.injEq, Prod.mk.injEq, and_true] at this
  exact this

/-- the pure run of a list of inputs -/
def pureRun (F : V → M → T → FilterInput T V M K → Option (V × M)) :
    V → M → T → List (FilterInput T V M K) → Option (V × M)
  | x, p, _, [] => some (x, p)
  | x, p, t, i :: is => (F x p t i).bind fun r => pureRun F r.1 r.2 i.timestamp is

theorem Holds.pureRun_some {is} {f : Filter T V M K E} (h : Holds G A F s0 is f) :
    (pureRun F s0.x s0.covariance s0.timestamp is).isSome = true := by
  have key : ∀ (l : List (FilterState T V M K)) (a : FilterState T V M K), (a :: l).IsChain (PureNext F) →
      (∀ s ∈ l, s.prevInput.timestamp = s.timestamp) →
      (pureRun F a.x a.covariance a.timestamp (l.map FilterState.prevInput)).isSome = true := by
    intro l
    induction l with
    | nil => intro a _ _; rfl
    | cons b l ih =>
      intro a h1 h2
      rw [List.isChain_cons_cons] at h1
      rw [List.map_cons, pureRun, h1.1, Option.bind_some, h2 b (by simp)]
      exact ih b h1.2 (fun s hs => h2 s (by simp [hs]))
  have a1 := h.first
  have i1 := h.inputs
  have c1 := h.chain
  have s1 := h.stamped
  unfold Filter.inputs at i1
  cases hf : f.retained with
  | nil => simp [retained] at hf
  | cons a l =>
    rw [hf] at a1 i1 c1 s1
    simp only [List.head?_cons, Option.some.injEq, List.tail_cons] at a1 i1
    subst a1
    rw [← i1]
    exact key l a c1 s1

/-- Feeding inputs in order succeeds when the pure run does. -/
theorem Holds.inorder_succeeds (hF : PureStep P G A F) (sort) (R : M) (hG : ∀ pc pcc e, G pc pcc e → P.rc e = R)
    (ops : List (Op T V M K E)) (js : List (FilterInput T V M K)) (hjs : ops.map (Op.inputWith R) = js.map some)
    {f : Filter T V M K E} (hr : f.params.rewindHistory = true) (hg : G f.prevControl f.prevControlCov f.env)
    (hA : ∀ j ∈ js, A j) (hs : js.Pairwise (fun a b => a.timestamp ≤ b.timestamp))
    (ht : ∀ j ∈ js, f.state.timestamp ≤ j.timestamp)
    (hp : (pureRun F f.state.x f.state.covariance f.state.timestamp js).isSome = true) :
    (f.run P sort ops).isSome = true := by
  induction ops generalizing f js with
  | nil => rfl
  | cons op ops ih =>
    cases js with
    | nil => simp at hjs
    | cons j js =>
      simp only [List.map_cons, List.cons.injEq] at hjs
      have hs' := List.pairwise_cons.mp hs
      have hlt : TimeOps.lt j.timestamp f.state.timestamp = false := (lt_false_iff _ _).mpr (ht j (by simp))
      have hstep := hF f.core j hg (hA j (by simp))
      rw [pureRun] at hp
      cases hFv : F f.state.x f.state.covariance f.state.timestamp j with
      | none => rw [hFv] at hp; simp at hp
      | some r =>
        rw [hFv, Option.bind_some] at hp
        rw [show F f.core.x f.core.cov f.core.ts j = some r from hFv] at hstep
        cases hc : Core.apply P f.core j with
        | none => rw [hc] at hstep; exact hstep.elim
        | some c =>
          rw [hc] at hstep
          obtain ⟨h1, h2, h3⟩ := hstep
          have hap : Filter.applyInput P f j = some { f.withCore c j with history := f.pushed } := by
            rw [applyInput_eq, hc]; rfl
          have htime := applyInput_time P f _ j hap
          have htime' : c.ts = j.timestamp := by
            have : c.ts = if j.isControl then j.timestamp else max f.state.timestamp j.timestamp := htime
            rw [this]
            split
            · rfl
            · exact max_eq_right (ht j (by simp))
          rw [Filter.run, step_inputWith P sort f hr op j (by rw [hG _ _ _ hg]; exact hjs.1)]
          unfold insertInput
          rw [hlt]
          simp only [Bool.false_eq_true, if_false, applyBatch_single, hap, Option.map_some]
          refine ih js hjs.2 (by rw [pruned_params]; exact hr) ?_ (fun k hk => hA k (by simp [hk])) hs'.2 ?_ ?_
          · have e := pruned_core ({ f.withCore c j with history := f.pushed } : Filter T V M K E)
            have e1 : (pruned ({ f.withCore c j with history := f.pushed } : Filter T V M K E)).prevControl = c.pc :=
              congrArg Core.pc e
            have e2 : (pruned ({ f.withCore c j with history := f.pushed } : Filter T V M K E)).prevControlCov = c.pcc :=
              congrArg Core.pcc e
            have e3 : (pruned ({ f.withCore c j with history := f.pushed } : Filter T V M K E)).env = c.env :=
              congrArg Core.env e
            rw [e1, e2, e3]; exact h3
          · intro k hk
            rw [pruned_state]
            show c.ts ≤ k.timestamp
            rw [htime']; exact hs'.1 k hk
          · rw [pruned_state]
            show (pureRun F c.x c.cov c.ts js).isSome = true
            rw [h1, h2, htime']; exact hp

end Filter
end StateEstimation
