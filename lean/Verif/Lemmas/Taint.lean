import Verif.Lemmas.PlantInv
import Verif.Lemmas.Queues
import Verif.Lemmas.TimeMap
import Verif.Lemmas.InOrder
import Verif.Spec.Fed

/-!
# Damage that inputs do to the estimate and that never heals

`Bad` is a property of the state that applying an input creates exactly when the state was bad before or the input is bad
(`Taint`).  Through rewinding, re-applying and pruning the current state is bad exactly when some input that counts is.
-/

set_option linter.unusedSectionVars false

namespace StateEstimation

variable {T V M K E : Type} [LinearOrder T] [ExactTime T]
variable {P : Plant T V M K E} {tot : Prop} {S : V → M → Prop} {Ge : E → Prop} {U : V → Prop}
  {R : M → Prop} {Z : V → M → K → Prop}

/-- Applying an input leaves a bad state exactly when state or input was bad. -/
def Taint (P : Plant T V M K E) (S : V → M → Prop) (Ge : E → Prop) (U : V → Prop)
    (R : M → Prop) (Z : V → M → K → Prop) (Bad : V → Prop) (BadIn : FilterInput T V M K → Prop) : Prop :=
  ∀ (c : Core T V M E) (i : FilterInput T V M K) (d : Core T V M E), CoreOk P S Ge U R c → InputOk P U R Z i →
    c.apply P i = some d → (Bad d.x ↔ Bad c.x ∨ BadIn i)

/-- consecutive retained states -/
def TaintLink (Bad : V → Prop) (BadIn : FilterInput T V M K → Prop) (a b : FilterState T V M K) : Prop :=
  Bad b.x ↔ Bad a.x ∨ BadIn b.prevInput

variable {Bad : V → Prop} {BadIn : FilterInput T V M K → Prop}

/-- invariant, without the order of the history -/
structure TaintPre (h : PlantInv P tot S Ge U R Z) (Bad : V → Prop) (BadIn : FilterInput T V M K → Prop)
    (f : Filter T V M K E) : Prop where
  ok : h.sim.RF f f
  on : f.params.rewindHistory = true
  chain : f.full.IsChain (TaintLink Bad BadIn)

theorem TaintPre.coreOk {h : PlantInv P tot S Ge U R Z} {f : Filter T V M K E} (hf : TaintPre h Bad BadIn f) :
    CoreOk P S Ge U R f.core :=
  ⟨hf.ok.state.2.2.2, hf.ok.glob.2.2.2.1, hf.ok.glob.2.2.2.2⟩

theorem optRel_self {α : Type} {Rel : α → α → Prop} {o : Option α} {a : α} (h : OptRel tot Rel o o) (e : o = some a) :
    Rel a a := by subst e; exact h

theorem TaintPre.applyInput {h : PlantInv P tot S Ge U R Z} (ht : Taint P S Ge U R Z Bad BadIn) {f g : Filter T V M K E}
    (hf : TaintPre h Bad BadIn f) {i : FilterInput T V M K} (hi : InputOk P U R Z i) (hg : f.applyInput P i = some g) :
    TaintPre h Bad BadIn g ∧ (Bad g.state.x ↔ Bad f.state.x ∨ BadIn i) := by
  obtain ⟨c, hc, he⟩ := Filter.applyInput_some P f g i hg
  have hb : Bad g.state.x ↔ Bad f.state.x ∨ BadIn i := by
    subst he; exact ht f.core i c hf.coreOk hi hc
  have hp : g.state.prevInput = i := by subst he; rfl
  refine ⟨⟨optRel_self (hf.ok.applyInput (i := i) (j := i) ⟨rfl, hi⟩) hg, by subst he; exact hf.on, ?_⟩, hb⟩
  rw [Filter.applyInput_full P f g i hf.on hg, List.isChain_append]
  refine ⟨hf.chain, by simp, ?_⟩
  intro x hx y hy
  have hx' : x = f.state := by unfold Filter.full Filter.retained at hx; simpa using hx.symm
  have hy' : y = g.state := by simpa using hy.symm
  subst hx' hy'
  unfold TaintLink
  rw [hp]; exact hb

theorem TaintPre.applyAll {h : PlantInv P tot S Ge U R Z} (ht : Taint P S Ge U R Z Bad BadIn) {f g : Filter T V M K E}
    (hf : TaintPre h Bad BadIn f) {is : List (FilterInput T V M K)} (hi : ∀ i ∈ is, InputOk P U R Z i)
    (hg : f.applyAll P is = some g) :
    TaintPre h Bad BadIn g ∧ (Bad g.state.x ↔ Bad f.state.x ∨ ∃ i ∈ is, BadIn i) := by
  induction is generalizing f with
  | nil => simp only [Filter.applyAll, Option.some.injEq] at hg; subst hg; exact ⟨hf, by simp⟩
  | cons i is ih =>
    rw [Filter.applyAll] at hg
    split at hg
    · simp at hg
    · rename_i f' h'
      obtain ⟨a, b⟩ := hf.applyInput ht (hi i (by simp)) h'
      obtain ⟨c, d⟩ := ih a (fun j hj => hi j (by simp [hj])) hg
      refine ⟨c, ?_⟩
      rw [d, b, or_assoc]
      simp only [List.mem_cons, exists_eq_or_imp]

theorem TaintPre.pruned {h : PlantInv P tot S Ge U R Z} {f : Filter T V M K E}
    (hf : TaintPre h Bad BadIn f) (hi : Filter.RewindInv P f) : TaintPre h Bad BadIn f.pruned := by
  refine ⟨hf.ok.pruned, by rw [Filter.pruned_params]; exact hf.on, ?_⟩
  rcases Filter.pruned_history_sorted f (hi.history_le P f).1 with h1 | h1
  · have : f.pruned.full = f.full := by simp [Filter.full, Filter.retained, h1]
    rw [this]; exact hf.chain
  · have : f.pruned.full = [f.state] := by simp [Filter.full, Filter.retained, h1]
    rw [this]; simp

/-- invariant of a filter with rewinding -/
structure TaintInv (h : PlantInv P tot S Ge U R Z) (Bad : V → Prop) (BadIn : FilterInput T V M K → Prop)
    (f : Filter T V M K E) : Prop where
  pre : TaintPre h Bad BadIn f
  inv : Filter.RewindInv P f

theorem TaintInv.batch {h : PlantInv P tot S Ge U R Z} (ht : Taint P S Ge U R Z Bad BadIn) {f g : Filter T V M K E}
    (hf : TaintInv h Bad BadIn f) {is : List (FilterInput T V M K)} (hi : ∀ i ∈ is, InputOk P U R Z i)
    (hs : is.Pairwise (fun a b => a.timestamp ≤ b.timestamp)) (ho : ∀ i ∈ is, f.state.timestamp ≤ i.timestamp)
    (hg : f.applyBatchInputs P is = some g) :
    TaintInv h Bad BadIn g ∧ (Bad g.state.x ↔ Bad f.state.x ∨ ∃ i ∈ is, BadIn i) := by
  obtain ⟨g', h1, rfl⟩ := Filter.applyBatchInputs_some P f g is hg
  obtain ⟨a, b⟩ := hf.pre.applyAll ht hi h1
  obtain ⟨c, _, _⟩ := Filter.applyAll_inv P f g' is hf.pre.on hf.inv hs ho h1
  exact ⟨⟨a.pruned c, Filter.pruned_inv P g' c⟩, by rw [Filter.pruned_state]; exact b⟩

/-- along the retained states -/
theorem chain_bad {l : List (FilterState T V M K)} {a b : FilterState T V M K}
    (hc : (a :: l).IsChain (TaintLink Bad BadIn)) (hb : (a :: l).getLast? = some b) :
    Bad b.x ↔ Bad a.x ∨ ∃ i ∈ l.map FilterState.prevInput, BadIn i := by
  induction l generalizing a with
  | nil => simp at hb; subst hb; simp
  | cons s l ih =>
    rw [List.isChain_cons_cons] at hc
    rw [List.getLast?_cons_cons] at hb
    have h1 : Bad s.x ↔ Bad a.x ∨ BadIn s.prevInput := hc.1
    rw [ih hc.2 hb, h1, or_assoc]
    simp only [List.map_cons, List.mem_cons, exists_eq_or_imp]

theorem TaintInv.split {h : PlantInv P tot S Ge U R Z} {f : Filter T V M K E} (hf : TaintInv h Bad BadIn f)
    {older newer : List (FilterState T V M K)} {base : FilterState T V M K} (e : f.retained = older ++ base :: newer)
    (f' : Filter T V M K E) (e' : f'.retained = older ++ [base]) (he : f'.env = f.env) (hpc : f'.prevControl = f.prevControl)
    (hpcc : f'.prevControlCov = f.prevControlCov) (hp : f'.params = f.params) (hq : f'.controlQueue.Sublist f.controlQueue)
    (hm : f'.measQueue.Sublist f.measQueue) :
    TaintInv h Bad BadIn f' ∧ (∀ i ∈ newer.map FilterState.prevInput, InputOk P U R Z i) ∧
      (Bad f.state.x ↔ Bad base.x ∨ ∃ i ∈ newer.map FilterState.prevInput, BadIn i) := by
  have hpre : f'.full <+: f.full := by
    show f'.retained <+: f.retained
    rw [e, e']; exact ⟨newer, by simp⟩
  have hal := hf.pre.ok.ret
  refine ⟨⟨⟨⟨rfl, ?_, ?_, ?_, ?_⟩, by rw [hp]; exact hf.pre.on, ?_⟩, hf.inv.of_prefix P f f' hpre⟩, ?_, ?_⟩
  · rw [he, hpc, hpcc]; exact hf.pre.ok.glob
  · have := SimRel.Aligned.take hal (older.length + 1)
    have e2 : f.retained.take (older.length + 1) = f'.retained := by
      rw [e, e']
      rw [show older ++ base :: newer = (older ++ [base]) ++ newer by simp]
      rw [List.take_append_of_le_length (by simp), List.take_of_length_le (by simp)]
    rw [e2] at this
    exact this
  · have := hf.pre.ok.cq
    exact List.forall₂_same.mpr (fun i hi => List.forall₂_same.mp this i (hq.subset hi))
  · have := hf.pre.ok.mq
    exact List.forall₂_same.mpr (fun i hi => List.forall₂_same.mp this i (hm.subset hi))
  · obtain ⟨r, hr⟩ := hpre
    have := hf.pre.chain
    rw [← hr] at this
    exact this.left_of_append
  · intro i hi
    obtain ⟨s, hs, rfl⟩ := List.mem_map.mp hi
    have h2 := List.forall₂_same.mp hal.2 s (by
      rw [e]
      cases older with
      | nil => exact hs
      | cons o older => exact List.mem_append_right _ (List.mem_cons_of_mem _ hs))
    exact h2.2
  · have hc : (base :: newer).IsChain (TaintLink Bad BadIn) := by
      have := hf.pre.chain
      rw [show f.full = f.retained from rfl, e] at this
      exact this.right_of_append
    refine chain_bad hc ?_
    have : f.retained.getLast? = some f.state := by unfold Filter.retained; simp
    rw [e, List.getLast?_append] at this
    rw [← this]
    cases hl : (base :: newer).getLast? with
    | none => simp at hl
    | some b => rfl

/-- one direct input in rewind mode: ignored, or the state is bad iff it was or the input is -/
theorem TaintInv.insertInput {h : PlantInv P tot S Ge U R Z} (ht : Taint P S Ge U R Z Bad BadIn) {f g : Filter T V M K E}
    (hf : TaintInv h Bad BadIn f) {inp : FilterInput T V M K} (hi : InputOk P U R Z inp) (hg : f.insertInput P inp = some g) :
    TaintInv h Bad BadIn g ∧ (g = f ∧ inp.timestamp < f.state.timestamp ∨ (Bad g.state.x ↔ Bad f.state.x ∨ BadIn inp)) := by
  unfold Filter.insertInput at hg
  split at hg
  · rename_i hlt
    rw [LawfulTime.lt_iff] at hlt
    rcases Filter.rewindHistory_cases f (some inp.timestamp) with ⟨h1, _⟩ | ⟨h1, h2, h3⟩ | ⟨h1, front, rest, hh, hb, _⟩
    · rw [Filter.gt_iff] at h1; exact absurd hlt (not_lt.mpr h1.le)
    · rw [h3] at hg
      simp only [Option.some.injEq] at hg
      subst hg
      exact ⟨hf, Or.inl ⟨rfl, hlt⟩⟩
    · rw [Filter.gt_iff] at hb
      obtain ⟨older, s, newer, e1, e2, e3, e4, e5, e6, e7, e8⟩ :=
        Filter.rewindHistory_inv P f hf.inv inp.timestamp hlt.le front rest hh hb
      rw [e5] at hg
      dsimp only at hg
      obtain ⟨a, b, c⟩ := hf.split (older := older) (base := s) (newer := newer ++ [f.state])
        (by unfold Filter.retained; rw [e1]; simp) { f with state := s, history := older } rfl rfl rfl rfl rfl
        (List.Sublist.refl _) (List.Sublist.refl _)
      obtain ⟨d, e⟩ := a.batch ht (is := inp :: (newer ++ [f.state]).map FilterState.prevInput) (by
          intro j hj
          rcases List.mem_cons.mp hj with rfl | hj
          · exact hi
          · exact b j hj) (by
          rw [List.pairwise_cons]
          constructor
          · intro a ha
            obtain ⟨b, hb, rfl⟩ := List.mem_map.mp ha
            rw [e7 b hb]
            rcases List.mem_append.mp hb with hb | hb
            · exact e4 b hb
            · rw [List.mem_singleton] at hb; rw [hb]; exact hlt.le
          · rw [List.pairwise_map]
            refine List.Pairwise.imp_of_mem ?_ e8
            intro a b ha hb hab
            rw [e7 a ha, e7 b hb]; exact hab) (by
          intro j hj
          show s.timestamp ≤ j.timestamp
          rcases List.mem_cons.mp hj with rfl | hj
          · exact e3.le
          · obtain ⟨b, hb, rfl⟩ := List.mem_map.mp hj
            rw [e7 b hb]
            rcases List.mem_append.mp hb with hb | hb
            · exact e3.le.trans (e4 b hb)
            · rw [List.mem_singleton] at hb; rw [hb]; exact e3.le.trans hlt.le) hg
      refine ⟨d, Or.inr ?_⟩
      rw [e, c]
      generalize (newer ++ [f.state]).map FilterState.prevInput = l
      simp only [List.mem_cons, exists_eq_or_imp]
      generalize (∃ a ∈ l, BadIn a) = q
      clear * -
      tauto
  · rename_i hlt
    have hle : f.state.timestamp ≤ inp.timestamp := (Filter.lt_false_iff _ _).mp (by simpa using hlt)
    obtain ⟨d, e⟩ := hf.batch ht (is := [inp]) (by simpa using hi) (by simp) (by simpa using hle) hg
    exact ⟨d, Or.inr (by simpa using e)⟩

/-- the queues: the state is bad iff it was or one of the queued inputs that are not too old is -/
theorem TaintInv.processQueues {h : PlantInv P tot S Ge U R Z} (ht : Taint P S Ge U R Z Bad BadIn)
    {sort : List (FilterInput T V M K) → List (FilterInput T V M K)} (hsort : IsTimeSort sort) {f g : Filter T V M K E}
    (hf : TaintInv h Bad BadIn f) (hq : f.QueuesPlaceable) (hg : f.processQueues P sort = some g) :
    TaintInv h Bad BadIn g ∧
      (Bad g.state.x ↔ Bad f.state.x ∨ ∃ i ∈ f.pruneQueue f.controlQueue ++ f.pruneQueue f.measQueue, BadIn i) := by
  obtain ⟨older, base, newer, g', e1, e2, e3, rfl, _⟩ :=
    Filter.processQueues_shape P sort f g hf.pre.on hf.inv hq hg
  have hsub : ∀ q : List (FilterInput T V M K), (f.pruneQueue q).Sublist q := by
    intro q
    unfold Filter.pruneQueue
    split
    · exact List.filter_sublist
    · exact List.Sublist.refl _
  obtain ⟨a, b, c⟩ := hf.split e1
    { f with
        state := base
        history := older
        controlQueue := f.pruneQueue f.controlQueue
        measQueue := f.pruneQueue f.measQueue } rfl rfl rfl rfl rfl (hsub _) (hsub _)
  have hcq : ∀ i ∈ f.pruneQueue f.controlQueue, InputOk P U R Z i := fun i hi =>
    (List.forall₂_same.mp hf.pre.ok.cq i ((hsub _).subset hi)).2
  have hmq : ∀ i ∈ f.pruneQueue f.measQueue, InputOk P U R Z i := fun i hi =>
    (List.forall₂_same.mp hf.pre.ok.mq i ((hsub _).subset hi)).2
  obtain ⟨d, e⟩ := a.batch ht (fun i hi => by
      rcases List.mem_append.mp ((hsort _).1.mem_iff.mp hi) with hi | hi
      · rcases List.mem_append.mp hi with hi | hi
        · exact b i hi
        · exact hcq i hi
      · exact hmq i hi)
    ((hsort _).2.imp (fun hab => (Filter.lt_false_iff _ _).mp hab))
    (fun i hi => e2 i ((hsort _).1.mem_iff.mp hi)) e3
  refine ⟨⟨⟨⟨d.pre.ok.params, d.pre.ok.glob, d.pre.ok.ret, List.Forall₂.nil, List.Forall₂.nil⟩, d.pre.on, d.pre.chain⟩,
    d.inv.congr P _ _ rfl⟩, ?_⟩
  show Bad g'.state.x ↔ _
  rw [e, c]
  have : (∃ i ∈ sort (newer.map FilterState.prevInput ++ f.pruneQueue f.controlQueue ++ f.pruneQueue f.measQueue), BadIn i) ↔
      (∃ i ∈ newer.map FilterState.prevInput, BadIn i) ∨
        ∃ i ∈ f.pruneQueue f.controlQueue ++ f.pruneQueue f.measQueue, BadIn i := by
    constructor
    · rintro ⟨i, hi, hb⟩
      have hi := (hsort _).1.mem_iff.mp hi
      rw [List.append_assoc] at hi
      rcases List.mem_append.mp hi with hi | hi
      · exact Or.inl ⟨i, hi, hb⟩
      · exact Or.inr ⟨i, hi, hb⟩
    · rintro (⟨i, hi, hb⟩ | ⟨i, hi, hb⟩)
      · exact ⟨i, (hsort _).1.mem_iff.mpr (by rw [List.append_assoc]; exact List.mem_append_left _ hi), hb⟩
      · exact ⟨i, (hsort _).1.mem_iff.mpr (by rw [List.append_assoc]; exact List.mem_append_right _ hi), hb⟩
  rw [this, or_assoc]

/-! ### Any number of calls -/

theorem InputOk.control (h : PlantInv P tot S Ge U R Z) {u : V} (hu : P.vsize u > 0 → U u) {f : Filter T V M K E}
    (hf : h.sim.RF f f) (t : T) : InputOk P U R Z (controlInput P f u t) :=
  (h.sim.ctrl _ _ _ _ _ _ u u t hf.glob ⟨rfl, hu⟩).2

theorem sort_self (h : PlantInv P tot S Ge U R Z) {sort : List (FilterInput T V M K) → List (FilterInput T V M K)}
    (hsort : IsTimeSort sort) : ∀ l l', List.Forall₂ h.sim.RI l l' → List.Forall₂ h.sim.RI (sort l) (sort l') := by
  intro l l' hl
  have key : ∀ l l' : List (FilterInput T V M K), List.Forall₂ h.sim.RI l l' → l = l' ∧ ∀ i ∈ l, InputOk P U R Z i := by
    intro l l' hl
    induction hl with
    | nil => simp
    | cons a _ ih =>
      obtain ⟨rfl, ha⟩ := a
      refine ⟨by rw [ih.1], ?_⟩
      intro i hi
      rcases List.mem_cons.mp hi with rfl | hi
      · exact ha
      · exact ih.2 i hi
  obtain ⟨rfl, hl2⟩ := key l l' hl
  exact List.forall₂_same.mpr (fun i hi => ⟨rfl, hl2 i ((hsort l).1.mem_iff.mp hi)⟩)

/-- one data-feeding call with rewinding on -/
theorem TaintInv.step {h : PlantInv P tot S Ge U R Z} (ht : Taint P S Ge U R Z Bad BadIn) (hctl : ∀ i, BadIn i → i.isControl = false)
    {sort : List (FilterInput T V M K) → List (FilterInput T V M K)} (hsort : IsTimeSort sort) {f g : Filter T V M K E}
    (hf : TaintInv h Bad BadIn f) {op : Op T V M K E} (hop : OpOk P tot S Ge U Z op) (hfeed : op.FeedsOn)
    (hg : f.step P sort op = some g) : TaintInv h Bad BadIn g ∧ (Bad f.state.x → Bad g.state.x) := by
  have hok : h.sim.RF g g := optRel_self (hf.pre.ok.step (sort_self h hsort) (h.rop op hop)) hg
  cases op with
  | init | revertToState | setParams | processQueues => exact absurd hfeed (by simp [Op.FeedsOn])
  | predictTime t =>
    change f.predictTime P t = some g at hg
    by_cases hlt : TimeOps.lt f.state.timestamp t = true
    · have hi : InputOk P U R Z { data := P.emptyV, covariance := P.rc f.env, timestamp := t, isControl := true, model := none } :=
        InputOk.control h (fun hv => absurd hv (by rw [h.empty]; exact Nat.lt_irrefl 0)) hf.pre.ok t
      have hb : f.applyBatchInputs P
          [{ data := P.emptyV, covariance := P.rc f.env, timestamp := t, isControl := true, model := none }] = some g := by
        rw [Filter.applyBatch_single, ← hg]
        exact (Filter.predictTime_future P f t ((LawfulTime.lt_iff _ _).mp hlt)).symm
      obtain ⟨a, b⟩ := hf.batch ht (by simpa using hi) (by simp)
        (by simpa using ((LawfulTime.lt_iff _ _).mp hlt).le) hb
      exact ⟨a, fun hx => b.mpr (Or.inl hx)⟩
    · rw [Filter.predictTime, if_neg hlt, Option.some.injEq] at hg
      subst hg; exact ⟨hf, id⟩
  | predictControl u t =>
    rw [Filter.step_asInput P sort f _ (controlInput P f u t) hf.pre.on rfl] at hg
    obtain ⟨a, b⟩ := hf.insertInput ht (InputOk.control h hop hf.pre.ok t) hg
    refine ⟨a, fun hx => ?_⟩
    rcases b with ⟨rfl, _⟩ | b
    · exact hx
    · exact b.mpr (Or.inl hx)
  | correct z c t m =>
    rw [Filter.step_asInput P sort f _ (measurementInput z c t m) hf.pre.on rfl] at hg
    obtain ⟨a, b⟩ := hf.insertInput ht (inp := measurementInput z c t m) hop hg
    refine ⟨a, fun hx => ?_⟩
    rcases b with ⟨rfl, _⟩ | b
    · exact hx
    · exact b.mpr (Or.inl hx)
  | enqueueControl u t =>
    change some (f.enqueueControl P u t) = some g at hg
    injection hg with hg
    subst hg
    exact ⟨⟨⟨hok, hf.pre.on, hf.pre.chain⟩, hf.inv.congr P _ _ rfl⟩, id⟩
  | enqueueMeasurement z c t m =>
    change some (f.enqueueMeasurement z c t m) = some g at hg
    injection hg with hg
    subst hg
    exact ⟨⟨⟨hok, hf.pre.on, hf.pre.chain⟩, hf.inv.congr P _ _ rfl⟩, id⟩
  | clearControlQueue =>
    change some f.clearControlQueue = some g at hg
    injection hg with hg
    subst hg
    exact ⟨⟨⟨hok, hf.pre.on, hf.pre.chain⟩, hf.inv.congr P _ _ rfl⟩, id⟩
  | clearMeasurementQueue =>
    change some f.clearMeasurementQueue = some g at hg
    injection hg with hg
    subst hg
    exact ⟨⟨⟨hok, hf.pre.on, hf.pre.chain⟩, hf.inv.congr P _ _ rfl⟩, id⟩
  | userModel k =>
    simp only [Filter.step, Option.map_eq_some_iff] at hg
    obtain ⟨e, _, rfl⟩ := hg
    exact ⟨⟨⟨hok, hf.pre.on, hf.pre.chain⟩, hf.inv.congr P _ _ rfl⟩, id⟩

/-- invariant of a filter without rewinding -/
structure TaintOff (h : PlantInv P tot S Ge U R Z) (f : Filter T V M K E) : Prop where
  ok : h.sim.RF f f
  off : f.params.rewindHistory = false

theorem TaintOff.applyInput {h : PlantInv P tot S Ge U R Z} (ht : Taint P S Ge U R Z Bad BadIn) {f g : Filter T V M K E}
    (hf : TaintOff h f) {i : FilterInput T V M K} (hi : InputOk P U R Z i) (hg : f.applyInput P i = some g) :
    TaintOff h g ∧ (Bad g.state.x ↔ Bad f.state.x ∨ BadIn i) := by
  obtain ⟨c, hc, he⟩ := Filter.applyInput_some P f g i hg
  have hb : Bad g.state.x ↔ Bad f.state.x ∨ BadIn i := by
    subst he
    exact ht f.core i c ⟨hf.ok.state.2.2.2, hf.ok.glob.2.2.2.1, hf.ok.glob.2.2.2.2⟩ hi hc
  exact ⟨⟨optRel_self (hf.ok.applyInput (i := i) (j := i) ⟨rfl, hi⟩) hg, by subst he; exact hf.off⟩, hb⟩

theorem TaintOff.applyAll {h : PlantInv P tot S Ge U R Z} (ht : Taint P S Ge U R Z Bad BadIn) {f g : Filter T V M K E}
    (hf : TaintOff h f) {is : List (FilterInput T V M K)} (hi : ∀ i ∈ is, InputOk P U R Z i)
    (hg : f.applyAll P is = some g) :
    TaintOff h g ∧ (Bad g.state.x ↔ Bad f.state.x ∨ ∃ i ∈ is, BadIn i) := by
  induction is generalizing f with
  | nil => simp only [Filter.applyAll, Option.some.injEq] at hg; subst hg; exact ⟨hf, by simp⟩
  | cons i is ih =>
    rw [Filter.applyAll] at hg
    split at hg
    · simp at hg
    · rename_i f' h'
      obtain ⟨a, b⟩ := hf.applyInput ht (hi i (by simp)) h'
      obtain ⟨c, d⟩ := ih a (fun j hj => hi j (by simp [hj])) hg
      refine ⟨c, ?_⟩
      rw [d, b, or_assoc]
      simp only [List.mem_cons, exists_eq_or_imp]

theorem TaintOff.applyPrune {h : PlantInv P tot S Ge U R Z} (ht : Taint P S Ge U R Z Bad BadIn) {f g : Filter T V M K E}
    (hf : TaintOff h f) {i : FilterInput T V M K} (hi : InputOk P U R Z i)
    (hg : ((f.applyInput P i).bind fun g => g.pruneHistory) = some g) :
    TaintOff h g ∧ (Bad g.state.x ↔ Bad f.state.x ∨ BadIn i) := by
  rw [Option.bind_eq_some_iff] at hg
  obtain ⟨g', h3, h4⟩ := hg
  rw [Filter.pruneHistory_pruned, Option.some.injEq] at h4
  obtain ⟨a, b⟩ := hf.applyInput ht hi h3
  subst h4
  exact ⟨⟨a.ok.pruned, by rw [Filter.pruned_params]; exact a.off⟩, by rw [Filter.pruned_state]; exact b⟩

/-- one data-feeding call with rewinding off -/
theorem TaintOff.step {h : PlantInv P tot S Ge U R Z} (ht : Taint P S Ge U R Z Bad BadIn)
    {sort : List (FilterInput T V M K) → List (FilterInput T V M K)} (hsort : IsTimeSort sort) {f g : Filter T V M K E}
    (hf : TaintOff h f) {op : Op T V M K E} (hop : OpOk P tot S Ge U Z op) (hfeed : op.FeedsOn)
    (hg : f.step P sort op = some g) : TaintOff h g ∧ (Bad f.state.x → Bad g.state.x) := by
  have hok : h.sim.RF g g := optRel_self (hf.ok.step (sort_self h hsort) (h.rop op hop)) hg
  cases op with
  | init | revertToState | setParams | processQueues => exact absurd hfeed (by simp [Op.FeedsOn])
  | predictTime t =>
    change f.predictTime P t = some g at hg
    rw [TimeEmb.predictTime_bind] at hg
    split at hg
    · obtain ⟨a, b⟩ := hf.applyPrune ht
        (InputOk.control h (fun hv => absurd hv (by rw [h.empty]; exact Nat.lt_irrefl 0)) hf.ok t) hg
      exact ⟨a, fun hx => b.mpr (Or.inl hx)⟩
    · simp only [Option.some.injEq] at hg; subst hg; exact ⟨hf, id⟩
  | predictControl u t =>
    change f.predictControl P u t = some g at hg
    rw [TimeEmb.predictControl_bind] at hg
    split at hg
    · split at hg
      · obtain ⟨a, b⟩ := hf.applyPrune ht (InputOk.control h hop hf.ok t) hg
        exact ⟨a, fun hx => b.mpr (Or.inl hx)⟩
      · simp only [Option.some.injEq] at hg; subst hg; exact ⟨hf, id⟩
    · rename_i hh; rw [hf.off] at hh; simp at hh
  | correct z c t m =>
    change f.correct P z c t m = some g at hg
    rw [TimeEmb.correct_bind] at hg
    split at hg
    · split at hg
      · obtain ⟨a, b⟩ := hf.applyPrune ht (i := measurementInput z c t m) hop hg
        exact ⟨a, fun hx => b.mpr (Or.inl hx)⟩
      · simp only [Option.some.injEq] at hg; subst hg; exact ⟨hf, id⟩
    · rename_i hh; rw [hf.off] at hh; simp at hh
  | enqueueControl u t =>
    change some (f.enqueueControl P u t) = some g at hg
    injection hg with hg
    subst hg
    exact ⟨⟨hok, hf.off⟩, id⟩
  | enqueueMeasurement z c t m =>
    change some (f.enqueueMeasurement z c t m) = some g at hg
    injection hg with hg
    subst hg
    exact ⟨⟨hok, hf.off⟩, id⟩
  | clearControlQueue =>
    change some f.clearControlQueue = some g at hg
    injection hg with hg
    subst hg
    exact ⟨⟨hok, hf.off⟩, id⟩
  | clearMeasurementQueue =>
    change some f.clearMeasurementQueue = some g at hg
    injection hg with hg
    subst hg
    exact ⟨⟨hok, hf.off⟩, id⟩
  | userModel k =>
    simp only [Filter.step, Option.map_eq_some_iff] at hg
    obtain ⟨e, _, rfl⟩ := hg
    exact ⟨⟨hok, hf.off⟩, id⟩

theorem TaintOff.processQueues {h : PlantInv P tot S Ge U R Z} (ht : Taint P S Ge U R Z Bad BadIn)
    {sort : List (FilterInput T V M K) → List (FilterInput T V M K)} (hsort : IsTimeSort sort) {f g : Filter T V M K E}
    (hf : TaintOff h f) (hg : f.processQueues P sort = some g) :
    TaintOff h g ∧ (Bad f.state.x → Bad g.state.x) := by
  have hok : h.sim.RF g g := optRel_self (hf.ok.processQueues (sort_self h hsort)) hg
  have hpq : ∀ q : List (FilterInput T V M K), f.pruneQueue q = q := by
    intro q; unfold Filter.pruneQueue; rw [hf.off]
  unfold Filter.processQueues at hg
  dsimp only at hg
  rw [hf.off, hpq, hpq] at hg
  simp only [Bool.false_eq_true, if_false, List.map_nil, List.nil_append] at hg
  split at hg
  · cases hg
  · rename_i g' hg'
    obtain ⟨g2, h1, rfl⟩ := Filter.applyBatchInputs_some P _ g' _ hg'
    injection hg with hg
    subst hg
    have hf' : TaintOff h { f with controlQueue := f.controlQueue, measQueue := f.measQueue } := hf
    obtain ⟨a, b⟩ := hf'.applyAll ht (fun i hi => by
      rcases List.mem_append.mp ((hsort _).1.mem_iff.mp hi) with hi | hi
      · exact (List.forall₂_same.mp hf.ok.cq i hi).2
      · exact (List.forall₂_same.mp hf.ok.mq i hi).2) h1
    refine ⟨⟨hok, ?_⟩, fun hx => ?_⟩
    · show g2.pruned.params.rewindHistory = false
      rw [Filter.pruned_params]; exact a.off
    · show Bad g2.pruned.state.x
      rw [Filter.pruned_state]; exact b.mpr (Or.inl hx)

/-- either mode -/
def TaintAny (h : PlantInv P tot S Ge U R Z) (Bad : V → Prop) (BadIn : FilterInput T V M K → Prop)
    (f : Filter T V M K E) : Prop := TaintInv h Bad BadIn f ∨ TaintOff h f

theorem TaintAny.init (h : PlantInv P tot S Ge U R Z) (f : Filter T V M K E) (hf : Ge f.env)
    (hpc : P.vsize f.prevControl > 0 → U f.prevControl ∧ R f.prevControlCov) (x : V) (c : M) (t : T) (hx : S x c) :
    TaintAny h Bad BadIn (f.init x c t) := by
  have h0 : h.sim.RF (f.init x c t) (f.init x c t) :=
    SimRel.RF.init (R := h.sim) (f := f) (g := f) rfl ⟨rfl, rfl, rfl, hf, hpc⟩ ⟨rfl, rfl, hx⟩ t
  cases hr : f.params.rewindHistory with
  | true =>
    refine Or.inl ⟨⟨h0, hr, ?_⟩, Filter.RewindInv.of_empty P _ rfl⟩
    have e : (f.init x c t).full = [(f.init x c t).state] := rfl
    rw [e]; simp
  | false => exact Or.inr ⟨h0, hr⟩

/-- **Damage never heals by feeding data.** -/
theorem TaintAny.fed {h : PlantInv P tot S Ge U R Z} (ht : Taint P S Ge U R Z Bad BadIn) (hctl : ∀ i, BadIn i → i.isControl = false)
    {sort : List (FilterInput T V M K) → List (FilterInput T V M K)} (hsort : IsTimeSort sort)
    {wf : Op T V M K E → Prop} (hwf : ∀ op, wf op → OpOk P tot S Ge U Z op) {f g : Filter T V M K E}
    (hf : TaintAny h Bad BadIn f) (hg : FedTo P sort wf f g) :
    TaintAny h Bad BadIn g ∧ (Bad f.state.x → Bad g.state.x) := by
  induction hg with
  | refl => exact ⟨hf, id⟩
  | call g' g op _ hop hfeed hs ih =>
    obtain ⟨a, b⟩ := ih
    rcases a with a | a
    · obtain ⟨c, d⟩ := a.step ht hctl hsort (hwf op hop) hfeed hs
      exact ⟨Or.inl c, d ∘ b⟩
    · obtain ⟨c, d⟩ := a.step ht hsort (hwf op hop) hfeed hs
      exact ⟨Or.inr c, d ∘ b⟩
  | queues g' g _ hq hs ih =>
    obtain ⟨a, b⟩ := ih
    rcases a with a | a
    · obtain ⟨c, d⟩ := a.processQueues ht hsort (hq a.pre.on) hs
      exact ⟨Or.inl c, fun hx => d.mpr (Or.inl (b hx))⟩
    · obtain ⟨c, d⟩ := a.processQueues ht hsort hs
      exact ⟨Or.inr c, d ∘ b⟩

end StateEstimation
