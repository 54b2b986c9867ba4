import Verif.Lemmas.Steps
import Verif.Lemmas.Queues
import Mathlib.Data.List.Forall2

/-!
# A simulation theorem over arbitrary API traces

Two filters, possibly over different plants, are related component by component; if applying one input keeps
them related, every sequence of API calls does.  With `tot = True` it also shows that no call fails.
The `prevInput` of the oldest retained state is irrelevant and left unrelated.
-/

set_option linter.unusedSectionVars false

namespace StateEstimation

/-- Both fail (allowed only when `tot` is false) or both succeed with related results. -/
def OptRel (tot : Prop) {α β : Type} (R : α → β → Prop) : Option α → Option β → Prop
  | none, none => ¬ tot
  | some a, some b => R a b
  | _, _ => False

theorem OptRel.some {tot : Prop} {α β : Type} {R : α → β → Prop} {a b} (h : R a b) :
    OptRel tot R (some a) (some b) := h

theorem OptRel.map {tot : Prop} {α β γ δ : Type} {R : α → β → Prop} {S : γ → δ → Prop} {a b} {f : α → γ} {g : β → δ}
    (h : OptRel tot R a b) (hfg : ∀ x y, R x y → S (f x) (g y)) : OptRel tot S (a.map f) (b.map g) := by
  cases a <;> cases b <;> simp only [OptRel, Option.map_some, Option.map_none] at *
  · exact h
  · exact hfg _ _ h

theorem OptRel.bind {tot : Prop} {α β γ δ : Type} {R : α → β → Prop} {S : γ → δ → Prop} {a b}
    {f : α → Option γ} {g : β → Option δ}
    (h : OptRel tot R a b) (hfg : ∀ x y, R x y → OptRel tot S (f x) (g y)) :
    OptRel tot S (a.bind f) (b.bind g) := by
  cases a <;> cases b <;> simp only [OptRel, Option.bind_some, Option.bind_none] at *
  · exact h
  · exact hfg _ _ h

theorem OptRel.mono {tot : Prop} {α β : Type} {R S : α → β → Prop} {a b} (h : OptRel tot R a b)
    (hRS : ∀ x y, R x y → S x y) : OptRel tot S a b := by
  cases a <;> cases b <;> simp only [OptRel] at *
  · exact h
  · exact hRS _ _ h

theorem OptRel.isSome {α β : Type} {R : α → β → Prop} {a : Option α} {b : Option β} (h : OptRel True R a b) :
    ∃ x y, a = Option.some x ∧ b = Option.some y ∧ R x y := by
  cases a <;> cases b <;> simp only [OptRel] at h
  · exact absurd trivial h
  · exact ⟨_, _, rfl, rfl, h⟩

variable {T V M K E V' M' K' E' : Type} [TimeOps T]

/-- What has to be shown about two plants. -/
structure SimRel (P : Plant T V M K E) (Q : Plant T V' M' K' E') where
  tot : Prop
  /-- states and covariances -/
  RS : V → M → V' → M' → Prop
  /-- remembered control and models -/
  RG : V → M → E → V' → M' → E' → Prop
  /-- inputs -/
  RI : FilterInput T V M K → FilterInput T V' M' K' → Prop
  /-- controls given by the user -/
  RU : V → V' → Prop
  ts_eq : ∀ {i j}, RI i j → i.timestamp = j.timestamp
  apply : ∀ (c : Core T V M E) (d : Core T V' M' E') i j, c.ts = d.ts → RS c.x c.cov d.x d.cov →
    RG c.pc c.pcc c.env d.pc d.pcc d.env → RI i j →
    OptRel tot (fun c' d' => c'.ts = d'.ts ∧ RS c'.x c'.cov d'.x d'.cov ∧
      RG c'.pc c'.pcc c'.env d'.pc d'.pcc d'.env) (c.apply P i) (d.apply Q j)
  ctrl : ∀ pc pcc e pc' pcc' e' u u' t, RG pc pcc e pc' pcc' e' → RU u u' →
    RI ⟨u, P.rc e, t, true, none⟩ ⟨u', Q.rc e', t, true, none⟩
  empty : RU P.emptyV Q.emptyV

namespace SimRel

variable {P : Plant T V M K E} {Q : Plant T V' M' K' E'} (R : SimRel P Q)

/-- related cores -/
def RC (c : Core T V M E) (d : Core T V' M' E') : Prop :=
  c.ts = d.ts ∧ R.RS c.x c.cov d.x d.cov ∧ R.RG c.pc c.pcc c.env d.pc d.pcc d.env

/-- related states -/
def RSt (s : FilterState T V M K) (s' : FilterState T V' M' K') : Prop :=
  s.timestamp = s'.timestamp ∧ R.RS s.x s.covariance s'.x s'.covariance

/-- related previous inputs -/
def RPrev (s : FilterState T V M K) (s' : FilterState T V' M' K') : Prop := R.RI s.prevInput s'.prevInput

/-- related retained states -/
def Aligned (l : List (FilterState T V M K)) (l' : List (FilterState T V' M' K')) : Prop :=
  List.Forall₂ R.RSt l l' ∧ List.Forall₂ R.RPrev l.tail l'.tail

/-- related filters -/
structure RF (f : Filter T V M K E) (g : Filter T V' M' K' E') : Prop where
  params : f.params = g.params
  glob : R.RG f.prevControl f.prevControlCov f.env g.prevControl g.prevControlCov g.env
  ret : R.Aligned f.retained g.retained
  cq : List.Forall₂ R.RI f.controlQueue g.controlQueue
  mq : List.Forall₂ R.RI f.measQueue g.measQueue

/-- related calls -/
inductive ROp : Op T V M K E → Op T V' M' K' E' → Prop
  | init {x c x' c'} (t : T) : R.RS x c x' c' → ROp (.init x c t) (.init x' c' t)
  | predictTime (t : T) : ROp (.predictTime t) (.predictTime t)
  | predictControl {u u'} (t : T) : R.RU u u' → ROp (.predictControl u t) (.predictControl u' t)
  | correct {z c t m z' c' m'} : R.RI (measurementInput z c t m) (measurementInput z' c' t m') →
      ROp (.correct z c t m) (.correct z' c' t m')
  | enqueueControl {u u'} (t : T) : R.RU u u' → ROp (.enqueueControl u t) (.enqueueControl u' t)
  | enqueueMeasurement {z c t m z' c' m'} : R.RI (measurementInput z c t m) (measurementInput z' c' t m') →
      ROp (.enqueueMeasurement z c t m) (.enqueueMeasurement z' c' t m')
  | processQueues : ROp .processQueues .processQueues
  | clearControlQueue : ROp .clearControlQueue .clearControlQueue
  | clearMeasurementQueue : ROp .clearMeasurementQueue .clearMeasurementQueue
  | revertToState (t : T) : ROp (.revertToState t) (.revertToState t)
  | setParams (p : Params T) : ROp (.setParams p) (.setParams p)
  | userModel {g g'} : (∀ pc pcc e pc' pcc' e', R.RG pc pcc e pc' pcc' e' →
      OptRel R.tot (fun e1 e1' => R.RG pc pcc e1 pc' pcc' e1') (g e) (g' e')) →
      ROp (.userModel g) (.userModel g')

variable {R}

theorem forall₂_concat {α β : Type} {r : α → β → Prop} {l : List α} {l' : List β} {a b}
    (h : List.Forall₂ r (l ++ [a]) (l' ++ [b])) : List.Forall₂ r l l' ∧ r a b := by
  rw [← List.forall₂_reverse_iff] at h
  simp only [List.reverse_append, List.reverse_cons, List.reverse_nil, List.nil_append,
    List.cons_append, List.forall₂_cons] at h
  exact ⟨List.forall₂_reverse_iff.mp h.2, h.1⟩

theorem forall₂_app {α β : Type} {r : α → β → Prop} {l1 l2 : List α} {l1' l2' : List β}
    (h1 : List.Forall₂ r l1 l1') (h2 : List.Forall₂ r l2 l2') : List.Forall₂ r (l1 ++ l2) (l1' ++ l2') := by
  induction h1 with
  | nil => exact h2
  | cons a _ ih => exact List.Forall₂.cons a ih

theorem forall₂_filter {α β : Type} {r : α → β → Prop} {l : List α} {l' : List β} (p : α → Bool) (q : β → Bool)
    (h : List.Forall₂ r l l') (hpq : ∀ a b, r a b → p a = q b) : List.Forall₂ r (l.filter p) (l'.filter q) := by
  induction h with
  | nil => exact List.Forall₂.nil
  | cons a _ ih =>
    rw [List.filter_cons, List.filter_cons, hpq _ _ a]
    split
    · exact List.Forall₂.cons a ih
    · exact ih

theorem RF.state {f : Filter T V M K E} {g : Filter T V' M' K' E'} (h : R.RF f g) : R.RSt f.state g.state :=
  (forall₂_concat h.ret.1).2

theorem RF.history {f : Filter T V M K E} {g : Filter T V' M' K' E'} (h : R.RF f g) :
    List.Forall₂ R.RSt f.history g.history :=
  (forall₂_concat h.ret.1).1

theorem RF.core {f : Filter T V M K E} {g : Filter T V' M' K' E'} (h : R.RF f g) : R.RC f.core g.core :=
  ⟨h.state.1, h.state.2, h.glob⟩

theorem Aligned.take {l : List (FilterState T V M K)} {l' : List (FilterState T V' M' K')} (h : R.Aligned l l')
    (n : Nat) : R.Aligned (l.take n) (l'.take n) := by
  refine ⟨List.forall₂_take n h.1, ?_⟩
  rw [← List.drop_one, ← List.drop_one, List.drop_take, List.drop_take]
  apply List.forall₂_take
  rw [List.drop_one, List.drop_one]
  exact h.2

theorem Aligned.concat {l : List (FilterState T V M K)} {l' : List (FilterState T V' M' K')} (h : R.Aligned l l')
    {s s'} (hs : R.RSt s s') (hp : l = [] ∨ R.RPrev s s') : R.Aligned (l ++ [s]) (l' ++ [s']) := by
  refine ⟨forall₂_app h.1 (List.Forall₂.cons hs List.Forall₂.nil), ?_⟩
  cases l with
  | nil =>
    have : l' = [] := List.forall₂_nil_left_iff.mp h.1
    subst this; exact List.Forall₂.nil
  | cons a l =>
    cases l' with
    | nil => have := h.1; simp at this
    | cons a' l' =>
      rcases hp with hp | hp
      · simp at hp
      · exact forall₂_app h.2 (List.Forall₂.cons hp List.Forall₂.nil)

theorem RF.applyInput {f : Filter T V M K E} {g : Filter T V' M' K' E'} (h : R.RF f g) {i j} (hij : R.RI i j) :
    OptRel R.tot R.RF (f.applyInput P i) (g.applyInput Q j) := by
  rw [Filter.applyInput_eq, Filter.applyInput_eq]
  have ha := R.apply f.core g.core i j h.core.1 h.core.2.1 h.core.2.2 hij
  refine OptRel.map ha ?_
  intro c d hcd
  refine ⟨h.params, hcd.2.2, ?_, h.cq, h.mq⟩
  unfold Filter.retained Filter.pushed
  rw [← h.params]
  dsimp only [Filter.withCore]
  cases f.params.rewindHistory with
  | true => exact Aligned.concat h.ret ⟨hcd.1, hcd.2.1⟩ (Or.inr hij)
  | false =>
    refine Aligned.concat ?_ ⟨hcd.1, hcd.2.1⟩ (Or.inr hij)
    have := Aligned.take h.ret f.history.length
    rwa [Filter.retained, List.take_left, Filter.retained, h.history.length_eq, List.take_left] at this

theorem rdropWhile_take {α β : Type} {r : α → β → Prop} {l : List α} {l' : List β} (p : α → Bool) (q : β → Bool)
    (h : List.Forall₂ r l l') (hpq : ∀ a b, r a b → p a = q b) :
    ∃ n, l.rdropWhile p = l.take n ∧ l'.rdropWhile q = l'.take n := by
  induction l using List.reverseRecOn generalizing l' with
  | nil => have : l' = [] := List.forall₂_nil_left_iff.mp h
           subst this; exact ⟨0, rfl, rfl⟩
  | append_singleton l a ih =>
    rcases List.eq_nil_or_concat l' with rfl | ⟨l', b, rfl⟩
    · have := h.length_eq; simp at this
    · rw [List.concat_eq_append] at *
      obtain ⟨h1, h2⟩ := forall₂_concat h
      rw [List.rdropWhile_concat, List.rdropWhile_concat, hpq a b h2]
      split
      · obtain ⟨n, e1, e2⟩ := ih h1
        refine ⟨min n l.length, ?_, ?_⟩
        · rw [e1, List.take_append_of_le_length (Nat.min_le_right _ _)]
          rw [← List.take_take, List.take_length]
        · rw [e2, h1.length_eq, List.take_append_of_le_length (Nat.min_le_right _ _)]
          rw [← List.take_take, List.take_length]
      · refine ⟨l.length + 1, ?_, ?_⟩
        · rw [List.take_of_length_le]; simp
        · rw [List.take_of_length_le]; simp [h1.length_eq]

theorem Aligned.init {l : List (FilterState T V M K)} {l' : List (FilterState T V' M' K')} {s s'}
    (h : R.Aligned (l ++ [s]) (l' ++ [s'])) : R.Aligned l l' := by
  have h1 := (forall₂_concat h.1).1.length_eq
  have := Aligned.take h l.length
  rwa [List.take_left, h1, List.take_left] at this

theorem Aligned.take_concat {l : List (FilterState T V M K)} {l' : List (FilterState T V' M' K')} {s s'}
    (h : R.Aligned (l ++ [s]) (l' ++ [s'])) (n : Nat) : R.Aligned (l.take n ++ [s]) (l'.take n ++ [s']) := by
  obtain ⟨h1, h2⟩ := forall₂_concat h.1
  refine Aligned.concat (Aligned.take (Aligned.init h) n) h2 ?_
  cases l with
  | nil => left; simp
  | cons a l =>
    right
    cases l' with
    | nil => simp at h1
    | cons a' l' => exact (forall₂_concat h.2).2

theorem RF.pruned {f : Filter T V M K E} {g : Filter T V' M' K' E'} (h : R.RF f g) : R.RF f.pruned g.pruned := by
  unfold Filter.pruned
  rw [← h.params]
  split
  · obtain ⟨n, e1, e2⟩ := rdropWhile_take
      (fun s : FilterState T V M K => TimeOps.lt s.timestamp (TimeOps.sub f.state.timestamp f.params.historyWindow))
      (fun s : FilterState T V' M' K' => TimeOps.lt s.timestamp (TimeOps.sub g.state.timestamp f.params.historyWindow))
      h.history (by intro a b hab; rw [hab.1, h.state.1])
    refine ⟨rfl, h.glob, ?_, h.cq, h.mq⟩
    unfold Filter.retained
    dsimp only
    rw [e1, e2]
    exact Aligned.take_concat h.ret n
  · exact h

theorem RF.applyAll {f : Filter T V M K E} {g : Filter T V' M' K' E'} (h : R.RF f g) {is js}
    (hij : List.Forall₂ R.RI is js) : OptRel R.tot R.RF (f.applyAll P is) (g.applyAll Q js) := by
  induction hij generalizing f g with
  | nil => exact h
  | cons a _ ih =>
    rw [Filter.applyAll, Filter.applyAll]
    have := h.applyInput a
    generalize f.applyInput P _ = x at this ⊢
    generalize g.applyInput Q _ = y at this ⊢
    cases x <;> cases y <;> simp only [OptRel] at this ⊢
    · exact this
    · exact ih this

theorem RF.applyBatch {f : Filter T V M K E} {g : Filter T V' M' K' E'} (h : R.RF f g) {is js}
    (hij : List.Forall₂ R.RI is js) :
    OptRel R.tot R.RF (f.applyBatchInputs P is) (g.applyBatchInputs Q js) := by
  unfold Filter.applyBatchInputs
  have := h.applyAll hij
  generalize f.applyAll P _ = x at this ⊢
  generalize g.applyAll Q _ = y at this ⊢
  cases x <;> cases y <;> simp only [OptRel] at this ⊢
  · exact this
  · rw [Filter.pruneHistory_pruned, Filter.pruneHistory_pruned]
    exact this.pruned

/-- result of a rewind -/
def RW (a : Filter T V M K E × Bool × List (FilterState T V M K))
    (b : Filter T V' M' K' E' × Bool × List (FilterState T V' M' K')) : Prop :=
  R.RF a.1 b.1 ∧ a.2.1 = b.2.1 ∧ List.Forall₂ R.RPrev a.2.2 b.2.2

theorem RF.kept {f : Filter T V M K E} {g : Filter T V' M' K' E'} (h : R.RF f g) (b : Bound T) :
    ∃ n, f.kept b = f.history.take n ∧ g.kept b = g.history.take n := by
  have hl := (forall₂_filter (Filter.isPost b) (Filter.isPost b) h.history
    (by intro x y hxy; unfold Filter.isPost; rw [hxy.1])).length_eq
  unfold Filter.kept
  rw [hl, h.history.length_eq]
  exact ⟨_, rfl, rfl⟩

theorem RF.rewind [SaneTime T] {f : Filter T V M K E} {g : Filter T V' M' K' E'} (h : R.RF f g) (b : Bound T) :
    OptRel R.tot R.RW (f.rewindHistory b) (g.rewindHistory b) := by
  rcases Filter.rewindHistory_cases f b with ⟨h1, h2⟩ | ⟨h1, h1', h2⟩ | ⟨h1, front, rest, hh, hb, h2⟩
  · rw [h2, Filter.rewindHistory_gt g b (by rw [← h.state.1]; exact h1)]
    exact ⟨h, rfl, List.Forall₂.nil⟩
  · rw [h2]
    have hg : g.rewindHistory b = some (g, false, []) := by
      cases hgh : g.history with
      | nil => exact Filter.rewindHistory_empty g b (by rw [← h.state.1]; exact h1) hgh
      | cons fr re =>
        refine Filter.rewindHistory_false g b (by rw [← h.state.1]; exact h1) fr re hgh ?_
        have hH := h.history
        rw [hgh] at hH
        cases hfh : f.history with
        | nil => rw [hfh] at hH; simp at hH
        | cons a l =>
          rw [hfh] at hH h1'
          rw [List.forall₂_cons] at hH
          rw [← hH.1.1]
          exact h1' a (by simp)
    rw [hg]
    exact ⟨h, rfl, List.Forall₂.nil⟩
  · rw [h2]
    have hH := h.history
    rw [hh] at hH
    cases hgh : g.history with
    | nil => rw [hgh] at hH; simp at hH
    | cons fr re =>
      rw [hgh, List.forall₂_cons] at hH
      have hb' : b.gt fr.timestamp = true := by rw [← hH.1.1]; exact hb
      rw [Filter.rewindHistory_true g b (by rw [← h.state.1]; exact h1) fr re hgh hb']
      obtain ⟨n, e1, e2⟩ := h.kept b
      obtain ⟨r, hr⟩ := Filter.kept_ne_nil f b front rest hh hb
      obtain ⟨r', hr'⟩ := Filter.kept_ne_nil g b fr re hgh hb'
      have hal : R.Aligned (f.kept b) (g.kept b) := by
        rw [e1, e2]; exact Aligned.take (Aligned.init h.ret) n
      have hnf : f.kept b ≠ [] := by rw [hr]; simp
      have hng : g.kept b ≠ [] := by rw [hr']; simp
      refine ⟨⟨h.params, h.glob, ?_, h.cq, h.mq⟩, rfl, ?_⟩
      · unfold Filter.retained
        dsimp only
        rw [List.getLast?_eq_some_getLast hnf, List.getLast?_eq_some_getLast hng]
        simp only [Option.getD_some, List.dropLast_concat_getLast]
        exact hal
      · unfold Filter.post
        dsimp only
        have hpf : Filter.isPost b front = false := Filter.Bound_gt_not_post b _ hb
        have hpg : Filter.isPost b fr = false := Filter.Bound_gt_not_post b _ hb'
        rw [hh, hgh, List.filter_cons_of_neg (by simp [hpf]), List.filter_cons_of_neg (by simp [hpg])]
        have hret := h.ret.2
        unfold Filter.retained at hret
        rw [hh, hgh] at hret
        simp only [List.cons_append, List.tail_cons] at hret
        obtain ⟨p1, p2⟩ := forall₂_concat hret
        refine forall₂_app ?_ (List.Forall₂.cons p2 List.Forall₂.nil)
        have := List.Forall₂.mp (Q := R.RSt) (R := R.RPrev) (S := fun a b => R.RSt a b ∧ R.RPrev a b)
          (fun _ _ a b => ⟨a, b⟩) hH.2 p1
        have := forall₂_filter (Filter.isPost b) (Filter.isPost b) this
          (by intro x y hxy; unfold Filter.isPost; rw [hxy.1.1])
        exact this.imp (fun _ _ h => h.2)

theorem forall₂_prev {l : List (FilterState T V M K)} {l' : List (FilterState T V' M' K')}
    (h : List.Forall₂ R.RPrev l l') :
    List.Forall₂ R.RI (l.map FilterState.prevInput) (l'.map FilterState.prevInput) := by
  rw [List.forall₂_map_left_iff, List.forall₂_map_right_iff]
  exact h

theorem RF.insertInput [SaneTime T] {f : Filter T V M K E} {g : Filter T V' M' K' E'} (h : R.RF f g) {i j}
    (hij : R.RI i j) : OptRel R.tot R.RF (f.insertInput P i) (g.insertInput Q j) := by
  unfold Filter.insertInput
  rw [← h.state.1, ← R.ts_eq hij]
  split
  · have := h.rewind (some i.timestamp)
    generalize f.rewindHistory (some i.timestamp) = x at this ⊢
    generalize g.rewindHistory (some i.timestamp) = y at this ⊢
    rcases x with _ | ⟨f1, b, post⟩ <;> rcases y with _ | ⟨g1, b', post'⟩ <;> simp only [OptRel] at this
    · exact this
    · obtain ⟨h1, h2, h3⟩ := this
      dsimp only at h1 h2 h3
      subst h2
      cases b with
      | false => exact h
      | true => exact h1.applyBatch (List.Forall₂.cons hij (forall₂_prev h3))
  · exact h.applyBatch (List.Forall₂.cons hij List.Forall₂.nil)

theorem RF.applyPrune {f : Filter T V M K E} {g : Filter T V' M' K' E'} (h : R.RF f g) {i j} (hij : R.RI i j) :
    OptRel R.tot R.RF (match f.applyInput P i with | none => none | some g => g.pruneHistory)
      (match g.applyInput Q j with | none => none | some g => g.pruneHistory) := by
  have := h.applyInput hij
  generalize f.applyInput P _ = x at this ⊢
  generalize g.applyInput Q _ = y at this ⊢
  cases x <;> cases y <;> simp only [OptRel] at this ⊢
  · exact this
  · rw [Filter.pruneHistory_pruned, Filter.pruneHistory_pruned]
    exact this.pruned

theorem RF.oldest {cq mq : List (FilterInput T V M K)} {cq' mq' : List (FilterInput T V' M' K')}
    (h1 : List.Forall₂ R.RI cq cq') (h2 : List.Forall₂ R.RI mq mq') :
    Filter.oldestQueued cq mq = Filter.oldestQueued cq' mq' := by
  have key : ∀ {l : List (FilterInput T V M K)} {l' : List (FilterInput T V' M' K')} (b : Bound T),
      List.Forall₂ R.RI l l' → l.foldl (fun b i => Bound.min b i.timestamp) b
        = l'.foldl (fun b i => Bound.min b i.timestamp) b := by
    intro l l' b h
    induction h generalizing b with
    | nil => rfl
    | cons a _ ih => rw [List.foldl_cons, List.foldl_cons, R.ts_eq a]; exact ih _
  unfold Filter.oldestQueued
  rw [key _ h1, key _ h2]

theorem RF.pruneQueue {f : Filter T V M K E} {g : Filter T V' M' K' E'} (h : R.RF f g) {q q'}
    (hq : List.Forall₂ R.RI q q') : List.Forall₂ R.RI (f.pruneQueue q) (g.pruneQueue q') := by
  unfold Filter.pruneQueue
  rw [← h.params]
  have hH := h.history
  cases hf : f.history with
  | nil =>
    rw [hf] at hH
    rw [List.forall₂_nil_left_iff.mp hH]
    cases f.params.rewindHistory <;> exact hq
  | cons a l =>
    cases hg : g.history with
    | nil => rw [hf, hg] at hH; simp at hH
    | cons a' l' =>
      rw [hf, hg, List.forall₂_cons] at hH
      cases f.params.rewindHistory with
      | false => exact hq
      | true => exact forall₂_filter _ _ hq (by intro x y hxy; rw [R.ts_eq hxy, hH.1.1])

theorem RF.processQueues [SaneTime T] {f : Filter T V M K E} {g : Filter T V' M' K' E'} (h : R.RF f g)
    {sort sort'} (hsort : ∀ l l', List.Forall₂ R.RI l l' → List.Forall₂ R.RI (sort l) (sort' l')) :
    OptRel R.tot R.RF (f.processQueues P sort) (g.processQueues Q sort') := by
  unfold Filter.processQueues
  dsimp only
  have hc := h.pruneQueue h.cq
  have hm := h.pruneQueue h.mq
  have h' : R.RF { f with controlQueue := f.pruneQueue f.controlQueue, measQueue := f.pruneQueue f.measQueue }
      { g with params := f.params, controlQueue := g.pruneQueue g.controlQueue,
               measQueue := g.pruneQueue g.measQueue } :=
    ⟨rfl, h.glob, h.ret, hc, hm⟩
  have fin : ∀ {f1 : Filter T V M K E} {g1 : Filter T V' M' K' E'} {p p'}, R.RF f1 g1 →
      List.Forall₂ R.RPrev p p' → OptRel R.tot R.RF
      (match f1.applyBatchInputs P (sort (p.map FilterState.prevInput ++ f.pruneQueue f.controlQueue
          ++ f.pruneQueue f.measQueue)) with
        | none => none | some g => some g.clearControlQueue.clearMeasurementQueue)
      (match g1.applyBatchInputs Q (sort' (p'.map FilterState.prevInput ++ g.pruneQueue g.controlQueue
          ++ g.pruneQueue g.measQueue)) with
        | none => none | some g => some g.clearControlQueue.clearMeasurementQueue) := by
    intro f1 g1 p p' hfg hp
    have := hfg.applyBatch (hsort _ _ (forall₂_app (forall₂_app (forall₂_prev hp) hc) hm))
    generalize f1.applyBatchInputs P _ = x at this ⊢
    generalize g1.applyBatchInputs Q _ = y at this ⊢
    cases x <;> cases y <;> simp only [OptRel] at this ⊢
    · exact this
    · exact ⟨this.params, this.glob, this.ret, List.Forall₂.nil, List.Forall₂.nil⟩
  rw [← h.params, ← RF.oldest hc hm]
  cases f.params.rewindHistory with
  | false => exact fin h' List.Forall₂.nil
  | true =>
    simp only [if_true]
    have := h'.rewind (Filter.oldestQueued (f.pruneQueue f.controlQueue) (f.pruneQueue f.measQueue))
    generalize Filter.rewindHistory
      { f with controlQueue := f.pruneQueue f.controlQueue, measQueue := f.pruneQueue f.measQueue } _ = x at this ⊢
    generalize Filter.rewindHistory
      { g with params := f.params, controlQueue := g.pruneQueue g.controlQueue, measQueue := g.pruneQueue g.measQueue } _ = y at this ⊢
    rcases x with _ | ⟨f1, b, post⟩ <;> rcases y with _ | ⟨g1, b', post'⟩ <;> simp only [OptRel] at this
    · exact this
    · exact fin this.1 this.2.2

theorem RF.init {f : Filter T V M K E} {g : Filter T V' M' K' E'} (hp : f.params = g.params)
    (hg : R.RG f.prevControl f.prevControlCov f.env g.prevControl g.prevControlCov g.env) {x c x' c'}
    (hx : R.RS x c x' c') (t : T) : R.RF (f.init x c t) (g.init x' c' t) :=
  ⟨hp, hg, ⟨List.Forall₂.cons ⟨rfl, hx⟩ List.Forall₂.nil, List.Forall₂.nil⟩, List.Forall₂.nil, List.Forall₂.nil⟩

/-- One API call. -/
theorem RF.step [SaneTime T] {f : Filter T V M K E} {g : Filter T V' M' K' E'} (h : R.RF f g)
    {sort sort'} (hsort : ∀ l l', List.Forall₂ R.RI l l' → List.Forall₂ R.RI (sort l) (sort' l'))
    {op op'} (hop : R.ROp op op') : OptRel R.tot R.RF (f.step P sort op) (g.step Q sort' op') := by
  cases hop with
  | init t hx => exact RF.init h.params h.glob hx t
  | predictTime t =>
    simp only [Filter.step, Filter.predictTime]
    rw [← h.state.1]
    split
    · exact h.applyPrune (R.ctrl _ _ _ _ _ _ _ _ t h.glob R.empty)
    · exact h
  | predictControl t hu =>
    simp only [Filter.step, Filter.predictControl]
    rw [← h.state.1, ← h.params]
    have hi := R.ctrl _ _ _ _ _ _ _ _ t h.glob hu
    split
    · split
      · exact h.applyPrune hi
      · exact h
    · exact h.insertInput hi
  | correct hi =>
    simp only [Filter.step, Filter.correct]
    rw [← h.state.1, ← h.params]
    split
    · split
      · exact h.applyPrune hi
      · exact h
    · exact h.insertInput hi
  | enqueueControl t hu =>
    exact ⟨h.params, h.glob, h.ret,
      forall₂_app h.cq (List.Forall₂.cons (R.ctrl _ _ _ _ _ _ _ _ t h.glob hu) List.Forall₂.nil), h.mq⟩
  | enqueueMeasurement hi =>
    exact ⟨h.params, h.glob, h.ret, h.cq, forall₂_app h.mq (List.Forall₂.cons hi List.Forall₂.nil)⟩
  | processQueues => exact h.processQueues hsort
  | clearControlQueue => exact ⟨h.params, h.glob, h.ret, List.Forall₂.nil, h.mq⟩
  | clearMeasurementQueue => exact ⟨h.params, h.glob, h.ret, h.cq, List.Forall₂.nil⟩
  | revertToState t =>
    simp only [Filter.step, Filter.revertToState]
    have := h.rewind (some t)
    generalize f.rewindHistory (some t) = x at this ⊢
    generalize g.rewindHistory (some t) = y at this ⊢
    rcases x with _ | ⟨f1, b, post⟩ <;> rcases y with _ | ⟨g1, b', post'⟩ <;> simp only [OptRel] at this
    · exact this
    · obtain ⟨h1, h2, h3⟩ := this
      dsimp only at h1 h2 h3
      subst h2
      cases b with
      | false => exact h1
      | true => exact ⟨h1.params, h1.glob, h1.ret, List.Forall₂.nil, List.Forall₂.nil⟩
  | setParams p => exact ⟨rfl, h.glob, h.ret, h.cq, h.mq⟩
  | userModel hg =>
    exact OptRel.map (hg _ _ _ _ _ _ h.glob) (fun e e' he => ⟨h.params, he, h.ret, h.cq, h.mq⟩)

/-- Every sequence of API calls. -/
theorem RF.run [SaneTime T] {sort sort'}
    (hsort : ∀ l l', List.Forall₂ R.RI l l' → List.Forall₂ R.RI (sort l) (sort' l'))
    {ops ops'} (hops : List.Forall₂ R.ROp ops ops') {f : Filter T V M K E} {g : Filter T V' M' K' E'}
    (h : R.RF f g) : OptRel R.tot R.RF (f.run P sort ops) (g.run Q sort' ops') := by
  induction hops generalizing f g with
  | nil => exact h
  | cons a _ ih =>
    rw [Filter.run, Filter.run]
    have := h.step hsort a
    generalize f.step P sort _ = x at this ⊢
    generalize g.step Q sort' _ = y at this ⊢
    cases x <;> cases y <;> simp only [OptRel] at this ⊢
    · exact this
    · exact ih this

end SimRel
end StateEstimation
