import Verif.Lemmas.Core
import Mathlib.Data.List.DropRight

/-! # Closed forms of the prune and rewind loops -/

set_option linter.unusedSectionVars false

namespace StateEstimation

variable {T V M K E : Type} [TimeOps T]

namespace Filter

theorem pruneLoop_eq (cutoff : T) (h : List (FilterState T V M K)) :
    pruneLoop cutoff h.length h
      = some (h.rdropWhile (fun s => TimeOps.lt s.timestamp cutoff)) := by
  induction h using List.reverseRecOn with
  | nil => rfl
  | append_singleton l a ih =>
    rw [List.length_append, List.length_singleton, List.rdropWhile_concat, pruneLoop.eq_def]
    dsimp only
    have hget : (l ++ [a])[l.length]? = some a := by simp
    rw [hget]
    dsimp only
    split
    · cases hl : l ++ [a] with
      | nil => simp at hl
      | cons b t =>
        dsimp only
        rw [← hl, List.dropLast_concat, ih]
    · rfl

theorem pruneHistory_eq (f : Filter T V M K E) :
    f.pruneHistory = some (if f.params.rewindHistory then
      { f with history := (f.history.rdropWhile
          (fun s => TimeOps.lt s.timestamp (TimeOps.sub f.state.timestamp f.params.historyWindow))) }
      else f) := by
  unfold pruneHistory
  cases h : f.params.rewindHistory with
  | false => rfl
  | true =>
    simp only [Bool.not_true, Bool.false_eq_true, if_false, pruneLoop_eq, if_true]

/-- the pruned filter (pruning never fails) -/
def pruned (f : Filter T V M K E) : Filter T V M K E :=
  if f.params.rewindHistory then
      { f with history := (f.history.rdropWhile
          (fun s => TimeOps.lt s.timestamp (TimeOps.sub f.state.timestamp f.params.historyWindow))) }
      else f

theorem pruneHistory_pruned (f : Filter T V M K E) : f.pruneHistory = some f.pruned := pruneHistory_eq f

@[simp] theorem pruned_state (f : Filter T V M K E) : f.pruned.state = f.state := by
  unfold pruned; split <;> rfl
@[simp] theorem pruned_params (f : Filter T V M K E) : f.pruned.params = f.params := by
  unfold pruned; split <;> rfl
@[simp] theorem pruned_core (f : Filter T V M K E) : f.pruned.core = f.core := by
  unfold pruned; split <;> rfl
@[simp] theorem pruned_cq (f : Filter T V M K E) : f.pruned.controlQueue = f.controlQueue := by
  unfold pruned; split <;> rfl
@[simp] theorem pruned_mq (f : Filter T V M K E) : f.pruned.measQueue = f.measQueue := by
  unfold pruned; split <;> rfl

theorem pruned_history_prefix (f : Filter T V M K E) : f.pruned.history <+: f.history := by
  unfold pruned; split
  · exact List.rdropWhile_prefix _ _
  · exact List.prefix_refl _

/-- the entries the rewind loop extracts -/
abbrev isPost (b : Bound T) (s : FilterState T V M K) : Bool := b.leTime s.timestamp

theorem rewindLoop_eq (b : Bound T) (k : Nat) (h acc : List (FilterState T V M K)) (hk : k ≤ h.length) :
    rewindLoop b k h acc
      = some (h.take (h.length - ((h.take k).filter (isPost b)).length),
              acc ++ ((h.take k).filter (isPost b)).reverse) := by
  induction k generalizing h acc with
  | zero => simp [rewindLoop]
  | succ k ih =>
    rw [rewindLoop]
    have hk' : k < h.length := hk
    rw [List.getElem?_eq_getElem hk']
    dsimp only
    have htake : h.take (k + 1) = h.take k ++ [h[k]] := by
      rw [List.take_add_one, List.getElem?_eq_getElem hk']; rfl
    split
    · rename_i hp
      cases h with
      | nil => simp at hk
      | cons a t =>
        dsimp only
        rw [ih _ _ (by simp; simpa using hk)]
        have h1 : (a :: t).dropLast.take k = (a :: t).take k := by
          rw [List.dropLast_eq_take, List.take_take]
          congr 1
          simp; simpa using hk
        rw [h1, htake, List.filter_append]
        have h2 : List.filter (isPost b) [(a :: t)[k]] = [(a :: t)[k]] := by simp [hp]
        rw [h2]
        have h3 : (List.filter (isPost b) (List.take k (a :: t))).length ≤ k := by
          refine le_trans (List.length_filter_le _ _) ?_
          simp
        congr 2
        · rw [List.dropLast_eq_take, List.take_take]
          congr 1
          simp only [List.length_append, List.length_take, List.length_cons, List.length_nil] at *
          omega
        · simp
    · rename_i hp
      rw [ih _ _ (Nat.le_of_lt hk'), htake, List.filter_append]
      have h2 : List.filter (isPost b) [h[k]] = [] := by simp [hp]
      rw [h2]; simp

/-- history left after extracting everything at or after `b`, newest entry still included -/
def kept (f : Filter T V M K E) (b : Bound T) : List (FilterState T V M K) :=
  f.history.take (f.history.length - (f.history.filter (isPost b)).length)

/-- states handed back by a successful rewind -/
def post (f : Filter T V M K E) (b : Bound T) : List (FilterState T V M K) :=
  f.history.filter (isPost b) ++ [f.state]

theorem Bound_gt_not_post [SaneTime T] (b : Bound T) (t : T) (h : b.gt t = true) : b.leTime t = false := by
  cases b with
  | none => rfl
  | some s => exact SaneTime.lt_not_le _ _ h

theorem kept_ne_nil [SaneTime T] (f : Filter T V M K E) (b : Bound T) (front) (rest)
    (hh : f.history = front :: rest) (hb : b.gt front.timestamp = true) :
    ∃ r, f.kept b = front :: r := by
  have hnp : isPost b front = false := Bound_gt_not_post b _ hb
  unfold kept
  rw [hh]
  have : ((front :: rest).filter (isPost b)).length ≤ rest.length := by
    rw [List.filter_cons_of_neg (by simp [hnp])]
    exact List.length_filter_le _ _
  have h2 : (front :: rest).length - ((front :: rest).filter (isPost b)).length
      = (rest.length - ((front :: rest).filter (isPost b)).length) + 1 := by
    simp only [List.length_cons]; omega
  rw [h2, List.take_succ_cons]
  exact ⟨_, rfl⟩

/-- `rewindHistory` in closed form, for every history. -/
theorem rewindHistory_eq [SaneTime T] (f : Filter T V M K E) (b : Bound T) :
    f.rewindHistory b =
      if b.gt f.state.timestamp then some (f, true, [])
      else match f.history.head? with
        | none => some (f, false, [])
        | some front =>
          if b.gt front.timestamp then
            some ({ f with state := (f.kept b).getLast?.getD f.state, history := (f.kept b).dropLast },
              true, f.post b)
          else some (f, false, []) := by
  unfold rewindHistory
  split
  · rfl
  · cases hh : f.history with
    | nil => rfl
    | cons front rest =>
      dsimp only [List.head?_cons]
      split
      · rename_i hb
        rw [rewindLoop_eq _ _ _ _ (Nat.le_refl _)]
        dsimp only
        rw [List.take_length]
        obtain ⟨r, hr⟩ := kept_ne_nil f b front rest hh hb
        have hk : List.take ((front :: rest).length - (List.filter (isPost b) (front :: rest)).length)
            (front :: rest) = f.kept b := by rw [kept, hh]
        rw [hk]
        have hp : ([f.state] ++ (List.filter (isPost b) (front :: rest)).reverse).reverse = f.post b := by
          rw [post, hh]; simp
        rw [hp]
        have : (f.kept b).getLast? = some ((f.kept b).getLast (by rw [hr]; simp)) :=
          List.getLast?_eq_some_getLast _
        rw [this]
        rfl
      · rfl

/-- `rewindHistory` always terminates normally. -/
theorem rewindHistory_isSome [SaneTime T] (f : Filter T V M K E) (b : Bound T) :
    (f.rewindHistory b).isSome = true := by
  rw [rewindHistory_eq]
  split
  · rfl
  · split
    · rfl
    · split <;> rfl

/-- The successful, non-trivial rewind. -/
theorem rewindHistory_true [SaneTime T] (f : Filter T V M K E) (b : Bound T)
    (h1 : b.gt f.state.timestamp = false) (front) (rest) (hh : f.history = front :: rest)
    (hb : b.gt front.timestamp = true) :
    f.rewindHistory b = some ({ f with state := (f.kept b).getLast?.getD f.state,
                                       history := (f.kept b).dropLast }, true, f.post b) := by
  rw [rewindHistory_eq]
  simp [h1, hh, hb]

theorem rewindHistory_gt [SaneTime T] (f : Filter T V M K E) (b : Bound T)
    (h1 : b.gt f.state.timestamp = true) : f.rewindHistory b = some (f, true, []) := by
  rw [rewindHistory_eq]; simp [h1]

theorem rewindHistory_empty [SaneTime T] (f : Filter T V M K E) (b : Bound T)
    (h1 : b.gt f.state.timestamp = false) (hh : f.history = []) :
    f.rewindHistory b = some (f, false, []) := by
  rw [rewindHistory_eq]; simp [h1, hh]

theorem rewindHistory_false [SaneTime T] (f : Filter T V M K E) (b : Bound T)
    (h1 : b.gt f.state.timestamp = false) (front) (rest) (hh : f.history = front :: rest)
    (hb : b.gt front.timestamp = false) :
    f.rewindHistory b = some (f, false, []) := by
  rw [rewindHistory_eq]; simp [h1, hh, hb]

/-- all outcomes of a rewind -/
theorem rewindHistory_cases [SaneTime T] (f : Filter T V M K E) (b : Bound T) :
    (b.gt f.state.timestamp = true ∧ f.rewindHistory b = some (f, true, [])) ∨
    (b.gt f.state.timestamp = false ∧ (∀ s ∈ f.history.head?, b.gt s.timestamp = false) ∧
      f.rewindHistory b = some (f, false, [])) ∨
    (b.gt f.state.timestamp = false ∧ ∃ front rest, f.history = front :: rest ∧
      b.gt front.timestamp = true ∧
      f.rewindHistory b = some ({ f with state := (f.kept b).getLast?.getD f.state,
                                         history := (f.kept b).dropLast }, true, f.post b)) := by
  cases h1 : b.gt f.state.timestamp with
  | true => left; exact ⟨rfl, rewindHistory_gt f b h1⟩
  | false =>
    right
    cases hh : f.history with
    | nil => left; exact ⟨rfl, by simp, rewindHistory_empty f b h1 hh⟩
    | cons front rest =>
      cases hb : b.gt front.timestamp with
      | false => left; exact ⟨rfl, by simpa using hb, rewindHistory_false f b h1 front rest hh hb⟩
      | true => right; exact ⟨rfl, front, rest, rfl, hb, rewindHistory_true f b h1 front rest hh hb⟩

end Filter
end StateEstimation
