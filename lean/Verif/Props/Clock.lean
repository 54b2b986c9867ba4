import Verif.Lemmas.Queues
import Verif.Examples.Toy

/-! # C01-C04: which inputs are accepted, and what happens to the state time -/

namespace StateEstimation
namespace Props

open Filter

variable {T V M K E : Type}

/-- **C01**. `predict(t)` with `t` not strictly later than the state time (comparison exactly as in C++, so NaN
included) leaves the entire filter, models included, as it was. -/
theorem C01_predict_nonfuture_noop [TimeOps T] (P : Plant T V M K E) (f : Filter T V M K E) (t : T)
    (h : ¬ TimeOps.lt f.getStateTime t = true) : f.predictTime P t = some f := by
  have h' : ¬ TimeOps.lt f.state.timestamp t = true := h
  unfold predictTime
  rw [if_neg h']

/-- C01 for an ordered clock, and in the form "no later call can tell": every continuation gives the same result
with and without the call. -/
theorem C01_predict_nonfuture_unobservable [LinearOrder T] [LawfulTime T] (P : Plant T V M K E) (sort)
    (f : Filter T V M K E) (t : T) (h : t ≤ f.getStateTime) (later : List (Op T V M K E)) :
    f.run P sort (.predictTime t :: later) = f.run P sort later := by
  rw [run]
  have : f.step P sort (.predictTime t) = some f :=
    C01_predict_nonfuture_noop P f t (by rw [LawfulTime.lt_iff, not_lt]; exact h)
  rw [this]

example : (0 : ℤ) ≤ toyRewind.getStateTime := by decide
/-- the call is not a no-op for future times -/
example : toyRewind.predictTime toy 3 ≠ some toyRewind := by decide

/-- **C02** for controls. -/
theorem C02_past_control_ignored [LinearOrder T] [LawfulTime T] (P : Plant T V M K E)
    (f : Filter T V M K E) (u : V) (t : T) (hr : f.params.rewindHistory = false) (h : t < f.getStateTime) :
    f.predictControl P u t = some f := by
  unfold predictControl
  have h' : ¬ TimeOps.le f.state.timestamp t = true := by rw [LawfulTime.le_iff, not_le]; exact h
  simp only [hr, Bool.not_false, if_true]
  rw [if_neg h']

/-- **C02** for measurements. -/
theorem C02_past_measurement_ignored [LinearOrder T] [LawfulTime T] (P : Plant T V M K E)
    (f : Filter T V M K E) (z : V) (c : M) (t : T) (m : Option K) (hr : f.params.rewindHistory = false)
    (ha : f.params.allowPast = false) (h : t < f.getStateTime) :
    f.correct P z c t m = some f := by
  unfold correct
  have h' : ¬ TimeOps.le TimeOps.zero (TimeOps.sub t f.state.timestamp) = true := by
    rw [LawfulTime.le_iff, LawfulTime.sub_nonneg_iff, not_le]; exact h
  simp only [hr, ha, Bool.not_false, if_true, Bool.false_or]
  rw [if_neg h']

example : toyPlain.params.rewindHistory = false ∧ toyPlain.params.allowPast = false ∧
    (-1 : ℤ) < toyPlain.getStateTime := by decide

/-- **C03**. In-order inputs (not earlier than the state time), in both modes: the state time becomes the time of
the input. -/
theorem C03_inorder_sets_clock [LinearOrder T] [ExactTime T] (P : Plant T V M K E)
    (f g : Filter T V M K E) (t : T) :
    (f.getStateTime < t → f.predictTime P t = some g → g.getStateTime = t) ∧
    (∀ u, f.getStateTime ≤ t → f.predictControl P u t = some g → g.getStateTime = t) ∧
    (∀ z c m, f.getStateTime ≤ t → f.correct P z c t m = some g → g.getStateTime = t) := by
  have hins : ∀ inp : FilterInput T V M K, inp.timestamp = t → f.state.timestamp ≤ t →
      insertInput P f inp = some g → g.state.timestamp = t := by
    intro inp hi ht h
    unfold insertInput at h
    have hlt : ¬ TimeOps.lt inp.timestamp f.state.timestamp = true := by
      rw [LawfulTime.lt_iff, not_lt, hi]; exact ht
    rw [if_neg hlt] at h
    obtain ⟨g', h1, rfl⟩ := applyBatchInputs_some P f g _ h
    rw [pruned_state]
    simp only [applyAll] at h1
    split at h1
    · simp at h1
    · rename_i g2 h2
      simp only [Option.some.injEq] at h1
      subst h1
      rw [applyInput_time P f g2 inp h2, hi]
      split
      · rfl
      · exact max_eq_right ht
  refine ⟨?_, ?_, ?_⟩
  · intro h hg
    rcases predictTime_some P f g t hg with ⟨h1, _⟩ | ⟨_, g', h2, rfl⟩
    · rw [lt_false_iff] at h1; exact absurd h (not_lt.mpr h1)
    · show g'.pruned.state.timestamp = t
      rw [pruned_state, applyInput_time P f g' _ h2]; rfl
  · intro u h hg
    rcases predictControl_some P f g u t hg with ⟨_, h1, _⟩ | ⟨_, _, g', h2, rfl⟩ | ⟨_, h2⟩
    · exact absurd ((LawfulTime.le_iff _ _).mpr h) (by simp [getStateTime, h1])
    · show g'.pruned.state.timestamp = t
      rw [pruned_state, applyInput_time P f g' _ h2]; rfl
    · exact hins _ rfl h h2
  · intro z c m h hg
    rcases correct_some P f g z c t m hg with ⟨_, _, h1, _⟩ | ⟨_, _, g', h2, rfl⟩ | ⟨_, h2⟩
    · exact absurd ((LawfulTime.le_iff _ _).mpr ((LawfulTime.sub_nonneg_iff _ _).mpr h)) (by simp [getStateTime, h1])
    · show g'.pruned.state.timestamp = t
      rw [pruned_state, applyInput_time P f g' _ h2]
      exact max_eq_right h
    · exact hins _ rfl h h2

/-- **C03**. A measurement in the past that is accepted because of `allow_measurements_in_past` leaves the time. -/
theorem C03_allowed_past_keeps_clock [LinearOrder T] [ExactTime T] (P : Plant T V M K E)
    (f g : Filter T V M K E) (z : V) (c : M) (t : T) (m : Option K)
    (hr : f.params.rewindHistory = false) (h : t ≤ f.getStateTime)
    (hg : f.correct P z c t m = some g) : g.getStateTime = f.getStateTime := by
  rcases correct_some P f g z c t m hg with ⟨_, _, _, rfl⟩ | ⟨_, _, g', h2, rfl⟩ | ⟨h1, _⟩
  · rfl
  · show g'.pruned.state.timestamp = f.state.timestamp
    rw [pruned_state, applyInput_time P f g' _ h2]
    exact max_eq_left h
  · simp [hr] at h1

/-- **C03**, late inputs with rewinding on, in every reachable filter: whether the input is accepted or not the
time afterwards is the time before. -/
theorem C03_late_input_keeps_clock [LinearOrder T] [ExactTime T] (P : Plant T V M K E) (sort)
    (hsort : IsTimeSort sort) (f g : Filter T V M K E) (hf : ReachRewind P sort f)
    (op : Op T V M K E) (inp : FilterInput T V M K) (hop : op.asInput P f = some inp)
    (ht : inp.timestamp < f.getStateTime) (hg : f.step P sort op = some g) :
    g.getStateTime = f.getStateTime := by
  obtain ⟨hinv, hp⟩ := hf.inv P sort hsort
  rw [step_asInput P sort f op inp hp hop] at hg
  obtain ⟨_, _, h3⟩ := insertInput_inv P f g inp hp hinv hg
  rcases h3 with ⟨rfl, _⟩ | h3
  · rfl
  · exact h3.trans (max_eq_left (le_of_lt ht))

/-- hypotheses met by a filter that has really moved, with a late input that is accepted -/
example : ∃ f g, ReachRewind toy insSort f ∧ f.getStateTime = 7 ∧
    f.step toy insSort (.predictControl [2] 5) = some g ∧ g ≠ f ∧ g.getStateTime = 7 :=
  ⟨_, _, ReachRewind.run toy insSort _ _ [.predictControl [5] 3, .correct [1] 1 7 (some ())]
    (.start toyRewind [0] 0 0 rfl) (by simp [Op.IsUnqueued]) rfl, by decide, rfl, by decide, by decide⟩

/-- **C04**. Every `predict(t)`, `predict(u,t)` and `correct` leaves a state time that is not smaller than before:
with rewinding off in any filter whatsoever, with rewinding on in every reachable filter.  Late inputs and
re-initialisations included. -/
theorem C04_time_never_decreases [LinearOrder T] [ExactTime T] (P : Plant T V M K E) (sort)
    (hsort : IsTimeSort sort) (f g : Filter T V M K E)
    (hf : f.params.rewindHistory = true → ReachRewind P sort f)
    (op : Op T V M K E) (hop : op.IsDirect) (hg : f.step P sort op = some g) :
    f.getStateTime ≤ g.getStateTime := by
  show f.state.timestamp ≤ g.state.timestamp
  have hins : ∀ inp : FilterInput T V M K, f.params.rewindHistory = true → insertInput P f inp = some g →
      f.state.timestamp ≤ g.state.timestamp := by
    intro inp hp h
    obtain ⟨hinv, _⟩ := (hf hp).inv P sort hsort
    obtain ⟨_, _, h3⟩ := insertInput_inv P f g inp hp hinv h
    rcases h3 with ⟨rfl, _⟩ | h3
    · exact le_refl _
    · rw [h3]; exact le_max_left _ _
  cases op with
  | predictTime t =>
    rcases predictTime_some P f g t hg with ⟨_, rfl⟩ | ⟨h1, g', h2, rfl⟩
    · exact le_refl _
    · rw [LawfulTime.lt_iff] at h1
      rw [pruned_state, applyInput_time P f g' _ h2]; exact h1.le
  | predictControl u t =>
    rcases predictControl_some P f g u t hg with ⟨_, _, rfl⟩ | ⟨_, h1, g', h2, rfl⟩ | ⟨hp, h2⟩
    · exact le_refl _
    · rw [LawfulTime.le_iff] at h1
      rw [pruned_state, applyInput_time P f g' _ h2]; exact h1
    · exact hins _ hp h2
  | correct z c t m =>
    rcases correct_some P f g z c t m hg with ⟨_, _, _, rfl⟩ | ⟨_, _, g', h2, rfl⟩ | ⟨hp, h2⟩
    · exact le_refl _
    · rw [pruned_state, applyInput_time P f g' _ h2]; exact le_max_left _ _
    · exact hins _ hp h2
  | _ => exact absurd hop (by simp [Op.IsDirect])

/-- a run with late inputs, a revert and a re-initialisation in it meets the hypotheses -/
example : ∃ f g, ReachRewind toy insSort f ∧
    f.step toy insSort (.correct [1] 1 6 (some ())) = some g ∧ f.getStateTime = 7 ∧ g ≠ f :=
  ⟨_, _, ReachRewind.run toy insSort _ _
      [.predictControl [5] 5, .correct [1] 1 9 (some ()), .init [1] 1 2, .predictControl [5] 5,
       .correct [1] 1 9 (some ()), .predictControl [2] 7, .revertToState 8]
    (.start toyRewind [1] 1 2 rfl) (by simp [Op.IsUnqueued]) rfl, rfl, by decide, by decide⟩

end Props
end StateEstimation
