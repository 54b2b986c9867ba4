import Verif.Model.NaN
import Verif.Lemmas.Order
import Verif.Lemmas.TimeMap
import Verif.Examples.Counter

/-! # C65: NaN time stamps -/

namespace StateEstimation
namespace Props

open Filter

variable {T V M K E : Type}

theorem lt_nan [TimeOps T] (a : WithNaN T) : TimeOps.lt a .nan = false := by cases a <;> rfl
theorem nan_lt [TimeOps T] (a : WithNaN T) : TimeOps.lt .nan a = false := by cases a <;> rfl
theorem le_nan [TimeOps T] (a : WithNaN T) : TimeOps.le a .nan = false := by cases a <;> rfl
theorem nan_le [TimeOps T] (a : WithNaN T) : TimeOps.le .nan a = false := by cases a <;> rfl
theorem sub_nan [TimeOps T] (a : WithNaN T) : TimeOps.sub a .nan = .nan := by cases a <;> rfl
theorem nan_sub [TimeOps T] (a : WithNaN T) : TimeOps.sub .nan a = .nan := by cases a <;> rfl
theorem add_nan [TimeOps T] (a : WithNaN T) : TimeOps.add a .nan = .nan := by cases a <;> rfl
theorem nan_add [TimeOps T] (a : WithNaN T) : TimeOps.add .nan a = .nan := by cases a <;> rfl

/-- **C65** where it holds: with rewinding off and past measurements not allowed, every input stamped NaN is ignored by
`predict` and `correct`; `predict(NaN)` is ignored in every mode.  Missing: the other modes, where it is false. -/
theorem C65_partial [TimeOps T] (P : Plant (WithNaN T) V M K E) (f : Filter (WithNaN T) V M K E) :
    f.predictTime P .nan = some f ∧
    (f.params.rewindHistory = false → ∀ u, f.predictControl P u .nan = some f) ∧
    (f.params.rewindHistory = false → f.params.allowPast = false → ∀ z R m, f.correct P z R .nan m = some f) := by
  refine ⟨?_, fun hr u => ?_, fun hr ha z R m => ?_⟩
  · unfold predictTime
    rw [if_neg (by rw [lt_nan]; simp)]
  · unfold predictControl
    simp only [hr, Bool.not_false, if_true]
    rw [if_neg (by rw [le_nan]; simp)]
  · unfold correct
    simp only [hr, ha, Bool.not_false, if_true, Bool.false_or]
    rw [if_neg (by rw [nan_sub, le_nan]; simp)]

/-- a filter with rewinding on -/
def nanRewind : Filter (WithNaN ℤ) (List ℤ) ℤ Unit ℤ :=
  Filter.construct (counter _) ⟨true, .num 100, false⟩ 1 [0] 0 (.num 0)
/-- a filter with rewinding off -/
def nanPlain : Filter (WithNaN ℤ) (List ℤ) ℤ Unit ℤ :=
  Filter.construct (counter _) ⟨false, .num 100, true⟩ 1 [0] 0 (.num 0)

/-- **C65** is false with rewinding on: in every filter whatsoever, a control stamped NaN is applied (unless the models fail)
and the state time becomes NaN. -/
theorem C65_refuted_rewind [TimeOps T] (P : Plant (WithNaN T) V M K E) (f g : Filter (WithNaN T) V M K E) (u : V)
    (hr : f.params.rewindHistory = true) (hg : f.predictControl P u .nan = some g) : g.getStateTime = .nan := by
  unfold predictControl at hg
  simp only [hr, Bool.not_true, Bool.false_eq_true, if_false] at hg
  unfold insertInput at hg
  rw [if_neg (by rw [nan_lt]; simp)] at hg
  obtain ⟨g', h1, rfl⟩ := applyBatchInputs_some P f g _ hg
  show g'.pruned.state.timestamp = .nan
  rw [pruned_state]
  simp only [applyAll] at h1
  split at h1
  · simp at h1
  · rename_i g2 h2
    simp only [Option.some.injEq] at h1
    subst h1
    rw [applyInput_eq, Option.map_eq_some_iff] at h2
    obtain ⟨c, hc, rfl⟩ := h2
    have := Core.apply_ts_raw P _ _ _ hc
    show c.ts = .nan
    rw [this]
    simp only [Bool.true_or, if_true]
    rw [nan_sub, add_nan]

/-- the hypotheses are met, and the control is really applied -/
example : (nanRewind.predictControl (counter _) [5] .nan).map (fun g => (g.getState, g.getStateTime)) =
    some ([5], .nan) := by decide

/-- the calls that only hand data or settings to the filter -/
def Op.KeepsNaN : Op T V M K E → Prop
  | .init _ _ _ | .revertToState _ | .processQueues => False
  | _ => True

/-- Once the state time is NaN it stays NaN: no sequence of `predict`, `correct`, parameter or model changes brings the
filter back (only `initialize`, `revertToState` or `processQueues` can), and every `predict(t)` is ignored. -/
theorem C65_refuted_never_recovers [TimeOps T] (P : Plant (WithNaN T) V M K E) (sort)
    (ops : List (Op (WithNaN T) V M K E)) (hops : ∀ op ∈ ops, Op.KeepsNaN op) (f g : Filter (WithNaN T) V M K E)
    (hf : f.getStateTime = .nan) (hg : f.run P sort ops = some g) :
    g.getStateTime = .nan ∧ ∀ t, g.predictTime P t = some g := by
  have hap : ∀ (f g : Filter (WithNaN T) V M K E) i, f.state.timestamp = .nan → Filter.applyInput P f i = some g →
      g.state.timestamp = .nan := by
    intro f g i hf h2
    rw [applyInput_eq, Option.map_eq_some_iff] at h2
    obtain ⟨c, hc, rfl⟩ := h2
    have := Core.apply_ts_raw P _ _ _ hc
    show c.ts = .nan
    rw [this]
    have hts : f.core.ts = .nan := hf
    rw [hts, nan_add]
    split <;> rfl
  have hapb : ∀ (f g : Filter (WithNaN T) V M K E) i, f.state.timestamp = .nan →
      ((Filter.applyInput P f i).bind fun g => g.pruneHistory) = some g → g.state.timestamp = .nan := by
    intro f g i hf h2
    rw [Option.bind_eq_some_iff] at h2
    obtain ⟨g', h3, h4⟩ := h2
    rw [pruneHistory_pruned, Option.some.injEq] at h4
    rw [← h4, pruned_state]
    exact hap f g' i hf h3
  have hins : ∀ (f g : Filter (WithNaN T) V M K E) i, f.state.timestamp = .nan → Filter.insertInput P f i = some g →
      g.state.timestamp = .nan := by
    intro f g i hf h
    unfold insertInput at h
    rw [if_neg (by rw [hf, lt_nan]; simp)] at h
    obtain ⟨g', h1, rfl⟩ := applyBatchInputs_some P f g _ h
    rw [pruned_state]
    simp only [applyAll] at h1
    split at h1
    · simp at h1
    · rename_i g2 h2
      simp only [Option.some.injEq] at h1
      subst h1
      exact hap f g2 i hf h2
  have hstep : ∀ (f g : Filter (WithNaN T) V M K E) op, Op.KeepsNaN op → f.state.timestamp = .nan →
      f.step P sort op = some g → g.state.timestamp = .nan := by
    intro f g op hop hf h
    cases op with
    | init | revertToState | processQueues => exact absurd hop (by simp [Op.KeepsNaN])
    | predictTime t =>
      change f.predictTime P t = some g at h
      rw [TimeEmb.predictTime_bind] at h
      split at h
      · exact hapb f g _ hf h
      · simp only [Option.some.injEq] at h; rw [← h]; exact hf
    | predictControl u t =>
      change f.predictControl P u t = some g at h
      rw [TimeEmb.predictControl_bind] at h
      split at h
      · split at h
        · exact hapb f g _ hf h
        · simp only [Option.some.injEq] at h; rw [← h]; exact hf
      · exact hins f g _ hf h
    | correct z c t m =>
      change f.correct P z c t m = some g at h
      rw [TimeEmb.correct_bind] at h
      split at h
      · split at h
        · exact hapb f g _ hf h
        · simp only [Option.some.injEq] at h; rw [← h]; exact hf
      · exact hins f g _ hf h
    | userModel k =>
      simp only [Filter.step, Option.map_eq_some_iff] at h
      obtain ⟨e, _, rfl⟩ := h
      exact hf
    | _ =>
      simp only [Filter.step, Option.some.injEq] at h
      rw [← h]
      exact hf
  have hrun : g.state.timestamp = .nan := by
    induction ops generalizing f with
    | nil => simp only [Filter.run, Option.some.injEq] at hg; rw [← hg]; exact hf
    | cons op ops ih =>
      rw [Filter.run] at hg
      split at hg
      · simp at hg
      · rename_i f' h
        exact ih (fun o ho => hops o (by simp [ho])) f' (hstep f f' op (hops op (by simp)) hf h) hg
  refine ⟨hrun, fun t => ?_⟩
  unfold predictTime
  rw [hrun, if_neg (by rw [nan_lt]; simp)]

/-- a poisoned filter is given good data for the rest of its life: nothing helps -/
example : (Filter.run (counter (WithNaN ℤ)) id nanRewind
    [.predictControl [5] .nan, .predictControl [1] (.num 3), .correct [7] 1 (.num 4) (some ()), .predictTime (.num 9)]).map
    (fun g => g.getStateTime) = some .nan := by decide

/-- **C65** is false for measurements as well: with rewinding on, or with past measurements allowed, a measurement stamped NaN
is applied. -/
theorem C65_refuted_measurement :
    (nanRewind.correct (counter _) [8] 1 .nan (some ())).map (fun g => (g.getState, g.getStateTime)) =
      some ([4], .num 0) ∧
    (nanPlain.correct (counter _) [8] 1 .nan (some ())).map (fun g => (g.getState, g.getStateTime)) =
      some ([4], .num 0) := by decide

/-- **C65** is false for queued inputs, even with rewinding off: the queue applies a control stamped NaN and the clock is NaN. -/
theorem C65_refuted_queue (sort) (hsort : IsTimeSort (T := WithNaN ℤ) (V := List ℤ) (M := ℤ) (K := Unit) sort) :
    (Filter.run (counter (WithNaN ℤ)) sort nanPlain [.enqueueControl [5] .nan, .processQueues]).map
      (fun g => (g.getState, g.getStateTime)) = some ([5], .nan) := by
  have h : sort [⟨[5], 1, .nan, true, none⟩] = [⟨[5], 1, .nan, true, none⟩] :=
    List.perm_singleton.mp (hsort _).1
  have h' : sort ([] ++ [⟨[5], 1, .nan, true, none⟩] ++ []) = [⟨[5], 1, .nan, true, none⟩] := h
  have hrun : Filter.run (counter (WithNaN ℤ)) sort nanPlain [.enqueueControl [5] .nan, .processQueues] =
      (TimeEmb.queueTail (counter (WithNaN ℤ)) sort (nanPlain.enqueueControl (counter (WithNaN ℤ)) [5] .nan)
        [⟨[5], 1, .nan, true, none⟩] []) := by
    have : (nanPlain.enqueueControl (counter (WithNaN ℤ)) [5] .nan).processQueues (counter (WithNaN ℤ)) sort = _ :=
      TimeEmb.processQueues_tail _ _ _
    rw [Filter.run, Filter.step]
    simp only [Filter.run, Filter.step]
    rw [this]
    cases h : TimeEmb.queueTail (counter (WithNaN ℤ)) sort (nanPlain.enqueueControl (counter (WithNaN ℤ)) [5] .nan)
        [⟨[5], 1, .nan, true, none⟩] [] with
    | none => exact (by
        split
        · rfl
        · rename_i h2
          exact absurd (h2.symm.trans h) (by simp))
    | some g => exact (by
        split
        · rename_i h2
          exact absurd (h2.symm.trans h) (by simp)
        · rename_i h2
          exact h2.symm.trans h)
  have htail : TimeEmb.queueTail (counter (WithNaN ℤ)) sort (nanPlain.enqueueControl (counter (WithNaN ℤ)) [5] .nan)
        [⟨[5], 1, .nan, true, none⟩] [] = TimeEmb.queueTail (counter (WithNaN ℤ)) id
        (nanPlain.enqueueControl (counter (WithNaN ℤ)) [5] .nan) [⟨[5], 1, .nan, true, none⟩] [] := by
    show (Filter.applyBatchInputs (counter (WithNaN ℤ)) _ (sort ([] ++ [⟨[5], 1, .nan, true, none⟩] ++ []))).map _ = _
    rw [h']
    rfl
  rw [hrun, htail]
  decide

end Props
end StateEstimation
