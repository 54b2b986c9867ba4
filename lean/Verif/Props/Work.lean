import Verif.Lemmas.Meter
import Verif.Examples.Toy
import Mathlib.Tactic.Ring

/-!
# C92: the work of a call is bounded by what is remembered and queued

`Plant.metered` (Spec/Meter.lean) counts how often the filter equations are run.  `Filter.workBound` is the bound.
-/

set_option linter.unusedSectionVars false

namespace StateEstimation
namespace Props

open Filter Meter

variable {T V M K E : Type}

section step
variable [LinearOrder T] [LawfulTime T]

theorem insertInput_spec (P : Plant T V M K E) (f : Filter T V M K (E × Nat)) (hr : f.params.rewindHistory = true)
    (i : FilterInput T V M K) :
    (insertInput P.metered f i).map unmetered = insertInput P f.unmetered i ∧
    ∀ g, insertInput P.metered f i = some g → g.work ≤ f.work + cost i + 2 * (f.undone i.timestamp).length ∧
      g.retained.length ≤ f.retained.length + 1 ∧ (g.queued, g.params) = (f.queued, f.params) := by
  unfold insertInput
  have e1 : f.unmetered.state = f.state := rfl
  rw [e1]
  by_cases hlt : TimeOps.lt i.timestamp f.state.timestamp = true
  · rw [if_pos hlt, if_pos hlt, rewind_spec]
    cases h : f.rewindHistory (some i.timestamp) with
    | none => exact ⟨rfl, fun g hg => by simp at hg⟩
    | some r =>
      obtain ⟨g1, ok, post⟩ := r
      simp only [Option.map_some]
      cases ok with
      | false =>
        refine ⟨rfl, fun g hg => ?_⟩
        simp only [Option.some.injEq] at hg
        subst hg
        exact ⟨by omega, by omega, rfl⟩
      | true =>
        dsimp only
        obtain ⟨a1, a2⟩ := batch_spec P (i :: post.map FilterState.prevInput) g1
        refine ⟨a1, fun g hg => ?_⟩
        obtain ⟨b1, b2, b3⟩ := a2 g hg
        obtain ⟨c1, c2, c3, c4, c5⟩ := rewind_len f g1 _ _ _ h
        have hw : g1.work = f.work := congrArg Prod.snd c1
        have hs := sum_cost (post.map FilterState.prevInput)
        have hp : post.length ≤ (f.undone i.timestamp).length := by
          rcases c5 with rfl | ⟨rfl, _⟩
          · simp
          · have ht := (LawfulTime.lt_iff _ _).mp hlt
            unfold undone
            rw [if_pos ⟨hr, ht⟩]
            unfold retained
            rw [List.filter_append]
            have e2 : List.filter (fun s : FilterState T V M K => decide (i.timestamp ≤ s.timestamp)) [f.state] = [f.state] := by
              simp [ht.le]
            have e3 : List.filter (isPost (some i.timestamp)) f.history
                = List.filter (fun s : FilterState T V M K => decide (i.timestamp ≤ s.timestamp)) f.history := by
              refine List.filter_congr fun s _ => ?_
              rw [Bool.eq_iff_iff]
              simp [isPost, Bound.leTime, LawfulTime.le_iff]
            rw [e2, e3]
        simp only [List.map_cons, List.sum_cons, List.length_map, List.length_cons] at b1 b2 hs
        refine ⟨by omega, by omega, b3.trans (by rw [c2, c3])⟩
  · rw [if_neg hlt, if_neg hlt]
    obtain ⟨a1, a2⟩ := batch_spec P [i] f
    refine ⟨a1, fun g hg => ?_⟩
    obtain ⟨b1, b2, b3⟩ := a2 g hg
    simp only [List.map_cons, List.sum_cons, List.map_nil, List.sum_nil, List.length_cons, List.length_nil] at b1 b2
    exact ⟨by omega, by omega, b3⟩

/-- The two queues after pruning, and the states taken back: filter_base.hpp:172-198. -/
def queueStart {E' : Type} (f : Filter T V M K E') (cq mq : List (FilterInput T V M K)) :
    Option (Filter T V M K E' × List (FilterState T V M K)) :=
  if f.params.rewindHistory then (f.rewindHistory (oldestQueued cq mq)).map fun r => (r.1, r.2.2) else some (f, [])

theorem processQueues_queueStart {E' : Type} (Q : Plant T V M K E')
    (sort : List (FilterInput T V M K) → List (FilterInput T V M K)) (f : Filter T V M K E')
    (cq mq : List (FilterInput T V M K)) (hc : f.pruneQueue f.controlQueue = cq) (hm : f.pruneQueue f.measQueue = mq) :
    f.processQueues Q sort = (queueStart { f with controlQueue := cq, measQueue := mq } cq mq).bind fun r =>
      (applyBatchInputs Q r.1 (sort (r.2.map FilterState.prevInput ++ cq ++ mq))).map
        fun g => g.clearControlQueue.clearMeasurementQueue := by
  unfold processQueues queueStart
  dsimp only
  rw [hc, hm]
  have fin : ∀ (o : Option (Filter T V M K E' × List (FilterState T V M K))),
      (match o with
      | none => none
      | some (g, post) =>
        match applyBatchInputs Q g (sort (post.map FilterState.prevInput ++ cq ++ mq)) with
        | none => none
        | some g => some g.clearControlQueue.clearMeasurementQueue) = o.bind fun r =>
      (applyBatchInputs Q r.1 (sort (r.2.map FilterState.prevInput ++ cq ++ mq))).map
        fun g => g.clearControlQueue.clearMeasurementQueue := by
    rintro (_ | ⟨g, post⟩)
    · rfl
    · dsimp only [Option.bind_some]
      cases applyBatchInputs Q g (sort (post.map FilterState.prevInput ++ cq ++ mq)) <;> rfl
  refine Eq.trans (fin _) (congrArg (fun o => Option.bind o _) ?_)
  by_cases hr : f.params.rewindHistory = true
  · rw [if_pos hr, if_pos hr]
    cases rewindHistory ({ f with controlQueue := cq, measQueue := mq } : Filter T V M K E') (oldestQueued cq mq) <;> rfl
  · rw [if_neg hr, if_neg hr]

theorem queueStart_spec (f : Filter T V M K (E × Nat)) (cq mq : List (FilterInput T V M K)) :
    queueStart f.unmetered cq mq = (queueStart f cq mq).map (fun r => (r.1.unmetered, r.2)) ∧
    ∀ g post, queueStart f cq mq = some (g, post) → g.work = f.work ∧
      g.retained.length + post.length ≤ f.retained.length ∧
      g.params = f.params ∧ (post = [] ∨ f.params.rewindHistory = true ∧ post = f.history.filter (isPost (oldestQueued cq mq)) ++ [f.state] ∧
        (oldestQueued cq mq).gt f.state.timestamp = false) := by
  unfold queueStart
  by_cases hr : f.params.rewindHistory = true
  · rw [if_pos (show f.unmetered.params.rewindHistory = true from hr), if_pos hr, rewind_spec]
    refine ⟨by rw [Option.map_map, Option.map_map]; rfl, fun g post h => ?_⟩
    obtain ⟨⟨g', ok, post'⟩, h1, h2⟩ := Option.map_eq_some_iff.mp h
    obtain ⟨rfl, rfl⟩ := Prod.mk.inj h2
    obtain ⟨c1, c2, c3, c4, c5⟩ := rewind_len f g' _ _ _ h1
    refine ⟨congrArg Prod.snd c1, c4, c3, ?_⟩
    rcases c5 with h | ⟨h, h'⟩
    · exact Or.inl h
    · exact Or.inr ⟨hr, h, h'⟩
  · rw [if_neg (show ¬ f.unmetered.params.rewindHistory = true from hr), if_neg hr]
    refine ⟨rfl, fun g post h => ?_⟩
    simp only [Option.some.injEq, Prod.mk.injEq] at h
    obtain ⟨rfl, rfl⟩ := h
    exact ⟨rfl, by simp, rfl, Or.inl rfl⟩

theorem pruneQueue_len (f : Filter T V M K E) (q : List (FilterInput T V M K)) : (f.pruneQueue q).length ≤ q.length := by
  unfold pruneQueue
  split
  · exact List.length_filter_le _ _
  · exact le_rfl

theorem queues_spec (P : Plant T V M K E) (sort : List (FilterInput T V M K) → List (FilterInput T V M K))
    (hsort : ∀ l, (sort l).Perm l) (f : Filter T V M K (E × Nat)) :
    (f.processQueues P.metered sort).map unmetered = f.unmetered.processQueues P sort ∧
    ∀ g, f.processQueues P.metered sort = some g →
      g.work ≤ f.work + 2 * (f.queued.length + f.undoneByQueues.length) ∧
      g.retained.length + g.queued.length ≤ f.retained.length + f.queued.length ∧ g.queued = [] ∧ g.params = f.params := by
  obtain ⟨cq, hcq⟩ : ∃ cq, f.pruneQueue f.controlQueue = cq := ⟨_, rfl⟩
  obtain ⟨mq, hmq⟩ : ∃ mq, f.pruneQueue f.measQueue = mq := ⟨_, rfl⟩
  have hlen : cq.length + mq.length ≤ f.queued.length := by
    have h1 := pruneQueue_len f f.controlQueue
    have h2 := pruneQueue_len f f.measQueue
    rw [hcq] at h1
    rw [hmq] at h2
    simp only [queued, List.length_append]
    omega
  rw [processQueues_queueStart P.metered sort f cq mq hcq hmq, processQueues_queueStart P sort f.unmetered cq mq hcq hmq]
  obtain ⟨a1, a2⟩ := queueStart_spec { f with controlQueue := cq, measQueue := mq } cq mq
  have a1' : queueStart { f.unmetered with controlQueue := cq, measQueue := mq } cq mq
      = (queueStart { f with controlQueue := cq, measQueue := mq } cq mq).map (fun r => (r.1.unmetered, r.2)) := a1
  rw [a1']
  cases hs : queueStart { f with controlQueue := cq, measQueue := mq } cq mq with
  | none => exact ⟨rfl, fun g hg => by simp at hg⟩
  | some r =>
    obtain ⟨g1, post⟩ := r
    obtain ⟨hw, hl, hpar, hp⟩ := a2 g1 post hs
    have hw' : g1.work = f.work := hw
    have hl' : g1.retained.length + post.length ≤ f.retained.length := hl
    obtain ⟨b1, b2⟩ := batch_spec P (sort (post.map FilterState.prevInput ++ cq ++ mq)) g1
    simp only [Option.map_some, Option.bind_some]
    rw [← b1]
    cases hb : applyBatchInputs P.metered g1 (sort (post.map FilterState.prevInput ++ cq ++ mq)) with
    | none => exact ⟨rfl, fun g hg => by simp at hg⟩
    | some g2 =>
      refine ⟨rfl, fun g hg => ?_⟩
      simp only [Option.map_some, Option.some.injEq] at hg
      subst hg
      obtain ⟨d1, d2, d3⟩ := b2 g2 hb
      have hs := sum_cost (sort (post.map FilterState.prevInput ++ cq ++ mq))
      have hp' : (sort (post.map FilterState.prevInput ++ cq ++ mq)).length = post.length + (cq.length + mq.length) := by
        rw [(hsort _).length_eq]; simp only [List.length_append, List.length_map]; omega
      have hu : post.length ≤ f.undoneByQueues.length := by
        rcases hp with rfl | ⟨hr, rfl, c6⟩
        · simp
        · have hr' : f.params.rewindHistory = true := hr
          unfold undoneByQueues
          rw [if_pos hr']
          cases hb : oldestQueued cq mq with
          | none =>
            rw [hb] at c6
            have c6' : TimeOps.le f.state.timestamp f.state.timestamp = false := c6
            rw [(LawfulTime.le_iff _ _).mpr le_rfl] at c6'
            exact absurd c6' (by simp)
          | some t =>
            rw [hb] at c6
            obtain ⟨⟨i, hi, hit⟩, _⟩ := oldestQueued_some cq mq t hb
            have hiq : i ∈ f.queued := by
              rcases List.mem_append.mp hi with hi | hi
              · exact List.mem_append_left _ (pruneQueue_sub f _ i (hcq ▸ hi))
              · exact List.mem_append_right _ (pruneQueue_sub f _ i (hmq ▸ hi))
            have any : ∀ s : FilterState T V M K, t ≤ s.timestamp →
                (f.queued.any fun i => decide (i.timestamp ≤ s.timestamp)) = true := fun s hs =>
              List.any_eq_true.mpr ⟨i, hiq, by simpa [hit] using hs⟩
            have hts : t ≤ f.state.timestamp := by
              have c6' : TimeOps.lt f.state.timestamp t = false := c6
              rw [← not_lt, ← LawfulTime.lt_iff, c6']
              simp
            unfold retained
            rw [List.filter_append, List.length_append, List.length_append]
            have e4 : List.filter (fun s : FilterState T V M K => f.queued.any fun i => decide (i.timestamp ≤ s.timestamp)) [f.state]
                = [f.state] := by
              rw [List.filter_cons, if_pos (any _ hts), List.filter_nil]
            rw [e4]
            refine Nat.add_le_add_right ?_ _
            refine List.Sublist.length_le (List.monotone_filter_right _ fun s hs => any s ?_)
            exact (LawfulTime.le_iff _ _).mp hs
      have q1 : (clearMeasurementQueue g2.clearControlQueue).work = g2.work := rfl
      have q2 : (clearMeasurementQueue g2.clearControlQueue).retained = g2.retained := rfl
      have q3 : (clearMeasurementQueue g2.clearControlQueue).queued = [] := rfl
      rw [q1, q2, q3, List.length_nil]
      refine ⟨by omega, by omega, rfl, (congrArg Prod.snd d3).trans hpar⟩

theorem predictTime_bind {E' : Type} (Q : Plant T V M K E') (f : Filter T V M K E') (t : T) :
    predictTime Q f t = if TimeOps.lt f.state.timestamp t then
      (applyInput Q f ⟨Q.emptyV, Q.rc f.env, t, true, none⟩).bind pruneHistory else some f := by
  unfold predictTime
  cases applyInput Q f ⟨Q.emptyV, Q.rc f.env, t, true, none⟩ <;> rfl

theorem predictControl_bind {E' : Type} (Q : Plant T V M K E') (f : Filter T V M K E') (u : V) (t : T) :
    predictControl Q f u t = if !f.params.rewindHistory then
      if TimeOps.le f.state.timestamp t then (applyInput Q f ⟨u, Q.rc f.env, t, true, none⟩).bind pruneHistory else some f
      else insertInput Q f ⟨u, Q.rc f.env, t, true, none⟩ := by
  unfold predictControl
  dsimp only
  cases applyInput Q f ⟨u, Q.rc f.env, t, true, none⟩ <;> rfl

theorem correct_bind {E' : Type} (Q : Plant T V M K E') (f : Filter T V M K E') (z : V) (R : M) (t : T) (m : Option K) :
    correct Q f z R t m = if !f.params.rewindHistory then
      if f.params.allowPast || TimeOps.le TimeOps.zero (TimeOps.sub t f.state.timestamp) then
        (applyInput Q f ⟨z, R, t, false, m⟩).bind pruneHistory else some f
      else insertInput Q f ⟨z, R, t, false, m⟩ := by
  unfold correct
  dsimp only
  cases applyInput Q f ⟨z, R, t, false, m⟩ <;> rfl

/-- One call on the metered filter. -/
theorem step_spec (P : Plant T V M K E) (sort : List (FilterInput T V M K) → List (FilterInput T V M K))
    (hsort : ∀ l, (sort l).Perm l) (f : Filter T V M K (E × Nat)) (op : Op T V M K E) :
    (f.step P.metered sort op.metered).map unmetered = f.unmetered.step P sort op ∧
    ∀ g, f.step P.metered sort op.metered = some g → g.work ≤ f.work + f.unmetered.workBound op ∧
      g.retained.length + g.queued.length ≤ f.retained.length + f.queued.length + 1 ∧
      (f.params.rewindHistory = false → g.work + 2 * g.queued.length ≤ f.work + 2 * f.queued.length + 2) ∧
      (g.params = f.params ∨ ∃ p, op = .setParams p ∧ g.params = p) := by
  have hst : f.unmetered.state = f.state := rfl
  have hpr : f.unmetered.params = f.params := rfl
  have und : f.params.rewindHistory = false → ∀ t, (f.unmetered.undone t).length = 0 := fun hr t => by
    unfold undone
    rw [if_neg (fun h => absurd (h.1.symm.trans hr) (by simp))]
    rfl
  have undq : f.params.rewindHistory = false → f.undoneByQueues.length = 0 := fun hr => by
    unfold undoneByQueues
    rw [if_neg (fun h => absurd (h.symm.trans hr) (by simp))]
    rfl
  have fin : ∀ (o : Option (Filter T V M K (E × Nat))) (o' : Option (Filter T V M K E)) (w : Nat),
      (f.params.rewindHistory = false → w ≤ 2) →
      (o.map unmetered = o' ∧ ∀ g, o = some g → g.work ≤ f.work + w ∧ g.retained.length ≤ f.retained.length + 1 ∧
        (g.queued, g.params) = (f.queued, f.params)) → o.map unmetered = o' ∧ ∀ g, o = some g → g.work ≤ f.work + w ∧
        g.retained.length + g.queued.length ≤ f.retained.length + f.queued.length + 1 ∧
      (f.params.rewindHistory = false → g.work + 2 * g.queued.length ≤ f.work + 2 * f.queued.length + 2) ∧
      (g.params = f.params ∨ ∃ p, op = .setParams p ∧ g.params = p) := by
    rintro o o' w hw ⟨h1, h2⟩
    refine ⟨h1, fun g hg => ?_⟩
    obtain ⟨a, b, c⟩ := h2 g hg
    have c1 := congrArg Prod.fst c
    have c2 := congrArg Prod.snd c
    dsimp only at c1 c2
    rw [c1]
    exact ⟨a, by omega, fun hr => by have := hw hr; omega, Or.inl c2⟩
  have triv : ∀ (g0 : Filter T V M K (E × Nat)) (g1 : Filter T V M K E) (w : Nat), g0.unmetered = g1 → g0.work = f.work →
      g0.retained.length + g0.queued.length ≤ f.retained.length + f.queued.length + 1 →
      g0.queued.length ≤ f.queued.length + 1 →
      (g0.params = f.params ∨ ∃ p, op = .setParams p ∧ g0.params = p) →
      (some g0).map unmetered = some g1 ∧ ∀ g, some g0 = some g → g.work ≤ f.work + w ∧
        g.retained.length + g.queued.length ≤ f.retained.length + f.queued.length + 1 ∧
      (f.params.rewindHistory = false → g.work + 2 * g.queued.length ≤ f.work + 2 * f.queued.length + 2) ∧
      (g.params = f.params ∨ ∃ p, op = .setParams p ∧ g.params = p) := by
    rintro g0 g1 w h1 h2 h3 h4 h5
    refine ⟨by rw [Option.map_some, h1], fun g hg => ?_⟩
    simp only [Option.some.injEq] at hg
    subst hg
    exact ⟨by omega, h3, fun _ => by omega, h5⟩
  cases op with
  | init x c t => exact triv _ _ _ rfl rfl (by simp [retained, queued, init, clear]) (by simp [queued, init, clear]) (Or.inl rfl)
  | predictTime t =>
    refine fin _ _ _ (fun _ => by dsimp only [workBound]; omega) ?_
    unfold step Op.metered
    dsimp only
    rw [predictTime_bind, predictTime_bind, hst]
    by_cases hlt : TimeOps.lt f.state.timestamp t = true
    · rw [if_pos hlt, if_pos hlt]
      exact single_spec P _ f
    · rw [if_neg hlt, if_neg hlt]
      exact ⟨rfl, fun g hg => by simp only [Option.some.injEq] at hg; subst hg; exact ⟨by omega, by omega, rfl⟩⟩
  | predictControl u t =>
    refine fin _ _ _ (fun hr => by have := und hr t; dsimp only [workBound]; omega) ?_
    unfold step Op.metered
    dsimp only
    rw [predictControl_bind, predictControl_bind, hst, hpr]
    by_cases hr : (!f.params.rewindHistory) = true
    · rw [if_pos hr, if_pos hr]
      by_cases hle : TimeOps.le f.state.timestamp t = true
      · rw [if_pos hle, if_pos hle]
        obtain ⟨a, b⟩ := single_spec P ⟨u, P.rc f.env.1, t, true, none⟩ f
        refine ⟨a, fun g hg => ?_⟩
        obtain ⟨b1, b2, b3⟩ := b g hg
        have : cost (⟨u, P.rc f.env.1, t, true, none⟩ : FilterInput T V M K) = 1 := rfl
        exact ⟨by dsimp only [workBound]; omega, b2, b3⟩
      · rw [if_neg hle, if_neg hle]
        exact ⟨rfl, fun g hg => by simp only [Option.some.injEq] at hg; subst hg; exact ⟨by omega, by omega, rfl⟩⟩
    · rw [if_neg hr, if_neg hr]
      obtain ⟨a, b⟩ := insertInput_spec P f (by simpa using hr) ⟨u, P.rc f.env.1, t, true, none⟩
      refine ⟨a, fun g hg => ?_⟩
      obtain ⟨b1, b2, b3⟩ := b g hg
      have : cost (⟨u, P.rc f.env.1, t, true, none⟩ : FilterInput T V M K) = 1 := rfl
      have hu : f.unmetered.undone t = f.undone t := rfl
      refine ⟨?_, b2, b3⟩
      dsimp only [workBound]
      rw [hu]
      dsimp only at b1
      omega
  | correct z R t m =>
    refine fin _ _ _ (fun hr => by have := und hr t; dsimp only [workBound]; omega) ?_
    unfold step Op.metered
    dsimp only
    rw [correct_bind, correct_bind, hst, hpr]
    by_cases hr : (!f.params.rewindHistory) = true
    · rw [if_pos hr, if_pos hr]
      by_cases hle : (f.params.allowPast || TimeOps.le TimeOps.zero (TimeOps.sub t f.state.timestamp)) = true
      · rw [if_pos hle, if_pos hle]
        obtain ⟨a, b⟩ := single_spec P ⟨z, R, t, false, m⟩ f
        refine ⟨a, fun g hg => ?_⟩
        obtain ⟨b1, b2, b3⟩ := b g hg
        have : cost (⟨z, R, t, false, m⟩ : FilterInput T V M K) = 2 := rfl
        exact ⟨by dsimp only [workBound]; omega, b2, b3⟩
      · rw [if_neg hle, if_neg hle]
        exact ⟨rfl, fun g hg => by simp only [Option.some.injEq] at hg; subst hg; exact ⟨by omega, by omega, rfl⟩⟩
    · rw [if_neg hr, if_neg hr]
      obtain ⟨a, b⟩ := insertInput_spec P f (by simpa using hr) ⟨z, R, t, false, m⟩
      refine ⟨a, fun g hg => ?_⟩
      obtain ⟨b1, b2, b3⟩ := b g hg
      have : cost (⟨z, R, t, false, m⟩ : FilterInput T V M K) = 2 := rfl
      have hu : f.unmetered.undone t = f.undone t := rfl
      refine ⟨?_, b2, b3⟩
      dsimp only [workBound]
      rw [hu]
      dsimp only at b1
      omega
  | enqueueControl u t =>
    exact triv _ _ _ rfl rfl (by simp [retained, queued, enqueueControl]; omega)
      (by simp [queued, enqueueControl]; omega) (Or.inl rfl)
  | enqueueMeasurement z R t m =>
    exact triv _ _ _ rfl rfl (by simp [retained, queued, enqueueMeasurement]; omega)
      (by simp [queued, enqueueMeasurement]; omega) (Or.inl rfl)
  | processQueues =>
    obtain ⟨a, b⟩ := queues_spec P sort hsort f
    refine ⟨a, fun g hg => ?_⟩
    obtain ⟨b1, b2, b3, b4⟩ := b g hg
    refine ⟨b1, by omega, fun hr => ?_, Or.inl b4⟩
    have := undq hr
    rw [b3, List.length_nil]
    omega
  | clearControlQueue =>
    exact triv _ _ _ rfl rfl (by simp [retained, queued, clearControlQueue]; omega)
      (by simp [queued, clearControlQueue]; omega) (Or.inl rfl)
  | clearMeasurementQueue =>
    exact triv _ _ _ rfl rfl (by simp [retained, queued, clearMeasurementQueue]; try omega)
      (by simp [queued, clearMeasurementQueue]; try omega) (Or.inl rfl)
  | revertToState t =>
    unfold step Op.metered revertToState
    dsimp only
    rw [rewind_spec]
    cases h : f.rewindHistory (some t) with
    | none => exact ⟨rfl, fun g hg => by simp at hg⟩
    | some r =>
      obtain ⟨g1, ok, post⟩ := r
      obtain ⟨c1, c2, c3, c4, c5⟩ := rewind_len f g1 _ _ _ h
      cases ok with
      | true =>
        refine triv _ _ _ rfl (congrArg Prod.snd c1) ?_ (Nat.zero_le _) (Or.inl c3)
        have q2 : (clearMeasurementQueue g1.clearControlQueue).retained = g1.retained := rfl
        have q3 : (clearMeasurementQueue g1.clearControlQueue).queued = [] := rfl
        show (clearMeasurementQueue g1.clearControlQueue).retained.length + (clearMeasurementQueue g1.clearControlQueue).queued.length ≤ _
        rw [q2, q3, List.length_nil]
        omega
      | false =>
        refine triv _ _ _ rfl (congrArg Prod.snd c1) ?_ (by show g1.queued.length ≤ _; rw [c2]; omega) (Or.inl c3)
        show g1.retained.length + g1.queued.length ≤ _
        rw [c2]
        omega
  | setParams p => exact triv _ _ _ rfl rfl (by simp [retained, queued]; try omega) (by simp [queued]; try omega) (Or.inr ⟨p, rfl, rfl⟩)
  | userModel g =>
    unfold step Op.metered
    dsimp only
    have he : f.unmetered.env = f.env.1 := rfl
    rw [he]
    cases g f.env.1 with
    | none => exact ⟨rfl, fun g hg => by simp at hg⟩
    | some e => exact triv _ _ _ rfl rfl (by simp [retained, queued]; try omega) (by simp [queued]; try omega) (Or.inl rfl)

/-- **C92 (the meter is only a meter).**  Any sequence of calls gives the same filter with and without the counter. -/
theorem C92_metering_changes_nothing (P : Plant T V M K E) (sort : List (FilterInput T V M K) → List (FilterInput T V M K))
    (hsort : ∀ l, (sort l).Perm l) (f : Filter T V M K E) (n : Nat) (ops : List (Op T V M K E)) :
    ((f.metered n).run P.metered sort (ops.map Op.metered)).map unmetered = f.run P sort ops := by
  suffices h : ∀ (ops : List (Op T V M K E)) (f : Filter T V M K (E × Nat)),
      (f.run P.metered sort (ops.map Op.metered)).map unmetered = f.unmetered.run P sort ops from h ops (f.metered n)
  intro ops
  induction ops with
  | nil => intro f; rfl
  | cons op ops ih =>
    intro f
    rw [List.map_cons, Filter.run, Filter.run, ← (step_spec P sort hsort f op).1]
    cases f.step P.metered sort op.metered with
    | none => rfl
    | some g => exact ih g

/-- **C92 (one call).**  Whatever the filter went through before: `predict(t)` runs the filter equations at most once,
`predict(u, t)` at most once and `correct` at most twice, plus at most twice for every remembered state the call has to undo;
`processQueues` runs them at most twice for every queued input and every undone state (`Filter.workBound`).  No other call
runs them. -/
theorem C92_work_of_a_call (P : Plant T V M K E) (sort : List (FilterInput T V M K) → List (FilterInput T V M K))
    (hsort : ∀ l, (sort l).Perm l) (f : Filter T V M K E) (n : Nat) (op : Op T V M K E) (g : Filter T V M K (E × Nat))
    (h : (f.metered n).step P.metered sort op.metered = some g) : g.work ≤ n + f.workBound op :=
  ((step_spec P sort hsort (f.metered n) op).2 g h).1

/-- **C92 (in order).**  Inputs that are not older than the state cost one run (controls) or at most two (measurements), no
matter how much is remembered. -/
theorem C92_work_in_order (P : Plant T V M K E) (sort : List (FilterInput T V M K) → List (FilterInput T V M K))
    (hsort : ∀ l, (sort l).Perm l) (f : Filter T V M K E) (n : Nat) (g : Filter T V M K (E × Nat)) (t : T)
    (ht : f.getStateTime ≤ t) :
    (∀ u, (f.metered n).predictControl P.metered u t = some g → g.work ≤ n + 1) ∧
    (∀ z R m, (f.metered n).correct P.metered z R t m = some g → g.work ≤ n + 2) := by
  have hu : (f.undone t).length = 0 := by
    unfold undone
    rw [if_neg (fun h => absurd h.2 (not_lt.mpr ht))]
    rfl
  constructor
  · intro u h
    have := C92_work_of_a_call P sort hsort f n (.predictControl u t) g h
    dsimp only [workBound] at this
    omega
  · intro z R m h
    have := C92_work_of_a_call P sort hsort f n (.correct z R t m) g h
    dsimp only [workBound] at this
    omega

/-- **C92 (a whole history).**  From a fresh filter, `N` calls of any kind, in any order of time stamps, run the filter
equations at most `N (N + 3)` times. -/
theorem C92_total_work (P : Plant T V M K E) (sort : List (FilterInput T V M K) → List (FilterInput T V M K))
    (hsort : ∀ l, (sort l).Perm l) (params : Params T) (e : E) (x : V) (c : M) (t : T) (ops : List (Op T V M K E))
    (g : Filter T V M K (E × Nat))
    (h : ((Filter.construct P params e x c t).metered 0).run P.metered sort (ops.map Op.metered) = some g) :
    g.work ≤ ops.length * (ops.length + 3) := by
  suffices H : ∀ (ops : List (Op T V M K E)) (k : Nat) (f : Filter T V M K (E × Nat)), f.work ≤ k * (k + 3) →
      f.retained.length + f.queued.length ≤ k + 1 → f.run P.metered sort (ops.map Op.metered) = some g →
      g.work ≤ (k + ops.length) * (k + ops.length + 3) by
    have := H ops 0 ((Filter.construct P params e x c t).metered 0) (Nat.zero_le _) (Nat.le_refl 1) h
    simpa using this
  intro ops
  induction ops with
  | nil =>
    intro k f h1 h2 h3
    simp only [List.map_nil, Filter.run, Option.some.injEq] at h3
    subst h3
    simpa using h1
  | cons op ops ih =>
    intro k f h1 h2 h3
    rw [List.map_cons, Filter.run] at h3
    cases hs : f.step P.metered sort op.metered with
    | none => rw [hs] at h3; simp at h3
    | some f1 =>
      rw [hs] at h3
      obtain ⟨a1, a2, _, _⟩ := (step_spec P sort hsort f op).2 f1 hs
      have hb : f.unmetered.workBound op ≤ 2 * k + 4 := by
        have hund : ∀ t, (f.unmetered.undone t).length ≤ f.retained.length := fun t => by
          unfold undone
          split
          · exact List.length_filter_le _ _
          · simp
        have hundq : f.unmetered.undoneByQueues.length ≤ f.retained.length := by
          unfold undoneByQueues
          split
          · exact List.length_filter_le _ _
          · simp
        have hq : f.unmetered.queued = f.queued := rfl
        cases op <;> dsimp only [workBound] <;> (try rw [hq]) <;> (try have := hund ‹T›) <;> omega
      have := ih (k + 1) f1 (by ring_nf at h1 ⊢; omega) (by omega) h3
      rw [List.length_cons]
      have e : k + (ops.length + 1) = k + 1 + ops.length := by omega
      rw [e]
      exact this

/-- **C92 (rewinding off).**  As long as rewinding is off, `N` calls run the filter equations at most `2 N` times. -/
theorem C92_total_work_plain (P : Plant T V M K E) (sort : List (FilterInput T V M K) → List (FilterInput T V M K))
    (hsort : ∀ l, (sort l).Perm l) (params : Params T) (e : E) (x : V) (c : M) (t : T) (ops : List (Op T V M K E))
    (hoff : params.rewindHistory = false) (hops : ∀ p, Op.setParams p ∈ ops → p.rewindHistory = false)
    (g : Filter T V M K (E × Nat))
    (h : ((Filter.construct P params e x c t).metered 0).run P.metered sort (ops.map Op.metered) = some g) :
    g.work ≤ 2 * ops.length := by
  suffices H : ∀ (ops : List (Op T V M K E)) (k : Nat) (f : Filter T V M K (E × Nat)),
      (∀ p, Op.setParams p ∈ ops → p.rewindHistory = false) → f.params.rewindHistory = false →
      f.work + 2 * f.queued.length ≤ 2 * k → f.run P.metered sort (ops.map Op.metered) = some g →
      g.work ≤ 2 * (k + ops.length) by
    have := H ops 0 ((Filter.construct P params e x c t).metered 0) hops hoff (Nat.le_refl 0) h
    simpa using this
  intro ops
  induction ops with
  | nil =>
    intro k f _ _ h2 h3
    simp only [List.map_nil, Filter.run, Option.some.injEq] at h3
    subst h3
    simp only [List.length_nil]
    omega
  | cons op ops ih =>
    intro k f h0 h1 h2 h3
    rw [List.map_cons, Filter.run] at h3
    cases hs : f.step P.metered sort op.metered with
    | none => rw [hs] at h3; simp at h3
    | some f1 =>
      rw [hs] at h3
      obtain ⟨_, _, a3, a4⟩ := (step_spec P sort hsort f op).2 f1 hs
      have hr : f1.params.rewindHistory = false := by
        rcases a4 with a4 | ⟨p, rfl, a4⟩
        · rw [a4]; exact h1
        · rw [a4]; exact h0 p (by simp)
      have := a3 h1
      have := ih (k + 1) f1 (fun p hp => h0 p (by simp [hp])) hr (by omega) h3
      rw [List.length_cons]
      omega

/-- Concrete: two measurements at 2 and 4 (two runs each: predict, correct), then a late control at 1: the call undoes two
states and the bound of 5 runs is attained (the measurements at 2 and 4 are repeated with a prediction each, the control
runs once: 1 + 2 + 2 = 5). -/
example :
    let ops : List (Op ℤ (List ℤ) ℤ Unit ℤ) := [.correct [8] 1 2 (some ()), .correct [8] 1 4 (some ())]
    let f := ((construct toy ⟨true, 100, false⟩ 1 [0] 5 0).metered 0).run toy.metered insSort (ops.map Op.metered)
    f.map Filter.work = some 4 ∧ f.map (fun f => f.unmetered.workBound (.predictControl [3] 1)) = some 5 ∧
      (f.bind fun f => f.step toy.metered insSort (Op.metered (.predictControl [3] 1))).map Filter.work = some 9 := by
  decide +kernel

end step
end Props
end StateEstimation
