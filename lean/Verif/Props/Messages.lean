import Verif.Spec.Messages
import Verif.Props.Rewind

/-!
# C121: the messages about refused inputs
-/

namespace StateEstimation
namespace Props

open Filter

variable {T V M K E : Type}

section Erase
variable [TimeOps T]

theorem insertInput_saying (P : Plant T V M K E) (f : Filter T V M K E) (inp : FilterInput T V M K) (say : Complaint T) :
    (f.insertInputSaying P inp say).map Prod.fst = f.insertInput P inp := by
  unfold insertInputSaying insertInput
  split
  · rcases f.rewindHistory (some inp.timestamp) with _ | ⟨g, _ | _, post⟩
    · rfl
    · rfl
    · simp [Option.map_map, Function.comp_def]
  · simp [Option.map_map, Function.comp_def]

private theorem erase (o : Option (Filter T V M K E)) : (o.map fun h => (h, ([] : List (Complaint T)))).map Prod.fst = o := by
  cases o <;> rfl

theorem step_saying (P : Plant T V M K E) (sort) (f : Filter T V M K E) (op : Op T V M K E) :
    (f.stepSaying P sort op).map Prod.fst = f.step P sort op := by
  cases op with
  | predictControl u t =>
    show (f.predictControlSaying P u t).map Prod.fst = f.predictControl P u t
    unfold predictControlSaying predictControl
    dsimp only
    split
    · split
      · rw [erase]; cases applyInput P f _ <;> rfl
      · rfl
    · exact insertInput_saying P f _ _
  | correct z c t m =>
    show (f.correctSaying P z c t m).map Prod.fst = f.correct P z c t m
    unfold correctSaying correct
    dsimp only
    split
    · split
      · rw [erase]; cases applyInput P f _ <;> rfl
      · rfl
    · exact insertInput_saying P f _ _
  | init x c t => exact erase (f.step P sort (.init x c t))
  | predictTime t => exact erase (f.step P sort (.predictTime t))
  | enqueueControl u t => exact erase (f.step P sort (.enqueueControl u t))
  | enqueueMeasurement z c t m => exact erase (f.step P sort (.enqueueMeasurement z c t m))
  | processQueues => exact erase (f.step P sort .processQueues)
  | clearControlQueue => exact erase (f.step P sort .clearControlQueue)
  | clearMeasurementQueue => exact erase (f.step P sort .clearMeasurementQueue)
  | revertToState t => exact erase (f.step P sort (.revertToState t))
  | setParams p => exact erase (f.step P sort (.setParams p))
  | userModel g => exact erase (f.step P sort (.userModel g))

/-- **C121, the messages change nothing.**  A run with its messages ends with the filter of the run without them. -/
theorem C121_output_only (P : Plant T V M K E) (sort) : ∀ (ops : List (Op T V M K E)) (f : Filter T V M K E),
    (f.runSaying P sort ops).map Prod.fst = f.run P sort ops := by
  intro ops
  induction ops with
  | nil => intro f; rfl
  | cons op ops ih =>
    intro f
    rw [runSaying, run]
    have h := step_saying P sort f op
    cases h1 : f.stepSaying P sort op with
    | none => rw [h1] at h; rw [← h]; rfl
    | some r =>
      rw [h1] at h
      rw [← h]
      show ((r.1.runSaying P sort ops).map _).map Prod.fst = r.1.run P sort ops
      rw [Option.map_map, ← ih r.1]
      rfl

/-- **C121, silence elsewhere.**  No other call writes anything: not `predict(t)`, not the queues, not `revertToState`; and with
rewinding off nothing does. -/
theorem C121_otherwise_silent (P : Plant T V M K E) (sort) (f g : Filter T V M K E) (op : Op T V M K E) (said : List (Complaint T))
    (h : f.stepSaying P sort op = some (g, said)) (hop : op.complaint = [] ∨ f.params.rewindHistory = false) : said = [] := by
  have key : ∀ o : Option (Filter T V M K E), (o.map fun g => (g, ([] : List (Complaint T)))) = some (g, said) → said = [] := by
    intro o ho
    cases o with
    | none => cases ho
    | some a => cases ho; rfl
  cases op with
  | predictControl u t =>
    rcases hop with hop | hop
    · cases hop
    · change f.predictControlSaying P u t = _ at h
      unfold predictControlSaying at h
      dsimp only at h
      rw [hop] at h
      simp only [Bool.not_false, if_true] at h
      split at h
      · exact key _ h
      · cases h; rfl
  | correct z c t m =>
    rcases hop with hop | hop
    · cases hop
    · change f.correctSaying P z c t m = _ at h
      unfold correctSaying at h
      dsimp only at h
      rw [hop] at h
      simp only [Bool.not_false, if_true] at h
      split at h
      · exact key _ h
      · cases h; rfl
  | init x c t => exact key (f.step P sort (.init x c t)) h
  | predictTime t => exact key (f.step P sort (.predictTime t)) h
  | enqueueControl u t => exact key (f.step P sort (.enqueueControl u t)) h
  | enqueueMeasurement z c t m => exact key (f.step P sort (.enqueueMeasurement z c t m)) h
  | processQueues => exact key (f.step P sort .processQueues) h
  | clearControlQueue => exact key (f.step P sort .clearControlQueue) h
  | clearMeasurementQueue => exact key (f.step P sort .clearMeasurementQueue) h
  | revertToState t => exact key (f.step P sort (.revertToState t)) h
  | setParams p => exact key (f.step P sort (.setParams p)) h
  | userModel g => exact key (f.step P sort (.userModel g)) h

end Erase

section ordered
variable [LinearOrder T] [ExactTime T]

/-- **C121, one message exactly when an input is refused.**  Rewinding on, any reachable filter, `predict(u, t)` or
`correct(z, R, t, m)`, whatever the arguments.  If the input is older than everything remembered, the call writes exactly one
message, of the right kind and with the time stamp of the input, and changes nothing.  Otherwise it writes nothing and the
input is applied (or the call ends abnormally). -/
theorem C121_message_iff_refused_partial (P : Plant T V M K E) (sort) (hsort : IsTimeSort sort)
    (f : Filter T V M K E) (hf : ReachRewind P sort f) (op : Op T V M K E) (inp : FilterInput T V M K)
    (hop : op.asInput P f = some inp) :
    (f.TooOld inp.timestamp → f.stepSaying P sort op = some (f, op.complaint)) ∧
    (¬ f.TooOld inp.timestamp → ∀ r, f.stepSaying P sort op = some r → r.2 = [] ∧ f.Applied P inp r.1) := by
  obtain ⟨hinv, hp⟩ := hf.inv P sort hsort
  obtain ⟨say, hsay, hstep⟩ : ∃ say, op.complaint = [say] ∧ f.stepSaying P sort op = f.insertInputSaying P inp say := by
    cases op with
    | predictControl u t =>
      cases hop
      refine ⟨.control t, rfl, ?_⟩
      show f.predictControlSaying P u t = _
      unfold predictControlSaying
      rw [hp]; rfl
    | correct z c t m =>
      cases hop
      refine ⟨.measurement t, rfl, ?_⟩
      show f.correctSaying P z c t m = _
      unfold correctSaying
      rw [hp]; rfl
    | _ => cases hop
  have hbase := step_saying P sort f op
  constructor
  · rintro ⟨hlate, hno⟩
    rw [hstep, hsay]
    unfold insertInputSaying
    rw [if_pos ((LawfulTime.lt_iff _ f.state.timestamp).mpr hlate)]
    rcases rewindHistory_cases f (some inp.timestamp) with ⟨h1, _⟩ | ⟨_, _, h3⟩ | ⟨_, front, rest, hh, hb, _⟩
    · rw [gt_iff] at h1; exact absurd hlate (not_lt.mpr h1.le)
    · rw [h3]
    · rw [gt_iff] at hb
      exact absurd ⟨front, by simp [retained, hh], hb⟩ hno
  · intro hacc r hr
    rw [hr] at hbase
    have quiet : ∀ o : Option (Filter T V M K E), (o.map fun g => (g, ([] : List (Complaint T)))) = some r → r.2 = [] := by
      intro o ho
      cases o with
      | none => cases ho
      | some a => cases ho; rfl
    by_cases hlate : inp.timestamp < f.getStateTime
    · have hold : ∃ s ∈ f.retained, s.timestamp < inp.timestamp := by
        by_contra h; exact hacc ⟨hlate, h⟩
      obtain ⟨older, s, newer, e1, e2, e3, e4, e5⟩ := C08_C25_accepted_replays P sort hsort f hf op inp hop hlate hold
      refine ⟨?_, older, s, newer, e1, by rw [← e5, ← hbase]; rfl⟩
      rw [hstep] at hr
      unfold insertInputSaying at hr
      rw [if_pos ((LawfulTime.lt_iff _ f.state.timestamp).mpr hlate)] at hr
      rcases rewindHistory_cases f (some inp.timestamp) with ⟨h1, h2⟩ | ⟨_, h2, h3⟩ | ⟨_, front, rest, hh, hb, h3⟩
      · rw [gt_iff] at h1; exact absurd hlate (not_lt.mpr h1.le)
      · exfalso
        obtain ⟨s0, hs0, hlt⟩ := hold
        have hs0' : s0 ∈ f.history := by
          rcases List.mem_append.mp hs0 with h | h
          · exact h
          · rw [List.mem_singleton] at h; subst h; exact absurd hlt (not_lt.mpr hlate.le)
        obtain ⟨hsorted, _⟩ := hinv.history_le P f
        cases hh : f.history with
        | nil => rw [hh] at hs0'; simp at hs0'
        | cons front rest =>
          have hle : front.timestamp ≤ s0.timestamp := by
            rw [hh] at hs0' hsorted
            rcases List.mem_cons.mp hs0' with rfl | h
            · exact le_rfl
            · exact (List.pairwise_cons.mp hsorted).1 _ h
          have := h2 front (by rw [hh]; rfl)
          rw [(gt_iff _ _).mpr (lt_of_le_of_lt hle hlt)] at this
          cases this
      · rw [h3] at hr
        exact quiet _ hr
    · rw [hstep] at hr
      unfold insertInputSaying at hr
      have hnlt : ¬ TimeOps.lt inp.timestamp f.state.timestamp = true := fun h => hlate ((LawfulTime.lt_iff _ _).mp h)
      rw [if_neg hnlt] at hr
      refine ⟨quiet _ hr, f.history, f.state, [], rfl, ?_⟩
      cases h1 : applyBatchInputs P f [inp] with
      | none => rw [h1] at hr; cases hr
      | some a => rw [h1] at hr; cases hr; exact h1

/-- A concrete refused and a concrete accepted late input: the integrator at time 5 that remembers times 0, 2 and 5. -/
example : ∃ f, ReachRewind toy insSort f ∧ f.TooOld (-1) ∧ ¬ f.TooOld 1 ∧ f.getStateTime = 5 :=
  ⟨_, ReachRewind.run toy insSort _ _ [.predictControl [5] 2, .predictControl [1] 5]
    (.start toyRewind [0] 0 0 rfl) (by simp [Op.IsUnqueued]) rfl, ⟨by decide, by decide⟩, fun h => absurd h.2 (by decide), by decide⟩

end ordered

/-! ### Inputs that are lost without a message -/

/-- Rewinding off: a late control and a late reading are ignored without a message. -/
theorem C121_refuted_without_rewind :
    toyPlain.runSaying toy insSort [.predictControl [1] 5, .predictControl [7] 3, .correct [7] 1 4 (some ())]
      = toyPlain.runSaying toy insSort [.predictControl [1] 5] ∧
    (toyPlain.runSaying toy insSort [.predictControl [1] 5]).map Prod.snd = some [] := by
  decide +kernel

/-- Rewinding on: a reading older than everything remembered is refused with a message if it is given directly, and dropped
without any if it is given through the queue. -/
theorem C121_refuted_queue :
    (toyRewind.runSaying toy insSort [.predictControl [1] 5, .correct [7] 1 (-1) (some ())]).map Prod.snd
      = some [.measurement (-1)] ∧
    toyRewind.runSaying toy insSort [.predictControl [1] 5, .enqueueMeasurement [7] 1 (-1) (some ()), .processQueues]
      = toyRewind.runSaying toy insSort [.predictControl [1] 5] ∧
    (toyRewind.runSaying toy insSort [.predictControl [1] 5]).map Prod.snd = some [] := by
  decide +kernel


end Props
end StateEstimation
