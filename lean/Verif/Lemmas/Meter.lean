import Verif.Spec.Meter
import Verif.Lemmas.Queues

/-!
# Metered plants
-/

namespace StateEstimation

open Filter

variable {T V M K E : Type}

namespace Meter

variable [TimeOps T]

/-- forget the counter of a core -/
def strip (c : Core T V M (E × Nat)) : Core T V M E := ⟨c.x, c.cov, c.ts, c.pc, c.pcc, c.env.1⟩

/-- put a counter back -/
def count (n : Nat) (c : Core T V M E) : Core T V M (E × Nat) := ⟨c.x, c.cov, c.ts, c.pc, c.pcc, (c.env, n)⟩

theorem control_eq (P : Plant T V M K E) (c : Core T V M (E × Nat)) (i : FilterInput T V M K) :
    Core.control P.metered c i = (Core.control P (strip c) i).map (count (c.env.2 + 1)) := by
  obtain ⟨x, cov, ts, pc, pcc, e, n⟩ := c
  unfold Core.control strip
  dsimp only [Plant.metered]
  have hsel : ∃ sel, sel = (if P.vsize i.data > 0 then (i.data, i.covariance, i.data, i.covariance)
    else if P.vsize pc > 0 then (pc, pcc, pc, pcc)
    else (P.zeroV (P.controlSize e), P.rc e, pc, pcc)) := ⟨_, rfl⟩
  obtain ⟨⟨u, r, a, b⟩, hsel⟩ := hsel
  rw [← hsel]
  dsimp only
  by_cases hst : (!(P.sysCheck e && P.sysIsStationary e x i.data)) = true
  · rw [if_pos hst, if_pos hst]
    cases P.setRc e r with
    | none => rfl
    | some e1 =>
      simp only [Option.map_some]
      cases P.myPredict e1 x cov u (TimeOps.sub i.timestamp ts) <;> rfl
  · rw [if_neg hst, if_neg hst]
    cases P.sysProcess e x i.data with
    | none => rfl
    | some e1 =>
      simp only [Option.map_some]
      cases P.sysMake e1 x cov <;> rfl

theorem meas_eq (P : Plant T V M K E) (c : Core T V M (E × Nat)) (i : FilterInput T V M K) (dt : T) :
    Core.meas P.metered c i dt = (Core.meas P (strip c) i dt).map (count (c.env.2 + 1)) := by
  obtain ⟨x, cov, ts, pc, pcc, e, n⟩ := c
  unfold Core.meas strip
  dsimp only [Plant.metered]
  cases i.model with
  | none => rfl
  | some m =>
    dsimp only
    cases P.setMeasCov e m i.covariance with
    | none => rfl
    | some e1 =>
      simp only [Option.map_some]
      by_cases hst : (!(P.measCheck e1 m && P.measIsStationary e1 m x i.data)) = true
      · rw [if_pos hst, if_pos hst]
        cases P.myCorrect e1 x cov i.data m dt <;> rfl
      · rw [if_neg hst, if_neg hst]
        cases P.measProcess e1 m x i.data with
        | none => rfl
        | some e2 =>
          simp only [Option.map_some]
          cases P.measMake e2 m x cov <;> rfl

theorem strip_count (n : Nat) : (strip ∘ count n : Core T V M E → Core T V M E) = id := rfl

theorem control_spec (P : Plant T V M K E) (c : Core T V M (E × Nat)) (i : FilterInput T V M K) :
    (Core.control P.metered c i).map strip = Core.control P (strip c) i ∧
    ∀ d, Core.control P.metered c i = some d → d.env.2 = c.env.2 + 1 := by
  rw [control_eq]
  refine ⟨by rw [Option.map_map, strip_count, Option.map_id, id], fun d h => ?_⟩
  obtain ⟨a, _, rfl⟩ := Option.map_eq_some_iff.mp h
  rfl

theorem meas_spec (P : Plant T V M K E) (c : Core T V M (E × Nat)) (i : FilterInput T V M K) (dt : T) :
    (Core.meas P.metered c i dt).map strip = Core.meas P (strip c) i dt ∧
    ∀ d, Core.meas P.metered c i dt = some d → d.env.2 = c.env.2 + 1 := by
  rw [meas_eq]
  refine ⟨by rw [Option.map_map, strip_count, Option.map_id, id], fun d h => ?_⟩
  obtain ⟨a, _, rfl⟩ := Option.map_eq_some_iff.mp h
  rfl

/-- What one input may cost. -/
def cost (i : FilterInput T V M K) : Nat := if i.isControl then 1 else 2

theorem apply_spec (P : Plant T V M K E) (c : Core T V M (E × Nat)) (i : FilterInput T V M K) :
    (Core.apply P.metered c i).map strip = Core.apply P (strip c) i ∧
    ∀ d, Core.apply P.metered c i = some d → d.env.2 ≤ c.env.2 + cost i := by
  unfold Core.apply cost
  have ets : (strip c).ts = c.ts := rfl
  rw [ets]
  split
  · obtain ⟨h1, h2⟩ := control_spec P c i
    rw [← h1]
    cases h : Core.control P.metered c i with
    | none => exact ⟨rfl, fun d h => by simp at h⟩
    | some d => exact ⟨rfl, fun d' h' => by
        simp only [Option.map_some, Option.some.injEq] at h'; subst h'
        exact (h2 d h).le⟩
  · by_cases hlt : TimeOps.lt TimeOps.zero (TimeOps.sub i.timestamp c.ts) = true
    · rw [if_pos hlt, if_pos hlt]
      obtain ⟨h1, h2⟩ := control_spec P c (c.advInput i.timestamp)
      have ea : (strip c).advInput i.timestamp = (c.advInput i.timestamp : FilterInput T V M K) := rfl
      rw [ea, ← h1]
      cases h : Core.control P.metered c (c.advInput i.timestamp) with
      | none => exact ⟨rfl, fun d h => by simp at h⟩
      | some d =>
        simp only [Option.map_some, Option.bind_some]
        obtain ⟨k1, k2⟩ := meas_spec P (d.tick (TimeOps.sub i.timestamp c.ts)) i (TimeOps.sub i.timestamp c.ts)
        refine ⟨k1, fun d' h' => ?_⟩
        have e2 : (d.tick (TimeOps.sub i.timestamp c.ts)).env.2 = d.env.2 := rfl
        rw [k2 d' h', e2, h2 d h]
    · rw [if_neg hlt, if_neg hlt]
      obtain ⟨k1, k2⟩ := meas_spec P c i (TimeOps.sub i.timestamp c.ts)
      refine ⟨k1, fun d' h' => ?_⟩
      rw [k2 d' h']; omega

theorem cost_le (i : FilterInput T V M K) : cost i ≤ 2 := by unfold cost; split <;> omega

theorem applyInput_spec (P : Plant T V M K E) (f : Filter T V M K (E × Nat)) (i : FilterInput T V M K) :
    (applyInput P.metered f i).map unmetered = applyInput P f.unmetered i ∧
    ∀ g, applyInput P.metered f i = some g → g.work ≤ f.work + cost i ∧ g.retained.length ≤ f.retained.length + 1 ∧
      (g.queued, g.params) = (f.queued, f.params) := by
  rw [applyInput_eq, applyInput_eq]
  obtain ⟨h1, h2⟩ := apply_spec P f.core i
  have e : strip f.core = f.unmetered.core := rfl
  rw [e] at h1
  rw [← h1]
  refine ⟨?_, fun g hg => ?_⟩
  · rw [Option.map_map, Option.map_map]
    rfl
  · obtain ⟨d, hd, rfl⟩ := Option.map_eq_some_iff.mp hg
    refine ⟨h2 d hd, ?_, rfl⟩
    simp only [retained, pushed, List.length_append, List.length_singleton]
    split <;> simp

theorem applyAll_spec (P : Plant T V M K E) (is : List (FilterInput T V M K)) : ∀ (f : Filter T V M K (E × Nat)),
    (applyAll P.metered f is).map unmetered = applyAll P f.unmetered is ∧
    ∀ g, applyAll P.metered f is = some g → g.work ≤ f.work + (is.map cost).sum ∧
      g.retained.length ≤ f.retained.length + is.length ∧ (g.queued, g.params) = (f.queued, f.params) := by
  induction is with
  | nil => exact fun f => ⟨rfl, fun g hg => by simp only [applyAll, Option.some.injEq] at hg; subst hg; simp⟩
  | cons i is ih =>
    intro f
    obtain ⟨h1, h2⟩ := applyInput_spec P f i
    unfold applyAll
    rw [← h1]
    cases h : applyInput P.metered f i with
    | none => exact ⟨rfl, fun g hg => by simp at hg⟩
    | some g1 =>
      simp only [Option.map_some]
      obtain ⟨k1, k2⟩ := ih g1
      refine ⟨k1, fun g hg => ?_⟩
      obtain ⟨a1, a2, a3⟩ := h2 g1 h
      obtain ⟨b1, b2, b3⟩ := k2 g hg
      refine ⟨?_, ?_, b3.trans a3⟩
      · simp only [List.map_cons, List.sum_cons]; omega
      · simp only [List.length_cons]; omega

theorem unmetered_pruned (f : Filter T V M K (E × Nat)) : f.pruned.unmetered = f.unmetered.pruned := by
  unfold pruned
  have e : f.unmetered.params = f.params := rfl
  rw [e]
  split <;> rfl

theorem pruned_le (f : Filter T V M K E) : f.pruned.retained.length ≤ f.retained.length := by
  unfold retained
  have := (pruned_history_prefix f).length_le
  simp only [List.length_append, List.length_singleton]
  omega

theorem work_pruned (f : Filter T V M K (E × Nat)) : f.pruned.work = f.work := by
  unfold pruned; split <;> rfl

theorem queued_pruned (f : Filter T V M K E) : (f.pruned.queued, f.pruned.params) = (f.queued, f.params) := by
  unfold pruned; split <;> rfl

theorem batch_spec (P : Plant T V M K E) (is : List (FilterInput T V M K)) (f : Filter T V M K (E × Nat)) :
    (applyBatchInputs P.metered f is).map unmetered = applyBatchInputs P f.unmetered is ∧
    ∀ g, applyBatchInputs P.metered f is = some g → g.work ≤ f.work + (is.map cost).sum ∧
      g.retained.length ≤ f.retained.length + is.length ∧ (g.queued, g.params) = (f.queued, f.params) := by
  obtain ⟨h1, h2⟩ := applyAll_spec P is f
  unfold applyBatchInputs
  rw [← h1]
  cases h : applyAll P.metered f is with
  | none => exact ⟨rfl, fun g hg => by simp at hg⟩
  | some g1 =>
    simp only [Option.map_some, pruneHistory_pruned, unmetered_pruned]
    refine ⟨trivial, fun g hg => ?_⟩
    simp only [Option.some.injEq] at hg
    subst hg
    obtain ⟨a1, a2, a3⟩ := h2 g1 h
    rw [work_pruned, queued_pruned]
    exact ⟨a1, (pruned_le g1).trans a2, a3⟩

theorem sum_cost (is : List (FilterInput T V M K)) : (is.map cost).sum ≤ 2 * is.length := by
  induction is with
  | nil => simp
  | cons i is ih => have := cost_le i; simp only [List.map_cons, List.sum_cons, List.length_cons]; omega

theorem single_spec (P : Plant T V M K E) (i : FilterInput T V M K) (f : Filter T V M K (E × Nat)) :
    ((applyInput P.metered f i).bind pruneHistory).map unmetered = (applyInput P f.unmetered i).bind pruneHistory ∧
    ∀ g, (applyInput P.metered f i).bind pruneHistory = some g → g.work ≤ f.work + cost i ∧
      g.retained.length ≤ f.retained.length + 1 ∧ (g.queued, g.params) = (f.queued, f.params) := by
  have e : ∀ {E' : Type} (Q : Plant T V M K E') (f : Filter T V M K E'),
      (applyInput Q f i).bind pruneHistory = applyBatchInputs Q f [i] := fun Q f => by
    unfold applyBatchInputs applyAll applyAll
    cases applyInput Q f i <;> rfl
  obtain ⟨h1, h2⟩ := batch_spec P [i] f
  rw [e, e]
  refine ⟨h1, fun g hg => ?_⟩
  obtain ⟨a1, a2, a3⟩ := h2 g hg
  exact ⟨by simpa using a1, by simpa using a2, a3⟩

theorem rewind_spec [SaneTime T] (f : Filter T V M K (E × Nat)) (b : Bound T) :
    f.unmetered.rewindHistory b = (f.rewindHistory b).map fun r => (r.1.unmetered, r.2) := by
  rw [rewindHistory_eq, rewindHistory_eq]
  have e1 : f.unmetered.state = f.state := rfl
  have e2 : f.unmetered.history = f.history := rfl
  rw [e1, e2]
  split
  · rfl
  · cases f.history.head? with
    | none => rfl
    | some s =>
      dsimp only
      split <;> rfl

theorem rewind_len [SaneTime T] (f g : Filter T V M K E) (b : Bound T) (r post)
    (h : f.rewindHistory b = some (g, r, post)) :
    g.env = f.env ∧ g.queued = f.queued ∧ g.params = f.params ∧ g.retained.length + post.length ≤ f.retained.length ∧
      (post = [] ∨ post = f.history.filter (isPost b) ++ [f.state] ∧ b.gt f.state.timestamp = false) := by
  rcases rewindHistory_cases f b with ⟨_, h1⟩ | ⟨_, _, h1⟩ | ⟨h0, front, rest, hh, hb, h1⟩
  · rw [h1] at h; simp only [Option.some.injEq, Prod.mk.injEq] at h; obtain ⟨rfl, _, rfl⟩ := h; simp
  · rw [h1] at h; simp only [Option.some.injEq, Prod.mk.injEq] at h; obtain ⟨rfl, _, rfl⟩ := h; simp
  · rw [h1] at h; simp only [Option.some.injEq, Prod.mk.injEq] at h; obtain ⟨rfl, _, rfl⟩ := h
    refine ⟨rfl, rfl, rfl, ?_, Or.inr ⟨rfl, h0⟩⟩
    obtain ⟨q, hq⟩ := kept_ne_nil f b front rest hh hb
    have hl : (f.kept b).length ≤ f.history.length - (f.history.filter (isPost b)).length := by
      unfold Filter.kept; simp
    have hf := List.length_filter_le (isPost b) f.history
    have h3 : (f.kept b).length ≠ 0 := by rw [hq]; simp
    simp only [retained, Filter.post, List.length_append, List.length_dropLast, List.length_singleton]
    omega

end Meter
end StateEstimation
