import Verif.Props.Window
import Verif.Props.Init
import Verif.Props.LateData
import Verif.Spec.Sharing

/-!
# C145: saving the estimate and resuming in a new filter
-/

set_option linter.unusedSectionVars false

namespace StateEstimation
namespace Props

open Filter

variable {T V M K E : Type}

/-! ### The new filter's models are other objects than the old ones -/

section models
variable [TimeOps T]

theorem measured_time (P : Plant T V M K E) (k : Core T V M E) (j : FilterInput T V M K) (dt : T) :
    ∀ r ∈ Core.meas P k j dt, r.ts = k.ts := by
  intro r hr
  unfold Core.meas at hr
  split at hr
  · cases hr
  · split at hr
    · cases hr
    · split at hr <;> split at hr
      · cases hr
      · cases hr; rfl
      · cases hr
      · split at hr
        · cases hr
        · cases hr; rfl

/-- models that calls cannot tell apart; the same control in use -/
def freshSim (P : Plant T V M K E) (eqv : E → E → Prop) (hM : Memoryless P eqv) (e0 : E) : SimRel P P where
  tot := False
  RS x c x' c' := x = x' ∧ c = c'
  RG pc pcc e pc' pcc' e' := pc = pc' ∧ pcc = pcc' ∧ (P.vsize pc > 0 → pcc = P.rc e0) ∧ eqv e0 e ∧ eqv e0 e'
  RI i j := i = j ∧ (i.isControl = true → P.vsize i.data > 0 → i.covariance = P.rc e0)
  RU u u' := u = u'
  ts_eq := by rintro i _ ⟨rfl, _⟩; rfl
  apply := by
    rintro ⟨x, c, t, pc, pcc, e⟩ ⟨x', c', t', pc', pcc', e'⟩ i _ h1 ⟨h2, h2'⟩ ⟨h3, h4, h5, h6, h7⟩ ⟨rfl, hi⟩
    dsimp only at h1 h2 h2' h3 h4 h5 h6 h7
    subst h1 h2 h2' h3 h4
    have hctrl : ∀ j : FilterInput T V M K, (P.vsize j.data > 0 → j.covariance = P.rc e0) →
        OptRel False (fun a b : Core T V M E => a.x = b.x ∧ a.cov = b.cov ∧ a.ts = t ∧ b.ts = t ∧ a.pc = b.pc ∧ a.pcc = b.pcc ∧
          (P.vsize a.pc > 0 → a.pcc = P.rc e0) ∧ eqv e0 a.env ∧ eqv e0 b.env)
          (Core.control P ⟨x, c, t, pc, pcc, e⟩ j) (Core.control P ⟨x, c, t, pc, pcc, e'⟩ j) := by
      intro j hj
      have hsel : P.vsize j.data > 0 ∧ j.covariance = P.rc e0 ∨
          P.vsize j.data = 0 ∧ pc = pc ∧ pcc = pcc ∧ (P.vsize pc > 0 → pcc = P.rc e0) := by
        by_cases h : P.vsize j.data > 0
        · exact Or.inl ⟨h, hj h⟩
        · exact Or.inr ⟨by omega, rfl, rfl, h5⟩
      refine OptRel.mono (hM.control e0 x c t pc pc pcc pcc e e' h6 h7 j hsel) ?_
      rintro a b ⟨g1, g2, g3, g4, g5, g6, g7, g8, g9, g10⟩
      refine ⟨g1, g2, g3, g4, g5.trans g6.symm, g7.trans g8.symm, ?_, g9, g10⟩
      rw [g5, g7]
      by_cases h : P.vsize j.data > 0
      · simp only [h, if_true]; exact fun _ => hj h
      · simp only [h, if_false]; exact h5
    unfold Core.apply
    dsimp only
    split
    · rename_i hc
      refine OptRel.map (hctrl i (hi hc)) ?_
      rintro a b ⟨g1, g2, g3, g4, g5, g6, g7, g8, g9⟩
      exact ⟨by simp only [Core.tick]; rw [g3, g4], ⟨g1, g2⟩, g5, g6, g7, g8, g9⟩
    · split
      · have hadv : (Core.advInput ⟨x, c, t, pc, pcc, e'⟩ i.timestamp : FilterInput T V M K)
          = Core.advInput ⟨x, c, t, pc, pcc, e⟩ i.timestamp := rfl
        rw [hadv]
        refine OptRel.bind (OptRel.map (hctrl (Core.advInput ⟨x, c, t, pc, pcc, e⟩ i.timestamp) h5)
          (S := fun a b : Core T V M E => a.ts = b.ts ∧ a.x = b.x ∧ a.cov = b.cov ∧ a.pc = b.pc ∧ a.pcc = b.pcc ∧
            (P.vsize a.pc > 0 → a.pcc = P.rc e0) ∧ eqv e0 a.env ∧ eqv e0 b.env) ?_) ?_
        · rintro a b ⟨g1, g2, g3, g4, g5, g6, g7, g8, g9⟩
          exact ⟨by simp only [Core.tick]; rw [g3, g4], g1, g2, g5, g6, g7, g8, g9⟩
        · rintro ⟨ax, ac, at', ap, apc, ae⟩ ⟨bx, bc, bt, bp, bpc, be⟩ hab
          dsimp only at hab
          obtain ⟨rfl, rfl, rfl, rfl, rfl, g1, g2, g3⟩ := hab
          have h2 := hM.meas_core e0 ax ac at' ap ap apc apc ae be g2 g3 i (TimeOps.sub i.timestamp t)
          have k1 := measured_time P ⟨ax, ac, at', ap, apc, ae⟩ i (TimeOps.sub i.timestamp t)
          have k2 := measured_time P ⟨ax, ac, at', ap, apc, be⟩ i (TimeOps.sub i.timestamp t)
          generalize Core.meas P ⟨ax, ac, at', ap, apc, ae⟩ i _ = r3 at h2 k1 ⊢
          generalize Core.meas P ⟨ax, ac, at', ap, apc, be⟩ i _ = r4 at h2 k2 ⊢
          cases r3 <;> cases r4 <;> simp only [OptRel] at h2
          · exact not_false
          · obtain ⟨m1, m2, m3, m4, m5, m6, m7, m8⟩ := h2
            exact ⟨(k1 _ rfl).trans (k2 _ rfl).symm, ⟨m1, m2⟩, m3.trans m4.symm, m5.trans m6.symm, by rw [m3, m5]; exact g1,
              m7, m8⟩
      · have h2 := hM.meas_core e0 x c t pc pc pcc pcc e e' h6 h7 i (TimeOps.sub i.timestamp t)
        have k1 := measured_time P ⟨x, c, t, pc, pcc, e⟩ i (TimeOps.sub i.timestamp t)
        have k2 := measured_time P ⟨x, c, t, pc, pcc, e'⟩ i (TimeOps.sub i.timestamp t)
        generalize Core.meas P ⟨x, c, t, pc, pcc, e⟩ i _ = r3 at h2 k1 ⊢
        generalize Core.meas P ⟨x, c, t, pc, pcc, e'⟩ i _ = r4 at h2 k2 ⊢
        cases r3 <;> cases r4 <;> simp only [OptRel] at h2
        · exact not_false
        · obtain ⟨m1, m2, m3, m4, m5, m6, m7, m8⟩ := h2
          exact ⟨(k1 _ rfl).trans (k2 _ rfl).symm, ⟨m1, m2⟩, m3.trans m4.symm, m5.trans m6.symm, by rw [m3, m5]; exact h5,
            m7, m8⟩
  ctrl := by
    rintro pc pcc e pc' pcc' e' u _ t ⟨_, _, _, h6, h7⟩ rfl
    have h8 : P.rc e' = P.rc e0 := (hM.rc _ _ h7).symm
    have h9 : P.rc e = P.rc e0 := (hM.rc _ _ h6).symm
    exact ⟨by rw [h8, h9], fun _ _ => h9⟩
  empty := rfl

theorem fresh_rop (P : Plant T V M K E) (eqv : E → E → Prop) (hM : Memoryless P eqv) (e0 : E) (op : Op T V M K E)
    (h : op.LeavesModels) : (freshSim P eqv hM e0).ROp op op := by
  cases op with
  | init x c t => exact .init t ⟨rfl, rfl⟩
  | predictTime t => exact .predictTime t
  | predictControl u t => exact .predictControl t rfl
  | correct z c t m => exact .correct ⟨rfl, fun hc => by cases hc⟩
  | enqueueControl u t => exact .enqueueControl t rfl
  | enqueueMeasurement z c t m => exact .enqueueMeasurement ⟨rfl, fun hc => by cases hc⟩
  | processQueues => exact .processQueues
  | clearControlQueue => exact .clearControlQueue
  | clearMeasurementQueue => exact .clearMeasurementQueue
  | revertToState t => exact .revertToState t
  | setParams p => exact .setParams p
  | userModel g => exact absurd h (by simp [Op.LeavesModels])

end models

section resume
variable [LinearOrder T] [ExactTime T]

theorem related_of_mem {α β : Type} {r : α → β → Prop} {l : List α} {l' : List β} (h : List.Forall₂ r l l') :
    ∀ b ∈ l', ∃ a ∈ l, r a b := by
  induction h with
  | nil => simp
  | cons a _ ih =>
    intro b hb
    rcases List.mem_cons.mp hb with rfl | hb
    · exact ⟨_, by simp, a⟩
    · obtain ⟨c, hc, e⟩ := ih b hb
      exact ⟨c, by simp [hc], e⟩

/-- related filters can place the same calls -/
theorem fresh_canPlace {P : Plant T V M K E} {R : SimRel P P} {f g : Filter T V M K E} (h : R.RF f g) (op : Op T V M K E)
    (hp : CanPlace g op) : CanPlace f op := by
  have ht : f.state.timestamp = g.state.timestamp := h.state.1
  have hh : ∀ t : T, (∃ s ∈ g.history, s.timestamp < t) → ∃ s ∈ f.history, s.timestamp < t := by
    rintro t ⟨s, hs, hlt⟩
    obtain ⟨a, ha, hr⟩ := related_of_mem h.history s hs
    exact ⟨a, ha, by rw [hr.1]; exact hlt⟩
  have hq : ∀ {l l' : List (FilterInput T V M K)}, List.Forall₂ R.RI l l' → ∀ i ∈ l, ∃ j ∈ l', i.timestamp = j.timestamp := by
    intro l l' hl
    induction hl with
    | nil => simp
    | cons a _ ih =>
      intro i hi
      rcases List.mem_cons.mp hi with rfl | hi
      · exact ⟨_, by simp, R.ts_eq a⟩
      · obtain ⟨j, hj, e⟩ := ih i hi
        exact ⟨j, by simp [hj], e⟩
  cases op with
  | predictControl u t => exact hp.imp (fun h1 => by unfold getStateTime at h1 ⊢; rw [ht]; exact h1) (hh t)
  | correct z c t m => exact hp.imp (fun h1 => by unfold getStateTime at h1 ⊢; rw [ht]; exact h1) (hh t)
  | revertToState t => exact hp.imp (fun h1 => by unfold getStateTime at h1 ⊢; rw [ht]; exact h1) (hh t)
  | processQueues =>
    intro i hi
    obtain ⟨j, hj, e⟩ : ∃ j ∈ g.controlQueue ++ g.measQueue, i.timestamp = j.timestamp := by
      rcases List.mem_append.mp hi with hi | hi
      · obtain ⟨j, hj, e⟩ := hq h.cq i hi
        exact ⟨j, List.mem_append_left _ hj, e⟩
      · obtain ⟨j, hj, e⟩ := hq h.mq i hi
        exact ⟨j, List.mem_append_right _ hj, e⟩
    rw [e]
    exact (hp j hj).imp (fun h1 => by unfold getStateTime at h1 ⊢; rw [ht]; exact h1) (hh _)
  | setParams p => exact hp
  | init x c t => trivial
  | predictTime t => trivial
  | enqueueControl u t => trivial
  | enqueueMeasurement z c t m => trivial
  | clearControlQueue => trivial
  | clearMeasurementQueue => trivial
  | userModel u => trivial

theorem fresh_canPlaceAll {P : Plant T V M K E} {R : SimRel P P} (sort : List (FilterInput T V M K) → List (FilterInput T V M K))
    (hs : ∀ l l', List.Forall₂ R.RI l l' → List.Forall₂ R.RI (sort l) (sort l')) (ops : List (Op T V M K E))
    (hr : ∀ op ∈ ops, R.ROp op op) {f g : Filter T V M K E} (h : R.RF f g) (hp : CanPlaceAll P sort g ops) :
    CanPlaceAll P sort f ops := by
  induction ops generalizing f g with
  | nil => trivial
  | cons op ops ih =>
    refine ⟨fresh_canPlace h op hp.1, fun f' hf => ?_⟩
    have := h.step hs (hr op (by simp))
    rw [hf] at this
    cases hg : g.step P sort op with
    | none => rw [hg] at this; exact absurd this (by simp [OptRel])
    | some g' =>
      rw [hg] at this
      exact ih (fun o ho => hr o (by simp [ho])) this (hp.2 g' hg)

theorem fresh_sort {P : Plant T V M K E} {eqv : E → E → Prop} {hM : Memoryless P eqv} {e0 : E}
    {sort : List (FilterInput T V M K) → List (FilterInput T V M K)} (hsort : IsTimeSort sort) (l l' : List (FilterInput T V M K))
    (h : List.Forall₂ (freshSim P eqv hM e0).RI l l') : List.Forall₂ (freshSim P eqv hM e0).RI (sort l) (sort l') := by
  have h1 : l = l' := by
    have : List.Forall₂ Eq l l' := h.imp fun _ _ hab => hab.1
    rwa [List.forall₂_eq_eq_eq] at this
  subst h1
  rw [List.forall₂_same] at h ⊢
  exact fun i hi => h i ((hsort l).1.mem_iff.mp hi)

theorem fresh_view {P : Plant T V M K E} {R : SimRel P P} (hRS : ∀ x c x' c', R.RS x c x' c' → x = x' ∧ c = c') (_ : R.tot = False)
    {x y : Option (Filter T V M K E)} (h : OptRel R.tot R.RF x y) :
    x.map (fun g => (g.getState, g.getCovariance, g.getStateTime)) = y.map (fun g => (g.getState, g.getCovariance, g.getStateTime)) := by
  cases x <;> cases y <;> simp only [OptRel] at h
  · rfl
  · rename_i f g
    obtain ⟨h1, h2⟩ := h.state
    obtain ⟨h3, h4⟩ := hRS _ _ _ _ h2
    simp [getState, getCovariance, getStateTime, h1, h3, h4]

/-- the filter made anew from what the getters of `f` return, with models `e` -/
abbrev resumed (P : Plant T V M K E) (f : Filter T V M K E) (e : E) : Filter T V M K E :=
  construct P f.params e f.getState f.getCovariance f.getStateTime

/-- `f` without memory of the past -/
private abbrev bare (P : Plant T V M K E) (f : Filter T V M K E) : Filter T V M K E :=
  { f with history := [], prevControl := P.emptyV, prevControlCov := P.emptyM }

private theorem bare_resumed (P : Plant T V M K E) (eqv : E → E → Prop) (hM : Memoryless P eqv) (hE : P.vsize P.emptyV = 0)
    (f : Filter T V M K E) (hq : f.queued = []) (e : E) (he : eqv f.env e) :
    (freshSim P eqv hM f.env).RF (bare P f) (resumed P f e) := by
  have h1 : f.controlQueue = [] := (List.append_eq_nil_iff.mp hq).1
  have h2 : f.measQueue = [] := (List.append_eq_nil_iff.mp hq).2
  refine ⟨rfl, ⟨rfl, rfl, fun h => ?_, hM.refl _, he⟩, ⟨List.Forall₂.cons ⟨rfl, rfl, rfl⟩ List.Forall₂.nil, List.Forall₂.nil⟩, ?_, ?_⟩
  · exact absurd h (by show ¬ P.vsize P.emptyV > 0; omega)
  · show List.Forall₂ _ f.controlQueue []
    rw [h1]; exact List.Forall₂.nil
  · show List.Forall₂ _ f.measQueue []
    rw [h2]; exact List.Forall₂.nil

/-- an explicit control that is not late does not read the control in use -/
private theorem explicit_bare (P : Plant T V M K E) (sort) (f : Filter T V M K E) (hr : f.params.rewindHistory = true) (u : V) (t : T)
    (hu : P.vsize u > 0) (ht : f.getStateTime ≤ t) :
    ({ f with history := [] } : Filter T V M K E).step P sort (.predictControl u t)
      = (bare P f).step P sort (.predictControl u t) := by
  have hlt : ¬ TimeOps.lt t f.state.timestamp = true := by
    rw [LawfulTime.lt_iff]; exact not_lt.mpr ht
  simp only [Filter.step, predictControl, hr, Bool.not_true, Bool.false_eq_true, if_false, insertInput, hlt]
  rw [applyBatchInputs_eq, applyBatchInputs_eq, Filter.applyAll, Filter.applyAll, applyInput_eq, applyInput_eq]
  have : Core.apply P ({ f with history := [] } : Filter T V M K E).core ⟨u, P.rc f.env, t, true, none⟩
      = Core.apply P (bare P f).core ⟨u, P.rc f.env, t, true, none⟩ := by
    simp [Core.apply, Core.control, Filter.core, hu]
  rw [this]
  cases Core.apply P (bare P f).core ⟨u, P.rc f.env, t, true, none⟩ with
  | none => rfl
  | some c => rfl

/-- the control in use when the filter is saved does not matter: there is none, or the first call supplies one -/
def ControlSettled (P : Plant T V M K E) (f : Filter T V M K E) (ops : List (Op T V M K E)) : Prop :=
  P.vsize f.prevControl = 0 ∨ ∃ u t rest, ops = .predictControl u t :: rest ∧ P.vsize u > 0

/-- **C145 (rewind mode, any filter class with memoryless models).**  The old filter went through any calls and has empty
queues.  A new filter is made from its parameters and from what its three getters return, with models that calls cannot tell
from the old ones.  As long as the new filter can place the calls, both give the same estimate and time after them, or both
abort. -/
theorem C145_resume_rewind (P : Plant T V M K E) (eqv : E → E → Prop) (hM : Memoryless P eqv)
    (hempty : ∀ v, P.vsize v = 0 → v = P.emptyV) (hE : P.vsize P.emptyV = 0) (sort) (hsort : IsTimeSort sort) (f : Filter T V M K E)
    (hf : ReachRewind P sort f) (hq : f.queued = []) (e : E) (he : eqv f.env e) (ops : List (Op T V M K E))
    (hm : ∀ op ∈ ops, op.LeavesModels) (hu : ControlSettled P f ops) (hops : CanPlaceAll P sort (resumed P f e) ops) :
    ((resumed P f e).run P sort ops).map (fun g => (g.getState, g.getCovariance, g.getStateTime))
      = (f.run P sort ops).map (fun g => (g.getState, g.getCovariance, g.getStateTime)) := by
  obtain ⟨hinv, hr⟩ := hf.inv P sort hsort f
  have hRF := bare_resumed P eqv hM hE f hq e he
  have hrop : ∀ op ∈ ops, (freshSim P eqv hM f.env).ROp op op := fun op ho => fresh_rop P eqv hM f.env op (hm op ho)
  have hb := fresh_canPlaceAll sort (fresh_sort hsort) ops hrop hRF hops
  have e1 := fresh_view (R := freshSim P eqv hM f.env) (fun _ _ _ _ h => h) rfl
    (hRF.run (fresh_sort hsort) (List.forall₂_same.mpr hrop))
  rw [← e1]
  have key : CanPlaceAll P sort ({ f with history := [] } : Filter T V M K E) ops ∧
      ((bare P f).run P sort ops).map (fun g => (g.getState, g.getCovariance, g.getStateTime))
        = (({ f with history := [] } : Filter T V M K E).run P sort ops).map (fun g => (g.getState, g.getCovariance, g.getStateTime)) := by
    rcases hu with h | ⟨u, t, rest, rfl, hu⟩
    · have hs : (samePcSim P).RF ({ f with history := [] } : Filter T V M K E) (bare P f) := by
        refine ⟨rfl, ⟨hempty _ h, rfl, fun h' => ?_⟩, ⟨List.Forall₂.cons ⟨rfl, rfl, rfl⟩ List.Forall₂.nil, List.Forall₂.nil⟩,
          List.forall₂_same.mpr fun _ _ => rfl, List.forall₂_same.mpr fun _ _ => rfl⟩
        exact absurd h' (by show ¬ P.vsize f.prevControl > 0; omega)
      have hss : ∀ l l', List.Forall₂ (samePcSim P).RI l l' → List.Forall₂ (samePcSim P).RI (sort l) (sort l') := by
        intro l l' hl
        have : List.Forall₂ Eq l l' := hl
        rw [List.forall₂_eq_eq_eq] at this
        subst this
        exact List.forall₂_same.mpr (fun _ _ => rfl)
      exact ⟨fresh_canPlaceAll sort hss ops (fun op _ => samePc_rop P op) hs hb,
        (fresh_view (R := samePcSim P) (fun _ _ _ _ h => h) rfl
          (hs.run hss (List.forall₂_same.mpr fun op _ => samePc_rop P op))).symm⟩
    · have ht : f.getStateTime ≤ t := by
        rcases hb.1 with h | ⟨s, hs, _⟩
        · exact h
        · exact absurd hs (by simp)
      have hst := explicit_bare P sort f hr u t hu ht
      refine ⟨⟨hb.1, fun g hg => hb.2 g (by rw [← hst]; exact hg)⟩, ?_⟩
      rw [Filter.run, Filter.run, hst]
  rw [key.2]
  have := congrArg (Option.map fun v : V × M × T × V × M × E => (v.1, v.2.1, v.2.2.1))
    (forgetting_history P sort hsort f hinv hr ops key.1)
  simpa only [Option.map_map, Function.comp_def] using this

/-- **C145 (when the condition holds).**  Data in time order can always be placed. -/
theorem C145_in_order_can_be_placed (P : Plant T V M K E) (sort : List (FilterInput T V M K) → List (FilterInput T V M K))
    (ops : List (Op T V M K E)) (f : Filter T V M K E) (h : f.InOrderRun P sort ops) : CanPlaceAll P sort f ops := by
  induction ops generalizing f with
  | nil => trivial
  | cons op ops ih =>
    refine ⟨?_, fun g hg => ih g (h.2 g hg)⟩
    have h1 := h.1
    cases op with
    | predictControl u t => exact Or.inl ((LawfulTime.le_iff _ _).mp h1)
    | correct z c t m => exact Or.inl ((LawfulTime.le_iff _ _).mp h1)
    | revertToState t => exact absurd h1 (by simp [Filter.InOrder])
    | processQueues => exact fun i hi => Or.inl ((LawfulTime.lt_iff _ _).mp (h1 i hi))
    | setParams p => exact absurd h1 (by simp [Filter.InOrder])
    | init x c t => trivial
    | predictTime t => trivial
    | enqueueControl u t => trivial
    | enqueueMeasurement z c t m => trivial
    | clearControlQueue => trivial
    | clearMeasurementQueue => trivial
    | userModel u => trivial

end resume

section plain
variable [LinearOrder T] [ExactTime T]

/-- **C145 (plain mode, any filter class with memoryless models).**  With rewinding off no condition on the time stamps is
needed, except that the control that replaces the one in use is not older than the estimate. -/
theorem C145_resume_plain (P : Plant T V M K E) (eqv : E → E → Prop) (hM : Memoryless P eqv)
    (hempty : ∀ v, P.vsize v = 0 → v = P.emptyV) (hE : P.vsize P.emptyV = 0) (sort) (hsort : IsTimeSort sort) (f : Filter T V M K E)
    (hr : f.params.rewindHistory = false) (hh : f.history = []) (hq : f.queued = []) (e : E) (he : eqv f.env e)
    (ops : List (Op T V M K E)) (hm : ∀ op ∈ ops, op.LeavesModels)
    (hu : P.vsize f.prevControl = 0 ∨
      ∃ u t rest, ops = .predictControl u t :: rest ∧ P.vsize u > 0 ∧ f.getStateTime ≤ t) :
    ((resumed P f e).run P sort ops).map (fun g => (g.getState, g.getCovariance, g.getStateTime))
      = (f.run P sort ops).map (fun g => (g.getState, g.getCovariance, g.getStateTime)) := by
  have hRF := bare_resumed P eqv hM hE f hq e he
  have hrop : ∀ op ∈ ops, (freshSim P eqv hM f.env).ROp op op := fun op ho => fresh_rop P eqv hM f.env op (hm op ho)
  have e1 := fresh_view (R := freshSim P eqv hM f.env) (fun _ _ _ _ h => h) rfl
    (hRF.run (fresh_sort hsort) (List.forall₂_same.mpr hrop))
  rw [← e1]
  have hfb : f = { f with history := [] } := by rw [← hh]
  rcases hu with h | ⟨u, t, rest, rfl, hu, ht⟩
  · have hs : (samePcSim P).RF f (bare P f) := by
      rw [hfb]
      refine ⟨rfl, ⟨hempty _ h, rfl, fun h' => ?_⟩, ⟨List.Forall₂.cons ⟨rfl, rfl, rfl⟩ List.Forall₂.nil, List.Forall₂.nil⟩,
        List.forall₂_same.mpr fun _ _ => rfl, List.forall₂_same.mpr fun _ _ => rfl⟩
      exact absurd h' (by show ¬ P.vsize f.prevControl > 0; omega)
    have hss : ∀ l l', List.Forall₂ (samePcSim P).RI l l' → List.Forall₂ (samePcSim P).RI (sort l) (sort l') := by
      intro l l' hl
      have : List.Forall₂ Eq l l' := hl
      rw [List.forall₂_eq_eq_eq] at this
      subst this
      exact List.forall₂_same.mpr (fun _ _ => rfl)
    exact (fresh_view (R := samePcSim P) (fun _ _ _ _ h => h) rfl
      (hs.run hss (List.forall₂_same.mpr fun op _ => samePc_rop P op))).symm
  · have hle : TimeOps.le f.state.timestamp t = true := (LawfulTime.le_iff _ _).mpr ht
    have hst : f.step P sort (.predictControl u t) = (bare P f).step P sort (.predictControl u t) := by
      simp only [Filter.step, predictControl, hr, Bool.not_false, if_true, hle, applyInput_eq]
      have : Core.apply P f.core ⟨u, P.rc f.env, t, true, none⟩
          = Core.apply P (bare P f).core ⟨u, P.rc f.env, t, true, none⟩ := by
        simp [Core.apply, Core.control, Filter.core, hu]
      rw [this]
      cases Core.apply P (bare P f).core ⟨u, P.rc f.env, t, true, none⟩ with
      | none => rfl
      | some c =>
        simp only [Option.map_some, pushed, hr, Bool.false_eq_true, if_false, hh]
        rfl
    rw [Filter.run, Filter.run, hst]

/-- The claim for one filter class: `eqv` says what "configured alike" means for its models. -/
def Resumable (P : Plant T V M K E) (eqv : E → E → Prop) : Prop :=
  ∀ (sort : List (FilterInput T V M K) → List (FilterInput T V M K)), IsTimeSort sort → ∀ (f : Filter T V M K E) (e : E),
    f.queued = [] → eqv f.env e → ∀ ops : List (Op T V M K E), (∀ op ∈ ops, op.LeavesModels) →
    (ReachRewind P sort f ∧ ControlSettled P f ops ∧ CanPlaceAll P sort (resumed P f e) ops ∨
      f.params.rewindHistory = false ∧ f.history = [] ∧ (P.vsize f.prevControl = 0 ∨
        ∃ u t rest, ops = .predictControl u t :: rest ∧ P.vsize u > 0 ∧ f.getStateTime ≤ t)) →
    ((construct P f.params e f.getState f.getCovariance f.getStateTime).run P sort ops).map
        (fun g => (g.getState, g.getCovariance, g.getStateTime))
      = (f.run P sort ops).map (fun g => (g.getState, g.getCovariance, g.getStateTime))

theorem resumable (P : Plant T V M K E) (eqv : E → E → Prop) (hM : Memoryless P eqv)
    (hempty : ∀ v, P.vsize v = 0 → v = P.emptyV) (hE : P.vsize P.emptyV = 0) : Resumable P eqv := by
  intro sort hsort f e hq he ops hm h
  rcases h with ⟨h1, h2, h3⟩ | ⟨h1, h2, h3⟩
  · exact C145_resume_rewind P eqv hM hempty hE sort hsort f h1 hq e he ops hm h2 h3
  · exact C145_resume_plain P eqv hM hempty hE sort hsort f h1 h2 hq e he ops hm h3

end plain

section filters

variable {T K X Y Gm Gs : Type} [LinearOrder T] [ExactTime T] [DecidableEq K]

theorem dvec_empty (v : DVec) (h : v.size = 0) : v = DVec.empty := by
  obtain ⟨n, a⟩ := v
  dsimp only at h
  subst h
  exact congrArg (DVec.mk 0) (funext fun i => i.elim0)

/-- **C145 (Kalman filter).** -/
theorem C145_kf {sc : SysClass T LinSysData X} {mc : K → MeasClass T LinMeasData Y} (cfgS : Sys LinSysData X → Gs)
    (hsc : sc.Stateless cfgS) (cfg : K → Meas LinMeasData Y → Gm) (hmc : ∀ k, (mc k).Stateless (cfg k)) :
    Resumable (kfPlant sc mc) (SameSetup cfgS cfg) := resumable _ _ (kf_memoryless cfgS hsc cfg hmc) dvec_empty rfl

/-- **C145 (Kalman filter with variable states).** -/
theorem C145_kf_vs {sc : SysClass T LinSysData X} {mc : K → MeasClass T LinMeasData Y} (cfgS : Sys LinSysData X → Gs)
    (hsc : sc.Stateless cfgS) (cfg : K → Meas LinMeasData Y → Gm) (hmc : ∀ k, (mc k).Stateless (cfg k)) :
    Resumable (kfvsPlant sc mc) (SameSetup cfgS cfg) := resumable _ _ (kfvs_memoryless cfgS hsc cfg hmc) dvec_empty rfl

/-- **C145 (EKF).** -/
theorem C145_ekf {sc : SysClass T NonlinSysData X} {mc : K → MeasClass T NonlinMeasData Y} (cfgS : Sys NonlinSysData X → Gs)
    (hsc : sc.Stateless cfgS) (cfg : K → Meas NonlinMeasData Y → Gm) (hmc : ∀ k, (mc k).Stateless (cfg k)) :
    Resumable (ekfPlant sc mc) (SameSetup cfgS cfg) := resumable _ _ (ekf_memoryless cfgS hsc cfg hmc) dvec_empty rfl

/-- **C145 (EKF with variable states).** -/
theorem C145_ekf_vs {sc : SysClass T NonlinSysData X} {mc : K → MeasClass T NonlinMeasData Y} (cfgS : Sys NonlinSysData X → Gs)
    (hsc : sc.Stateless cfgS) (cfg : K → Meas NonlinMeasData Y → Gm) (hmc : ∀ k, (mc k).Stateless (cfg k)) :
    Resumable (ekfvsPlant sc mc) (SameSetup cfgS cfg) := resumable _ _ (ekfvs_memoryless cfgS hsc cfg hmc) dvec_empty rfl

/-- **C145 (UKF)**, for every factorisation routine and whatever is in uninitialised memory. -/
theorem C145_ukf (llt : DMat → Option DMat) (junk : Nat → Nat → ℝ) {sc : SysClass T NonlinSysData X}
    {mc : K → MeasClass T NonlinMeasData Y} (cfgS : Sys NonlinSysData X → Gs) (hsc : sc.Stateless cfgS)
    (cfg : K → Meas NonlinMeasData Y → Gm) (hmc : ∀ k, (mc k).Stateless (cfg k)) :
    Resumable (ukfPlant llt junk sc mc) (fun e e' => SameSetup cfgS cfg e.1 e'.1 ∧ e'.2 = e.2) :=
  resumable _ _ (ukf_memoryless llt junk cfgS hsc cfg hmc) dvec_empty rfl

/-- **C145 (UKF with variable states).** -/
theorem C145_ukf_vs (llt : DMat → Option DMat) (junk : Nat → Nat → ℝ) {sc : SysClass T NonlinSysData X}
    {mc : K → MeasClass T NonlinMeasData Y} (cfgS : Sys NonlinSysData X → Gs) (hsc : sc.Stateless cfgS)
    (cfg : K → Meas NonlinMeasData Y → Gm) (hmc : ∀ k, (mc k).Stateless (cfg k)) :
    Resumable (ukfvsPlant llt junk sc mc) (fun e e' => SameSetup cfgS cfg e.1 e'.1 ∧ e'.2 = e.2) :=
  resumable _ _ (ukfvs_memoryless llt junk cfgS hsc cfg hmc) dvec_empty rfl

/-- the six-D rates model with its two sensors is among them -/
example : Resumable (ekfPlant SixDRates.cls sixDSensors) (SameSetup SixDRates.config sixDCfg) :=
  C145_ekf SixDRates.config SixDRates.stateless sixDCfg sixDSensors_stateless

end filters

/-! ### Concrete cases -/

/-- a filter with a past: readings at 2 and 4, a late one at 3 -/
def seasoned : Filter ℤ (List ℤ) ℤ Unit ℤ :=
  (toyRun (toyRewind.init [0] 0 0) [.correct [8] 1 2 (some ()), .correct [16] 1 4 (some ()), .correct [40] 1 3 (some ())]).getD
    toyRewind

/-- what comes after: a reading at 9, a late one at 6, one at 5 through the queue, a revert to 7, a control -/
def afterwards : List (Op ℤ (List ℤ) ℤ Unit ℤ) :=
  [.correct [64] 1 9 (some ()), .correct [96] 1 6 (some ()), .enqueueMeasurement [160] 1 5 (some ()), .processQueues,
    .revertToState 7, .predictControl [3] 8]

theorem seasoned_reach : ReachRewind toy insSort seasoned := by
  have h := ReachRewind.run toy insSort (toyRewind.init [0] 0 0) seasoned
    [.correct [8] 1 2 (some ()), .correct [16] 1 4 (some ()), .correct [40] 1 3 (some ())]
    (ReachRewind.start toyRewind [0] 0 0 rfl) (by
      intro op hop
      simp only [List.mem_cons, List.not_mem_nil, or_false] at hop
      rcases hop with rfl | rfl | rfl <;> trivial)
  exact h rfl

/-- Non-vacuity of C145: `seasoned` meets the conditions, remembers three states, and `afterwards`, with late and queued data
and a revert, can be placed by the filter made from its estimate; the common result is not trivial. -/
example : seasoned.queued = [] ∧ seasoned.history.length = 3 ∧ ControlSettled toy seasoned afterwards ∧
    CanPlaceAll toy insSort (resumed toy seasoned 1) afterwards ∧
    estimate (toyRun (resumed toy seasoned 1) afterwards) = estimate (toyRun seasoned afterwards) := by
  have hc : CanPlaceAll toy insSort (resumed toy seasoned 1) afterwards := by
    refine ⟨by unfold CanPlace; decide, fun g hg => ?_⟩; cases hg
    refine ⟨by unfold CanPlace; decide, fun g hg => ?_⟩; cases hg
    refine ⟨trivial, fun g hg => ?_⟩; cases hg
    refine ⟨by unfold CanPlace; decide, fun g hg => ?_⟩; cases hg
    refine ⟨by unfold CanPlace; decide, fun g hg => ?_⟩; cases hg
    exact ⟨by unfold CanPlace; decide, fun g hg => trivial⟩
  have hs : ControlSettled toy seasoned afterwards := Or.inl (by decide)
  refine ⟨by decide, by decide, hs, hc, ?_⟩
  exact resumable toy (fun e e' => e = e') toy_memoryless (fun _ hv => List.eq_nil_of_length_eq_zero hv) rfl insSort
    insSort_isTimeSort seasoned 1 (by decide) (by decide) afterwards (by
      intro op hop
      simp only [afterwards, List.mem_cons, List.not_mem_nil, or_false] at hop
      rcases hop with rfl | rfl | rfl | rfl | rfl | rfl <;> trivial) (Or.inl ⟨seasoned_reach, hs, hc⟩)

/-- the common result -/
example : estimate (toyRun seasoned afterwards) ≠ estimate (some seasoned) := by decide

/-- Why `ControlSettled`: the control in use cannot be saved.  The old filter goes on applying `[5]`, the new one does not. -/
example : estimate (toyRun (toyRewind.init [0] 0 0) [.predictControl [5] 3, .predictTime 5]) ≠
    estimate (toyRun (resumed toy ((toyRun (toyRewind.init [0] 0 0) [.predictControl [5] 3]).getD toyRewind) 1) [.predictTime 5]) := by
  decide

/-- Why the data has to be placed: the old filter still places a reading from before the estimate, the new one refuses it. -/
example : estimate (toyRun seasoned [.correct [64] 1 1 (some ())]) ≠
    estimate (toyRun (resumed toy seasoned 1) [.correct [64] 1 1 (some ())]) := by
  decide

end Props
end StateEstimation
