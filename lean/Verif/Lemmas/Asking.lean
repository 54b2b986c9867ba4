import Verif.Spec.Asking
import Verif.Lemmas.Sharing
import Verif.Lemmas.InOrder

/-!
# Questions in between
-/

set_option linter.unusedSectionVars false

namespace StateEstimation

open Filter

variable {T V M K E : Type} [LinearOrder T] [ExactTime T]
variable {P : Plant T V M K E} {RE : E → E → Prop} {U : V → Prop} {R : M → Prop} {Z : V → M → K → Prop}

/-- `predict(t)` on a core -/
def Core.ask (P : Plant T V M K E) (c : Core T V M E) (t : T) : Option (Core T V M E) :=
  c.apply P ⟨P.emptyV, P.rc c.env, t, true, none⟩

/-- the control in use -/
def Core.inUse (P : Plant T V M K E) (c : Core T V M E) : V × M :=
  if P.vsize c.pc > 0 then (c.pc, c.pcc) else (P.zeroV (P.controlSize c.env), P.rc c.env)

/-- goes on with the control in use -/
def Core.goOn (P : Plant T V M K E) (c : Core T V M E) (t : T) : Option (Core T V M E) :=
  (P.setRc c.env (c.inUse P).2).bind fun e =>
    (P.myPredict e c.x c.cov (c.inUse P).1 (TimeOps.sub t c.ts)).map fun r => ⟨r.1, r.2.1, t, c.pc, c.pcc, r.2.2⟩

theorem Core.control_goOn (P : Plant T V M K E) (c : Core T V M E) (i : FilterInput T V M K) (hq : P.sysCheck c.env = false)
    (hi : P.vsize i.data = 0 ∨ i.data = c.pc ∧ i.covariance = c.pcc) :
    (c.control P i).map (·.tick (TimeOps.sub i.timestamp c.ts)) = c.goOn P i.timestamp := by
  unfold Core.control Core.goOn
  dsimp only
  rw [hq]
  have hsel : (if P.vsize i.data > 0 then (i.data, i.covariance, i.data, i.covariance)
      else if P.vsize c.pc > 0 then (c.pc, c.pcc, c.pc, c.pcc)
      else (P.zeroV (P.controlSize c.env), P.rc c.env, c.pc, c.pcc))
      = ((c.inUse P).1, (c.inUse P).2, c.pc, c.pcc) := by
    unfold Core.inUse
    by_cases hd : P.vsize i.data > 0
    · rcases hi with hi | ⟨h1, h2⟩
      · omega
      · rw [if_pos hd, h1, h2, if_pos (by rw [← h1]; exact hd)]
    · rw [if_neg hd]
      by_cases hp : P.vsize c.pc > 0
      · rw [if_pos hp, if_pos hp]
      · rw [if_neg hp, if_neg hp]
  rw [hsel]
  simp only [Bool.false_and, Bool.not_false, if_true]
  cases P.setRc c.env (c.inUse P).2 with
  | none => rfl
  | some e =>
    dsimp only [Option.bind_some]
    cases P.myPredict e c.x c.cov (c.inUse P).1 (TimeOps.sub i.timestamp c.ts) with
    | none => rfl
    | some r =>
      dsimp only [Option.map_some, Core.tick]
      rw [ExactTime.add_sub_cancel]

theorem Core.ask_goOn (h : P.vsize P.emptyV = 0) (c : Core T V M E) (t : T) (hq : P.sysCheck c.env = false) :
    c.ask P t = c.goOn P t := by
  unfold Core.ask Core.apply
  dsimp only
  rw [if_pos rfl]
  exact Core.control_goOn P c ⟨P.emptyV, P.rc c.env, t, true, none⟩ hq (Or.inl h)

theorem Core.apply_meas_ahead (c : Core T V M E) (i : FilterInput T V M K) (hi : i.isControl = false)
    (hq : P.sysCheck c.env = false) (ht : c.ts < i.timestamp) :
    c.apply P i = (c.goOn P i.timestamp).bind fun d => d.meas P i (TimeOps.sub i.timestamp c.ts) := by
  unfold Core.apply
  dsimp only
  rw [hi, if_neg Bool.false_ne_true, if_pos ((LawfulTime.lt_iff _ _).mpr ((LawfulTime.sub_pos_iff _ _).mpr ht))]
  exact congrArg (fun o => Option.bind o _) (Core.control_goOn P c (c.advInput i.timestamp) hq (Or.inr ⟨rfl, rfl⟩))

theorem Core.apply_meas_now (c : Core T V M E) (i : FilterInput T V M K) (hi : i.isControl = false) (ht : c.ts = i.timestamp) :
    c.apply P i = c.meas P i (TimeOps.sub i.timestamp c.ts) := by
  unfold Core.apply
  dsimp only
  rw [hi, if_neg Bool.false_ne_true, if_neg]
  rw [LawfulTime.lt_iff, LawfulTime.sub_pos_iff, ht]
  exact lt_irrefl _

theorem Core.meas_elapsed (hc : IgnoresElapsed P) (c : Core T V M E) (i : FilterInput T V M K) (a b : T) :
    c.meas P i a = c.meas P i b := by
  unfold Core.meas
  simp only [hc _ _ _ _ _ a b]

/-- models that calls cannot tell apart -/
structure AskOk (P : Plant T V M K E) (RE : E → E → Prop) (U : V → Prop) (R : M → Prop) (Z : V → M → K → Prop) : Prop where
  sim : PlantSim P P False (fun _ _ => True) RE U R Z
  like : ∀ e e', RE e e → RE e' e' → RE e e'
  left : ∀ e e', RE e e' → RE e e
  right : ∀ e e', RE e e' → RE e' e'
  quiet : ∀ e, RE e e → P.sysCheck e = false
  split : SplitsTime P (fun e => RE e e)
  elapsed : IgnoresElapsed P

/-- a core with models as configured -/
abbrev CoreAsk (P : Plant T V M K E) (RE : E → E → Prop) (U : V → Prop) (R : M → Prop) (c : Core T V M E) : Prop :=
  CoreSim P (fun _ _ => True) RE U R c c

theorem AskOk.goOn_like (h : AskOk P RE U R Z) (c d : Core T V M E) (hcd : CoreSim P (fun _ _ => True) RE U R c d) (t : T)
    (hq : RE c.env c.env) (hq' : RE d.env d.env) :
    OptRel False (CoreSim P (fun _ _ => True) RE U R) (c.goOn P t) (d.goOn P t) := by
  have hh := h.sim.apply c d ⟨P.emptyV, P.rc c.env, t, true, none⟩ hcd
    (by
      unfold InputOk
      rw [if_pos rfl]
      intro hv
      exact absurd hv (by show ¬ P.vsize P.emptyV > 0; rw [h.sim.empty]; exact Nat.lt_irrefl 0))
  have e1 := Core.ask_goOn h.sim.empty c t (h.quiet _ hq)
  have e2 := Core.ask_goOn h.sim.empty d t (h.quiet _ hq')
  unfold Core.ask at e1 e2
  rw [e1] at hh
  have : P.rc c.env = P.rc d.env := (h.sim.rc _ _ hcd.2.2.2.2.1).1
  rw [this, e2] at hh
  exact hh

theorem AskOk.core_left (h : AskOk P RE U R Z) {c d : Core T V M E} (hcd : CoreSim P (fun _ _ => True) RE U R c d) :
    CoreAsk P RE U R c :=
  ⟨rfl, ⟨rfl, rfl, trivial⟩, rfl, rfl, h.left _ _ hcd.2.2.2.2.1, hcd.2.2.2.2.2⟩

theorem AskOk.core_right (h : AskOk P RE U R Z) {c d : Core T V M E} (hcd : CoreSim P (fun _ _ => True) RE U R c d) :
    CoreAsk P RE U R d :=
  ⟨rfl, ⟨rfl, rfl, trivial⟩, rfl, rfl, h.right _ _ hcd.2.2.2.2.1, by rw [← hcd.2.2.1, ← hcd.2.2.2.1]; exact hcd.2.2.2.2.2⟩

theorem AskOk.core_symm (h : AskOk P RE U R Z) {c d : Core T V M E} (hcd : CoreSim P (fun _ _ => True) RE U R c d) :
    CoreSim P (fun _ _ => True) RE U R d c :=
  ⟨hcd.1.symm, ⟨hcd.2.1.1.symm, hcd.2.1.2.1.symm, trivial⟩, hcd.2.2.1.symm, hcd.2.2.2.1.symm,
    h.like _ _ (h.right _ _ hcd.2.2.2.2.1) (h.left _ _ hcd.2.2.2.2.1), (h.core_right hcd).2.2.2.2.2⟩

theorem AskOk.core_trans (h : AskOk P RE U R Z) {b c d : Core T V M E} (hbc : CoreSim P (fun _ _ => True) RE U R b c)
    (hcd : CoreSim P (fun _ _ => True) RE U R c d) : CoreSim P (fun _ _ => True) RE U R b d :=
  ⟨hbc.1.trans hcd.1, ⟨hbc.2.1.1.trans hcd.2.1.1, hbc.2.1.2.1.trans hcd.2.1.2.1, trivial⟩, hbc.2.2.1.trans hcd.2.2.1,
    hbc.2.2.2.1.trans hcd.2.2.2.1, h.like _ _ (h.left _ _ hbc.2.2.2.2.1) (h.right _ _ hcd.2.2.2.2.1), hbc.2.2.2.2.2⟩

theorem AskOk.goOn_keeps (h : AskOk P RE U R Z) (c : Core T V M E) (hc : CoreAsk P RE U R c) (t : T) (d) (hd : c.goOn P t = some d) :
    CoreAsk P RE U R d ∧ d.ts = t ∧ d.inUse P = c.inUse P := by
  have := h.goOn_like c c hc t hc.2.2.2.2.1 hc.2.2.2.2.1
  rw [hd] at this
  refine ⟨this, ?_, ?_⟩
  · unfold Core.goOn at hd
    simp only [Option.bind_eq_some_iff, Option.map_eq_some_iff] at hd
    obtain ⟨_, _, _, _, rfl⟩ := hd
    rfl
  · have hpc : d.pc = c.pc ∧ d.pcc = c.pcc := by
      unfold Core.goOn at hd
      simp only [Option.bind_eq_some_iff, Option.map_eq_some_iff] at hd
      obtain ⟨_, _, _, _, rfl⟩ := hd
      exact ⟨rfl, rfl⟩
    have hE := h.like _ _ hc.2.2.2.2.1 this.2.2.2.2.1
    unfold Core.inUse
    rw [hpc.1, hpc.2, ← h.sim.controlSize _ _ hE, ← (h.sim.rc _ _ hE).1]

/-- going on in two steps -/
theorem AskOk.goOn_split (h : AskOk P RE U R Z) (c : Core T V M E) (hc : CoreAsk P RE U R c) (s t : T) (h1 : c.ts < s) (h2 : s < t) :
    OptRel False (CoreSim P (fun _ _ => True) RE U R) ((c.goOn P s).bind fun d => d.goOn P t) (c.goOn P t) := by
  have hE := hc.2.2.2.2.1
  have hR : R (c.inUse P).2 := by
    unfold Core.inUse
    split
    · rename_i hp
      exact (hc.2.2.2.2.2 hp).2
    · exact (h.sim.rc _ _ hE).2
  have hU : U (c.inUse P).1 := by
    unfold Core.inUse
    split
    · rename_i hp
      exact (hc.2.2.2.2.2 hp).1
    · exact h.sim.zero _ _ hE
  cases he : P.setRc c.env (c.inUse P).2 with
  | none =>
    have e1 : ∀ t, c.goOn P t = none := by intro t; unfold Core.goOn; rw [he]; rfl
    rw [e1, e1]
    exact not_false
  | some e =>
    have hEe : RE e e := by
      have := h.sim.setRc _ _ _ hE hR
      rw [he] at this
      exact this
    have hg : ∀ t, c.goOn P t = (P.myPredict e c.x c.cov (c.inUse P).1 (TimeOps.sub t c.ts)).map fun r =>
        ⟨r.1, r.2.1, t, c.pc, c.pcc, r.2.2⟩ := by
      intro t; unfold Core.goOn; rw [he]; rfl
    have hs := h.split e c.x c.cov (c.inUse P).1 c.ts s t hEe h1 h2
    cases hp1 : P.myPredict e c.x c.cov (c.inUse P).1 (TimeOps.sub s c.ts) with
    | none =>
      have e1 : c.goOn P s = none := by rw [hg, hp1]; rfl
      rw [e1, hg]
      rw [hp1] at hs
      revert hs
      cases P.myPredict e c.x c.cov (c.inUse P).1 (TimeOps.sub t c.ts) with
      | none => intro _; exact not_false
      | some r => intro hs; exact hs
    | some r =>
      obtain ⟨x1, c1, e2⟩ := r
      have e1 : c.goOn P s = some ⟨x1, c1, s, c.pc, c.pcc, e2⟩ := by rw [hg, hp1]; rfl
      obtain ⟨k1, k2, k3⟩ := h.goOn_keeps c hc s _ e1
      have hE2 : RE e2 e2 := k1.2.2.2.2.1
      rw [e1, Option.bind_some]
      rw [hp1, Option.bind_some] at hs
      dsimp only at hs
      unfold Core.goOn
      rw [k3, he]
      dsimp only [Option.bind_some]
      have hset := h.sim.setRc e2 c.env _ (h.like _ _ hE2 hE) hR
      rw [he] at hset
      rcases OptRel.elim hset with ⟨_, h0, _⟩ | ⟨e3, e', h3, h4, h5⟩
      · cases h0
      obtain rfl : e = e' := Option.some.inj h4
      rw [h3, Option.bind_some]
      have hE3 : RE e3 e3 := by
        have := h.sim.setRc e2 e2 _ hE2 hR
        rw [h3] at this
        exact this
      have hp := h.sim.predict e3 e2 x1 c1 (c.inUse P).1 (TimeOps.sub t s) (h.like _ _ hE3 hE2) trivial hU
      have hpt := h.sim.predict e e c.x c.cov (c.inUse P).1 (TimeOps.sub t c.ts) hEe trivial hU
      revert hs hp hpt
      cases P.myPredict e2 x1 c1 (c.inUse P).1 (TimeOps.sub t s) <;>
        cases P.myPredict e c.x c.cov (c.inUse P).1 (TimeOps.sub t c.ts) <;>
        cases hm : P.myPredict e3 x1 c1 (c.inUse P).1 (TimeOps.sub t s) <;>
        intro hs hp hpt <;> simp only [OptRel] at hs hp hpt ⊢
      · exact not_false
      · rename_i r q p
        obtain ⟨a1, a2, _, a4⟩ := hp
        refine ⟨rfl, ⟨a1.trans hs.1, a2.trans hs.2, trivial⟩, rfl, rfl, ?_, hc.2.2.2.2.2⟩
        refine h.like _ _ ?_ hpt.2.2.2
        have := h.sim.predict e3 e3 x1 c1 (c.inUse P).1 (TimeOps.sub t s) hE3 trivial hU
        rw [hm] at this
        exact this.2.2.2

/-! ### Filters -/

/-- not remembering anything -/
def Filter.Off (f : Filter T V M K E) : Prop := f.params.rewindHistory = false ∧ f.history = []

theorem Filter.Off.pruned_eq {f : Filter T V M K E} (h : f.Off) : f.pruned = f := by
  unfold Filter.pruned
  rw [h.1]
  rfl

theorem Filter.Off.applyInput {f g : Filter T V M K E} (h : f.Off) {i} (hg : applyInput P f i = some g) : g.Off := by
  obtain ⟨c, _, rfl⟩ := applyInput_some P f g i hg
  refine ⟨h.1, ?_⟩
  show f.pushed = []
  unfold pushed
  rw [h.1, h.2]
  rfl

theorem Filter.Off.applyAll {is} : ∀ {f g : Filter T V M K E}, f.Off → applyAll P f is = some g → g.Off := by
  induction is with
  | nil => intro f g h hg; rw [Filter.applyAll, Option.some.injEq] at hg; rw [← hg]; exact h
  | cons i is ih =>
    intro f g h hg
    rw [Filter.applyAll] at hg
    split at hg
    · cases hg
    · rename_i f1 h1
      exact ih (h.applyInput h1) hg

theorem Filter.Off.of_pruned {f : Filter T V M K E} (h : f.Off) : f.pruned.Off := by rw [h.pruned_eq]; exact h

theorem Filter.Off.step {f g : Filter T V M K E} {sort} (h : f.Off) {op} (hop : op.StaysOff) (hg : f.step P sort op = some g) :
    g.Off := by
  cases op with
  | init x c t => simp only [Filter.step, Option.some.injEq] at hg; subst hg; exact ⟨h.1, rfl⟩
  | predictTime t =>
    rcases predictTime_some P f g t hg with ⟨_, rfl⟩ | ⟨h1, g', h2, rfl⟩
    · exact h
    · exact (h.applyInput h2).of_pruned
  | predictControl u t =>
    rcases predictControl_some P f g u t hg with ⟨_, _, rfl⟩ | ⟨_, _, g', h2, rfl⟩ | ⟨h1, h2⟩
    · exact h
    · exact (h.applyInput h2).of_pruned
    · rw [h.1] at h1; cases h1
  | correct z c t m =>
    rcases correct_some P f g z c t m hg with ⟨_, _, _, rfl⟩ | ⟨_, _, g', h2, rfl⟩ | ⟨h1, h2⟩
    · exact h
    · exact (h.applyInput h2).of_pruned
    · rw [h.1] at h1; cases h1
  | enqueueControl u t => simp only [Filter.step, Option.some.injEq] at hg; subst hg; exact h
  | enqueueMeasurement z c t m => simp only [Filter.step, Option.some.injEq] at hg; subst hg; exact h
  | processQueues =>
    simp only [Filter.step, Filter.processQueues] at hg
    rw [h.1] at hg
    simp only [Bool.false_eq_true, if_false] at hg
    rw [applyBatchInputs_eq] at hg
    split at hg
    · cases hg
    · rename_i g1 h1
      obtain ⟨g2, h2, rfl⟩ := Option.map_eq_some_iff.mp h1
      have hoff : Filter.Off ({ f with controlQueue := f.pruneQueue f.controlQueue, measQueue := f.pruneQueue f.measQueue } : Filter T V M K E) := h
      have h3 := (Filter.Off.applyAll hoff h2).of_pruned
      rw [Option.some.injEq] at hg
      rw [← hg]
      exact h3
  | clearControlQueue => simp only [Filter.step, Option.some.injEq] at hg; subst hg; exact h
  | clearMeasurementQueue => simp only [Filter.step, Option.some.injEq] at hg; subst hg; exact h
  | revertToState t =>
    simp only [Filter.step, Filter.revertToState, Filter.rewindHistory, h.2] at hg
    split at hg
    · cases hg
    all_goals
      rename_i e1
      split at e1 <;> simp only [Option.some.injEq, Prod.mk.injEq, Bool.true_eq_false, Bool.false_eq_true, false_and, and_false] at e1
      all_goals
        obtain ⟨rfl, _⟩ := e1
        simp only [Option.map_some, Option.some.injEq] at hg
        subst hg
        exact h
  | setParams p => simp only [Filter.step, Option.some.injEq] at hg; subst hg; exact ⟨hop, h.2⟩
  | userModel u =>
    simp only [Filter.step, Option.map_eq_some_iff] at hg
    obtain ⟨e, _, rfl⟩ := hg
    exact h

/-- related queues -/
def QSim (h : AskOk P RE U R Z) (f g : Filter T V M K E) : Prop :=
  f.params = g.params ∧ List.Forall₂ h.sim.sim.RI f.controlQueue g.controlQueue ∧ List.Forall₂ h.sim.sim.RI f.measQueue g.measQueue

theorem AskOk.rf (h : AskOk P RE U R Z) {f g : Filter T V M K E} (hf : f.Off) (hg : g.Off) (hq : QSim h f g)
    (hc : CoreSim P (fun _ _ => True) RE U R f.core g.core) : h.sim.sim.RF f g := by
  refine ⟨hq.1, hc.2.2, ?_, hq.2.1, hq.2.2⟩
  unfold Filter.retained
  rw [hf.2, hg.2]
  exact ⟨List.Forall₂.cons ⟨hc.1, hc.2.1⟩ List.Forall₂.nil, List.Forall₂.nil⟩

theorem AskOk.rf_core (h : AskOk P RE U R Z) {f g : Filter T V M K E} (hr : h.sim.sim.RF f g) :
    CoreSim P (fun _ _ => True) RE U R f.core g.core := hr.core

/-- the filter after going on -/
def Filter.went (f : Filter T V M K E) (c : Core T V M E) (i : FilterInput T V M K) : Filter T V M K E := { f.withCore c i with history := f.pushed }

theorem Filter.Off.went {f : Filter T V M K E} (h : f.Off) (c) (i : FilterInput T V M K) : (f.went c i).Off := by
  refine ⟨h.1, ?_⟩
  show f.pushed = []
  unfold pushed
  rw [h.1, h.2]
  rfl

theorem AskOk.ask_step (h : AskOk P RE U R Z) {f : Filter T V M K E} (hf : f.Off) (hc : CoreAsk P RE U R f.core) (t : T)
    (ht : f.state.timestamp < t) :
    f.predictTime P t = (f.core.goOn P t).map fun c => f.went c ⟨P.emptyV, P.rc f.env, t, true, none⟩ := by
  rw [predictTime_future P f t ht, applyInput_eq]
  have e := Core.ask_goOn h.sim.empty f.core t (h.quiet _ hc.2.2.2.2.1)
  unfold Core.ask at e
  have e' : Core.apply P f.core ⟨P.emptyV, P.rc f.env, t, true, none⟩ = f.core.goOn P t := e
  rw [e']
  cases f.core.goOn P t with
  | none => rfl
  | some c =>
    rw [Option.map_some, Option.map_some, Option.map_some]
    exact congrArg some (Filter.Off.pruned_eq (hf.went c _))

theorem predictTime_past {f : Filter T V M K E} (t : T) (ht : t ≤ f.state.timestamp) : f.predictTime P t = some f := by
  unfold Filter.predictTime
  rw [if_neg (by rw [LawfulTime.lt_iff, not_lt]; exact ht)]

theorem AskOk.correct_step (_h : AskOk P RE U R Z) {f : Filter T V M K E} (hf : f.Off) (z : V) (Rz : M) (t : T) (m : Option K)
    (ht : f.state.timestamp ≤ t) :
    f.correct P z Rz t m = (f.core.apply P (measurementInput z Rz t m)).map fun c => f.went c (measurementInput z Rz t m) := by
  rw [correct_inorder P f z Rz t m ht, applyInput_eq]
  cases f.core.apply P (measurementInput z Rz t m) with
  | none => rfl
  | some c =>
    rw [Option.map_some, Option.map_some, Option.map_some]
    exact congrArg some (Filter.Off.pruned_eq (hf.went c _))

/-- `g` is `f` after a question for time `s` -/
structure Ahead (h : AskOk P RE U R Z) (s : T) (f g : Filter T V M K E) : Prop where
  lt : f.state.timestamp < s
  offF : f.Off
  offG : g.Off
  qs : QSim h f g
  okF : CoreAsk P RE U R f.core
  went : ∃ c, f.core.goOn P s = some c ∧ CoreSim P (fun _ _ => True) RE U R c g.core

theorem Ahead.time {h : AskOk P RE U R Z} {s : T} {f g : Filter T V M K E} (a : Ahead h s f g) : g.state.timestamp = s := by
  obtain ⟨c, h1, h2⟩ := a.went
  have h3 := (h.goOn_keeps _ a.okF s c h1).2.1
  have h4 : c.ts = g.state.timestamp := h2.1
  rw [← h4, h3]

/-- if going on fails, so does the next call -/
theorem AskOk.next_none (h : AskOk P RE U R Z) {f : Filter T V M K E} (hf : f.Off) (hc : CoreAsk P RE U R f.core) {s : T}
    (hs : f.state.timestamp < s) (hn : f.core.goOn P s = none) {op : Op T V M K E} (hop : op.GoesOnTo s) (sort) :
    f.step P sort op = none := by
  have key : ∀ t, s ≤ t → f.core.goOn P t = none := by
    intro t hst
    rcases eq_or_lt_of_le hst with rfl | hlt
    · exact hn
    · have := h.goOn_split f.core hc s t hs hlt
      rw [hn, Option.bind_none] at this
      rcases OptRel.elim this with ⟨_, h2, _⟩ | ⟨x, y, h1, _⟩
      · exact h2
      · cases h1
  cases op with
  | predictTime t =>
    show f.predictTime P t = none
    rw [h.ask_step hf hc t (lt_of_lt_of_le hs hop), key t hop]
    rfl
  | correct z Rz t m =>
    show f.correct P z Rz t m = none
    have ht : f.state.timestamp < t := lt_of_lt_of_le hs hop
    rw [h.correct_step hf z Rz t m ht.le, Core.apply_meas_ahead f.core (measurementInput z Rz t m) rfl (h.quiet _ hc.2.2.2.2.1) ht]
    have : f.core.goOn P (measurementInput z Rz t m : FilterInput T V M K).timestamp = none := key t hop
    rw [this]
    rfl
  | _ => exact absurd hop not_false

theorem AskOk.next (h : AskOk P RE U R Z) {f g : Filter T V M K E} {s : T} (a : Ahead h s f g) {op : Op T V M K E}
    (hop : op.GoesOnTo s) (hZ : OpSame P False (fun _ _ => True) RE U Z op op) (sort) :
    OptRel False h.sim.sim.RF (f.step P sort op) (g.step P sort op) := by
  have hc := a.okF
  have hgc : CoreAsk P RE U R g.core := by
    obtain ⟨c, _, h2⟩ := a.went
    exact h.core_right h2
  -- going on to `t` from both
  have key : ∀ t, s < t → OptRel False (CoreSim P (fun _ _ => True) RE U R) (f.core.goOn P t) (g.core.goOn P t) := by
    intro t hst
    obtain ⟨c, h1, h2⟩ := a.went
    have e1 := h.goOn_split f.core hc s t a.lt hst
    rw [h1, Option.bind_some] at e1
    have e2 := h.goOn_like c g.core h2 t (h.core_left h2).2.2.2.2.1 hgc.2.2.2.2.1
    rcases OptRel.elim e1 with ⟨k1, k2, _⟩ | ⟨x, y, k1, k2, k3⟩
    · rw [k1] at e2
      rcases OptRel.elim e2 with ⟨_, j2, _⟩ | ⟨x, y, j1, _⟩
      · rw [k2, j2]; exact not_false
      · cases j1
    · rw [k1] at e2
      rcases OptRel.elim e2 with ⟨j1, _, _⟩ | ⟨x', y', j1, j2, j3⟩
      · cases j1
      · obtain rfl := Option.some.inj j1
        rw [k2, j2]
        exact h.core_trans (h.core_symm k3) j3
  have fin : ∀ i i' c d, CoreSim P (fun _ _ => True) RE U R c d → h.sim.sim.RF (f.went c i) (g.went d i') := by
    intro i i' c d hcd
    exact h.rf (a.offF.went _ _) (a.offG.went _ _) ⟨a.qs.1, a.qs.2.1, a.qs.2.2⟩ hcd
  cases op with
  | predictTime t =>
    show OptRel False _ (f.predictTime P t) (g.predictTime P t)
    rcases eq_or_lt_of_le (show s ≤ t from hop) with rfl | hlt
    · obtain ⟨c, h1, h2⟩ := a.went
      rw [h.ask_step a.offF hc s a.lt, h1, predictTime_past s a.time.ge]
      exact h.rf (a.offF.went _ _) a.offG ⟨a.qs.1, a.qs.2.1, a.qs.2.2⟩ h2
    · rw [h.ask_step a.offF hc t (a.lt.trans hlt), h.ask_step a.offG hgc t (by rw [a.time]; exact hlt)]
      exact OptRel.map (key t hlt) fun c d hcd => fin _ _ c d hcd
  | correct z Rz t m =>
    show OptRel False _ (f.correct P z Rz t m) (g.correct P z Rz t m)
    have ht : f.state.timestamp < t := lt_of_lt_of_le a.lt hop
    have hio : InputOk P U R Z (measurementInput z Rz t m) := by
      obtain ⟨_, _, _, _, k, hk, hz⟩ := hZ
      exact ⟨k, hk, hz⟩
    rw [h.correct_step a.offF z Rz t m ht.le, h.correct_step a.offG z Rz t m (by rw [a.time]; exact hop)]
    refine OptRel.map ?_ fun c d hcd => fin _ _ c d hcd
    rw [Core.apply_meas_ahead f.core (measurementInput z Rz t m) rfl (h.quiet _ hc.2.2.2.2.1) ht]
    rcases eq_or_lt_of_le (show s ≤ t from hop) with rfl | hlt
    · obtain ⟨c, h1, h2⟩ := a.went
      rw [Core.apply_meas_now g.core (measurementInput z Rz s m) rfl a.time]
      have e : f.core.goOn P (measurementInput z Rz s m : FilterInput T V M K).timestamp = some c := h1
      rw [e, Option.bind_some, Core.meas_elapsed h.elapsed c _ _
        (TimeOps.sub (measurementInput z Rz s m : FilterInput T V M K).timestamp g.core.ts)]
      exact h.sim.meas c g.core _ _ h2 hio
    · rw [Core.apply_meas_ahead g.core (measurementInput z Rz t m) rfl (h.quiet _ hgc.2.2.2.2.1) (by show g.state.timestamp < t; rw [a.time]; exact hlt)]
      refine OptRel.bind (key t hlt) fun c d hcd => ?_
      rw [Core.meas_elapsed h.elapsed c _ _
        (TimeOps.sub (measurementInput z Rz t m : FilterInput T V M K).timestamp g.core.ts)]
      exact h.sim.meas c d _ _ hcd hio
  | _ => exact absurd hop not_false

/-- Questions in between. -/
theorem AskOk.run (h : AskOk P RE U R Z) (sort : List (FilterInput T V M K) → List (FilterInput T V M K))
    (hs : ∀ l, (sort l).Perm l) {ops ops' : List (Op T V M K E)} (hA : Asked ops ops')
    (hZ : ∀ op ∈ ops, op.StaysOff ∧ OpSame P False (fun _ _ => True) RE U Z op op) :
    ∀ f g : Filter T V M K E,
      (f.Off → g.Off → h.sim.sim.RF f g → OptRel False h.sim.sim.RF (f.run P sort ops) (g.run P sort ops')) ∧
      (∀ s, Ahead h s f g → (∃ op rest, ops = op :: rest ∧ op.GoesOnTo s) →
        OptRel False h.sim.sim.RF (f.run P sort ops) (g.run P sort ops')) := by
  induction hA with
  | nil =>
    intro f g
    refine ⟨fun _ _ hr => hr, fun s _ ⟨op, rest, h1, _⟩ => by cases h1⟩
  | call op _ ih =>
    rename_i ops ops' _
    intro f g
    have ih := ih fun o ho => hZ o (by simp [ho])
    obtain ⟨hoff, hsame⟩ := hZ op (by simp)
    have fin : f.Off → g.Off → OptRel False h.sim.sim.RF (f.step P sort op) (g.step P sort op) →
        OptRel False h.sim.sim.RF (f.run P sort (op :: ops)) (g.run P sort (op :: ops')) := by
      intro hf hg hst
      unfold Filter.run
      cases hfs : f.step P sort op <;> cases hgs : g.step P sort op <;> rw [hfs, hgs] at hst
      · exact not_false
      · exact absurd hst not_false
      · exact absurd hst not_false
      · exact (ih _ _).1 (hf.step hoff hfs) (hg.step hoff hgs) hst
    refine ⟨fun hf hg hr => fin hf hg (hr.step (h.sim.hsort sort hs) (h.sim.rop hsame)), fun s a ⟨o, rest, h1, h2⟩ => ?_⟩
    cases h1
    exact fin a.offF a.offG (h.next a h2 hsame sort)
  | ask t hop _ ih =>
    rename_i op ops ops' _
    intro f g
    have ih := ih hZ
    have hrun : ∀ g', g.step P sort (.predictTime t) = some g' → g.run P sort (.predictTime t :: ops') = g'.run P sort ops' := by
      intro g' e
      rw [Filter.run, e]
    have hnone : g.step P sort (.predictTime t) = none → g.run P sort (.predictTime t :: ops') = none := by
      intro e
      rw [Filter.run, e]
    have hfnone : f.step P sort op = none → f.run P sort (op :: ops) = none := by
      intro e
      rw [Filter.run, e]
    refine ⟨fun hf hg hr => ?_, fun s a hne => ?_⟩
    · have hcc := h.rf_core hr
      have hts : f.state.timestamp = g.state.timestamp := hcc.1
      rcases le_or_gt t g.state.timestamp with hle | hlt
      · rw [hrun g (predictTime_past t hle)]
        exact (ih f g).1 hf hg hr
      · have hF := h.core_left hcc
        have hG := h.core_right hcc
        have e1 := h.ask_step hg hG t hlt
        have e2 := h.goOn_like f.core g.core hcc t hF.2.2.2.2.1 hG.2.2.2.2.1
        rcases OptRel.elim e2 with ⟨k1, k2, _⟩ | ⟨c, d, k1, k2, k3⟩
        · rw [k2] at e1
          rw [hnone e1, hfnone (h.next_none hf hF (by rw [hts]; exact hlt) k1 hop sort)]
          exact not_false
        · rw [k2] at e1
          rw [hrun _ e1]
          refine (ih f _).2 t ⟨by rw [hts]; exact hlt, hf, hg.went _ _, ⟨hr.params, hr.cq, hr.mq⟩, hF, c, k1, k3⟩ ⟨op, ops, rfl, hop⟩
    · rcases le_or_gt t g.state.timestamp with hle | hlt
      · rw [hrun g (predictTime_past t hle)]
        exact (ih f g).2 s a hne
      · rw [a.time] at hlt
        obtain ⟨c, h1, h2⟩ := a.went
        have hG := h.core_right h2
        have e1 := h.ask_step a.offG hG t (by rw [a.time]; exact hlt)
        have e2 := h.goOn_like c g.core h2 t (h.core_left h2).2.2.2.2.1 hG.2.2.2.2.1
        have e3 := h.goOn_split f.core a.okF s t a.lt hlt
        rw [h1, Option.bind_some] at e3
        rcases OptRel.elim e2 with ⟨k1, k2, _⟩ | ⟨c', d, k1, k2, k3⟩
        · rw [k2] at e1
          rw [k1] at e3
          rcases OptRel.elim e3 with ⟨_, j2, _⟩ | ⟨_, _, j1, _⟩
          · rw [hnone e1, hfnone (h.next_none a.offF a.okF (a.lt.trans hlt) j2 hop sort)]
            exact not_false
          · cases j1
        · rw [k2] at e1
          rw [k1] at e3
          rcases OptRel.elim e3 with ⟨j1, _, _⟩ | ⟨x, y, j1, j2, j3⟩
          · cases j1
          · obtain rfl := Option.some.inj j1
            rw [hrun _ e1]
            exact (ih f _).2 t ⟨a.lt.trans hlt, a.offF, a.offG.went _ _, a.qs, a.okF, y, j2, h.core_trans (h.core_symm j3) k3⟩
              ⟨op, ops, rfl, hop⟩

/-! ### Questions, in any mode -/

theorem predictTime_core (hv : P.vsize P.emptyV = 0) (f : Filter T V M K E) (t : T) (hq : P.sysCheck f.env = false)
    (ht : f.state.timestamp < t) : (f.predictTime P t).map Filter.core = f.core.goOn P t := by
  rw [predictTime_future P f t ht, applyInput_eq]
  have e : Core.apply P f.core ⟨P.emptyV, P.rc f.env, t, true, none⟩ = f.core.goOn P t := Core.ask_goOn hv f.core t hq
  rw [e]
  cases f.core.goOn P t with
  | none => rfl
  | some c =>
    rw [Option.map_some, Option.map_some, Option.map_some]
    exact congrArg some (pruned_core _)

theorem predictControl_core (f : Filter T V M K E) (u : V) (t : T) (ht : f.state.timestamp ≤ t) :
    (f.predictControl P u t).map Filter.core = f.core.apply P ⟨u, P.rc f.env, t, true, none⟩ := by
  rw [predictControl_inorder P f u t ht, applyInput_eq]
  have e : Core.apply P f.core (controlInput P f u t) = f.core.apply P ⟨u, P.rc f.env, t, true, none⟩ := rfl
  rw [e]
  cases f.core.apply P ⟨u, P.rc f.env, t, true, none⟩ with
  | none => rfl
  | some c =>
    rw [Option.map_some, Option.map_some, Option.map_some]
    exact congrArg some (pruned_core _)

end StateEstimation
