import Verif.Lemmas.Core
import Verif.Lemmas.Loops
import Verif.Spec.Clock

/-!
# Running the same filter on two clocks

`TimeEmb` relates a clock `T` with an ideal clock `T'` (`φ` maps time stamps, `ψ` durations): comparisons agree, and on a set `D` of time stamps differences agree
and `t + (s - t) = s`.  A filter on `T` whose time stamps lie in `D` then behaves exactly like the filter on `T'`.
-/

namespace StateEstimation

/-- a clock that computes exactly on the time stamps in `D` -/
structure TimeEmb (T T' : Type) [TimeOps T] [TimeOps T'] where
  φ : T → T'
  ψ : T → T'
  D : T → Prop
  lt_eq : ∀ a b, TimeOps.lt (φ a) (φ b) = TimeOps.lt a b
  le_eq : ∀ a b, TimeOps.le (φ a) (φ b) = TimeOps.le a b
  pos_eq : ∀ d, TimeOps.lt TimeOps.zero (ψ d) = TimeOps.lt TimeOps.zero d
  nonneg_eq : ∀ d, TimeOps.le TimeOps.zero (ψ d) = TimeOps.le TimeOps.zero d
  sub_eq : ∀ a b, D a → D b → ψ (TimeOps.sub a b) = TimeOps.sub (φ a) (φ b)
  back_eq : ∀ a w, D a → D w → φ (TimeOps.sub a w) = TimeOps.sub (φ a) (ψ w)
  add_eq : ∀ a b, D a → D b → TimeOps.add b (TimeOps.sub a b) = a
  add_eq' : ∀ a b, TimeOps.add (φ b) (TimeOps.sub (φ a) (φ b)) = φ a

variable {T T' V M K E : Type}

/-- the time stamps a call mentions -/
def Op.Times (D : T → Prop) : Op T V M K E → Prop
  | .init _ _ t | .predictTime t | .predictControl _ t | .correct _ _ t _ | .enqueueControl _ t
  | .enqueueMeasurement _ _ t _ | .revertToState t => D t
  | .setParams p => D p.historyWindow
  | _ => True

/-- all time stamps held by a filter -/
structure Filter.Times (D : T → Prop) (f : Filter T V M K E) : Prop where
  window : D f.params.historyWindow
  state : D f.state.timestamp
  prev : D f.state.prevInput.timestamp
  history : ∀ s ∈ f.history, D s.timestamp ∧ D s.prevInput.timestamp
  queued : ∀ i ∈ f.controlQueue ++ f.measQueue, D i.timestamp

variable [TimeOps T] [TimeOps T'] (e : TimeEmb T T')

/-- the same core on another clock -/
def Core.mapTime (φ : T → T') (c : Core T V M E) : Core T' V M E := ⟨c.x, c.cov, φ c.ts, c.pc, c.pcc, c.env⟩

namespace TimeEmb

variable (P : Plant T' V M K E)

theorem control (c : Core T V M E) (i : FilterInput T V M K) (hc : e.D c.ts) (hi : e.D i.timestamp) :
    Core.control P (c.mapTime e.φ) (i.mapTime e.φ) =
      (Core.control (P.onClock e.ψ) c i).map (·.mapTime e.φ) := by
  have key : ∀ (b : Bool) (sel : V × M × V × M) (d : T'), d = e.ψ (TimeOps.sub i.timestamp c.ts) →
      (if (!b) = true then
        match P.setRc c.env sel.2.1 with
        | none => none
        | some env =>
          match P.myPredict env c.x c.cov sel.1 d with
          | none => none
          | some (x, cv, env) => some (⟨x, cv, e.φ c.ts, sel.2.2.1, sel.2.2.2, env⟩ : Core T' V M E)
      else
        match P.sysProcess c.env c.x i.data with
        | none => none
        | some env =>
          match P.sysMake env c.x c.cov with
          | none => none
          | some (x, cv) => some ⟨x, cv, e.φ c.ts, sel.2.2.1, sel.2.2.2, env⟩) =
      Option.map (fun c : Core T V M E => ⟨c.x, c.cov, e.φ c.ts, c.pc, c.pcc, c.env⟩)
      (if (!b) = true then
        match P.setRc c.env sel.2.1 with
        | none => none
        | some env =>
          match P.myPredict env c.x c.cov sel.1 (e.ψ (TimeOps.sub i.timestamp c.ts)) with
          | none => none
          | some (x, cv, env) => some (⟨x, cv, c.ts, sel.2.2.1, sel.2.2.2, env⟩ : Core T V M E)
      else
        match P.sysProcess c.env c.x i.data with
        | none => none
        | some env =>
          match P.sysMake env c.x c.cov with
          | none => none
          | some (x, cv) => some ⟨x, cv, c.ts, sel.2.2.1, sel.2.2.2, env⟩) := by
    rintro b sel d rfl
    cases b
    · simp only [Bool.not_false, if_true]
      cases P.setRc c.env sel.2.1 with
      | none => rfl
      | some env =>
        dsimp only
        cases P.myPredict env c.x c.cov sel.1 (e.ψ (TimeOps.sub i.timestamp c.ts)) <;> rfl
    · simp only [Bool.not_true, Bool.false_eq_true, if_false]
      cases P.sysProcess c.env c.x i.data with
      | none => rfl
      | some env =>
        dsimp only
        cases P.sysMake env c.x c.cov <;> rfl
  exact key (P.sysCheck c.env && P.sysIsStationary c.env c.x i.data)
    (if P.vsize i.data > 0 then (i.data, i.covariance, i.data, i.covariance)
      else if P.vsize c.pc > 0 then (c.pc, c.pcc, c.pc, c.pcc)
      else (P.zeroV (P.controlSize c.env), P.rc c.env, c.pc, c.pcc)) _ (e.sub_eq _ _ hi hc).symm

theorem meas (c : Core T V M E) (i : FilterInput T V M K) (dt : T) :
    Core.meas P (c.mapTime e.φ) (i.mapTime e.φ) (e.ψ dt) =
      (Core.meas (P.onClock e.ψ) c i dt).map (·.mapTime e.φ) := by
  have key : ∀ (b : Bool) (env : E) (m : K),
      (if (!b) = true then
        match P.myCorrect env c.x c.cov i.data m (e.ψ dt) with
        | none => none
        | some (x, cv, env) => some (⟨x, cv, e.φ c.ts, c.pc, c.pcc, env⟩ : Core T' V M E)
      else
        match P.measProcess env m c.x i.data with
        | none => none
        | some env =>
          match P.measMake env m c.x c.cov with
          | none => none
          | some (x, cv) => some ⟨x, cv, e.φ c.ts, c.pc, c.pcc, env⟩) =
      Option.map (fun c : Core T V M E => ⟨c.x, c.cov, e.φ c.ts, c.pc, c.pcc, c.env⟩)
      (if (!b) = true then
        match P.myCorrect env c.x c.cov i.data m (e.ψ dt) with
        | none => none
        | some (x, cv, env) => some (⟨x, cv, c.ts, c.pc, c.pcc, env⟩ : Core T V M E)
      else
        match P.measProcess env m c.x i.data with
        | none => none
        | some env =>
          match P.measMake env m c.x c.cov with
          | none => none
          | some (x, cv) => some ⟨x, cv, c.ts, c.pc, c.pcc, env⟩) := by
    intro b env m
    cases b
    · simp only [Bool.not_false, if_true]
      cases P.myCorrect env c.x c.cov i.data m (e.ψ dt) <;> rfl
    · simp only [Bool.not_true, Bool.false_eq_true, if_false]
      cases P.measProcess env m c.x i.data with
      | none => rfl
      | some env =>
        dsimp only
        cases P.measMake env m c.x c.cov <;> rfl
  obtain ⟨data, cov, ts, isC, model⟩ := i
  cases model with
  | none => rfl
  | some m =>
    show (match P.setMeasCov c.env m cov with | none => none | some env => _) =
      Option.map _ (match P.setMeasCov c.env m cov with | none => none | some env => _)
    cases P.setMeasCov c.env m cov with
    | none => rfl
    | some env => exact key _ env m

/-- the control step keeps the time -/
theorem control_time (P : Plant T V M K E) (c d : Core T V M E) (i : FilterInput T V M K)
    (h : Core.control P c i = some d) : d.ts = c.ts := by
  unfold Core.control at h
  dsimp only at h
  split at h
  · cases h1 : P.setRc c.env _ with
    | none => rw [h1] at h; simp at h
    | some env =>
      rw [h1] at h
      dsimp only at h
      split at h
      · simp at h
      · simp only [Option.some.injEq] at h; rw [← h]
  · split at h
    · simp at h
    · split at h
      · simp at h
      · simp only [Option.some.injEq] at h; rw [← h]

/-- the measurement step keeps the time -/
theorem meas_time (P : Plant T V M K E) (c d : Core T V M E) (i : FilterInput T V M K) (dt : T)
    (h : Core.meas P c i dt = some d) : d.ts = c.ts := by
  unfold Core.meas at h
  split at h
  · simp at h
  · split at h
    · simp at h
    · split at h
      · split at h
        · simp at h
        · simp only [Option.some.injEq] at h; rw [← h]
      · split at h
        · simp at h
        · split at h
          · simp at h
          · simp only [Option.some.injEq] at h; rw [← h]

theorem apply (c : Core T V M E) (i : FilterInput T V M K) (hc : e.D c.ts) (hi : e.D i.timestamp) :
    Core.apply P (c.mapTime e.φ) (i.mapTime e.φ) =
      (Core.apply (P.onClock e.ψ) c i).map (·.mapTime e.φ) ∧
    ∀ d, Core.apply (P.onClock e.ψ) c i = some d → e.D d.ts := by
  have tick : ∀ (j : FilterInput T V M K), e.D j.timestamp → j.timestamp = i.timestamp →
      (Core.control P (c.mapTime e.φ) (j.mapTime e.φ)).map
          (·.tick (TimeOps.sub (e.φ i.timestamp) (e.φ c.ts))) =
        ((Core.control (P.onClock e.ψ) c j).map (·.tick (TimeOps.sub i.timestamp c.ts))).map (·.mapTime e.φ) ∧
      ∀ d, (Core.control (P.onClock e.ψ) c j).map (·.tick (TimeOps.sub i.timestamp c.ts)) = some d → e.D d.ts := by
    intro j hj hji
    rw [e.control P c j hc hj]
    cases h : Core.control (P.onClock e.ψ) c j with
    | none => simp
    | some d =>
      have ht := control_time _ _ _ _ h
      simp only [Option.map_some, Option.some.injEq]
      unfold Core.tick Core.mapTime
      dsimp only
      rw [ht]
      constructor
      · rw [e.add_eq i.timestamp c.ts hi hc, e.add_eq']
      · rintro d rfl
        dsimp only
        rw [e.add_eq i.timestamp c.ts hi hc]
        exact hi
  unfold Core.apply
  dsimp only
  show (if i.isControl = true then _ else if _ then _ else _) = _ ∧ _
  by_cases h1 : i.isControl = true
  · rw [if_pos h1, if_pos h1]
    exact tick i hi rfl
  · rw [if_neg h1, if_neg h1]
    have hlt : TimeOps.lt TimeOps.zero (TimeOps.sub (e.φ i.timestamp) (e.φ c.ts))
        = TimeOps.lt TimeOps.zero (TimeOps.sub i.timestamp c.ts) := by
      rw [← e.sub_eq _ _ hi hc, e.pos_eq]
    have hdt : TimeOps.sub (e.φ i.timestamp) (e.φ c.ts) = e.ψ (TimeOps.sub i.timestamp c.ts) :=
      (e.sub_eq _ _ hi hc).symm
    by_cases h2 : TimeOps.lt TimeOps.zero (TimeOps.sub i.timestamp c.ts) = true
    · rw [if_pos h2, if_pos (by rw [← h2]; exact hlt)]
      obtain ⟨t1, t2⟩ := tick (c.advInput i.timestamp) hi rfl
      have hadv : (c.mapTime e.φ).advInput (K := K) (e.φ i.timestamp) = (c.advInput i.timestamp).mapTime e.φ := rfl
      constructor
      · show (Option.map _ (Core.control P (c.mapTime e.φ)
          ((c.mapTime e.φ).advInput (e.φ i.timestamp)))).bind _ = _
        rw [hadv]
        have : ∀ o : Option (Core T V M E),
            (o.map (·.mapTime e.φ)).bind (fun c' => Core.meas P c' (i.mapTime e.φ)
              (TimeOps.sub (e.φ i.timestamp) (e.φ c.ts))) =
            (o.bind fun c' => Core.meas (P.onClock e.ψ) c' i (TimeOps.sub i.timestamp c.ts)).map (·.mapTime e.φ) := by
          intro o
          cases o with
          | none => rfl
          | some d =>
            simp only [Option.map_some, Option.bind_some]
            rw [hdt]
            exact e.meas P d i _
        exact (congrArg (fun o => Option.bind o _) t1).trans (this _)
      · intro d hd
        cases h3 : (Core.control (P.onClock e.ψ) c (c.advInput i.timestamp)).map
            (·.tick (TimeOps.sub i.timestamp c.ts)) with
        | none => rw [h3] at hd; simp at hd
        | some d' =>
          rw [h3, Option.bind_some] at hd
          rw [meas_time _ _ _ _ _ hd]
          exact t2 _ h3
    · rw [if_neg h2, if_neg (by rw [Bool.not_eq_true] at h2 ⊢; rw [← h2]; exact hlt)]
      constructor
      · show Core.meas P (c.mapTime e.φ) (i.mapTime e.φ) (TimeOps.sub (e.φ i.timestamp) (e.φ c.ts)) = _
        rw [hdt]
        exact e.meas P c i _
      · intro d hd
        rw [meas_time _ _ _ _ _ hd]
        exact hc

/-- a call on both clocks gives the same, with all time stamps in `D` -/
def Same (a : Option (Filter T V M K E)) (b : Option (Filter T' V M K E)) : Prop :=
  b = a.map (·.mapTime e.φ e.ψ) ∧ ∀ g, a = some g → g.Times e.D

theorem Same.bind {a : Option (Filter T V M K E)} {b : Option (Filter T' V M K E)} (h : e.Same a b)
    {F : Filter T V M K E → Option (Filter T V M K E)} {G : Filter T' V M K E → Option (Filter T' V M K E)}
    (hFG : ∀ f, f.Times e.D → e.Same (F f) (G (f.mapTime e.φ e.ψ))) : e.Same (a.bind F) (b.bind G) := by
  obtain ⟨h1, h2⟩ := h
  cases a with
  | none => subst h1; exact ⟨rfl, fun g h => by simp at h⟩
  | some f => subst h1; exact hFG f (h2 f rfl)

theorem Same.pure {f : Filter T V M K E} (h : f.Times e.D) : e.Same (some f) (some (f.mapTime e.φ e.ψ)) :=
  ⟨rfl, fun g hg => by simp only [Option.some.injEq] at hg; exact hg ▸ h⟩

theorem applyInput (f : Filter T V M K E) (i : FilterInput T V M K) (hf : f.Times e.D) (hi : e.D i.timestamp) :
    e.Same (Filter.applyInput (P.onClock e.ψ) f i) (Filter.applyInput P (f.mapTime e.φ e.ψ) (i.mapTime e.φ)) := by
  obtain ⟨h1, h2⟩ := e.apply P f.core i hf.state hi
  unfold Same
  rw [Filter.applyInput_eq, Filter.applyInput_eq]
  have hc : (f.mapTime e.φ e.ψ).core = f.core.mapTime e.φ := rfl
  rw [hc, h1]
  have hp : (f.mapTime e.φ e.ψ).pushed = f.pushed.map (·.mapTime e.φ) := by
    unfold Filter.pushed
    show (if f.params.rewindHistory = true then _ else _) = _
    split
    · simp only [List.map_append, List.map_cons, List.map_nil]; rfl
    · rfl
  cases h : Core.apply (P.onClock e.ψ) f.core i with
  | none => exact ⟨rfl, fun g hg => by simp at hg⟩
  | some c =>
    simp only [Option.map_some, Option.some.injEq]
    constructor
    · rw [hp]; rfl
    · rintro g rfl
      refine ⟨hf.window, h2 c h, hi, ?_, hf.queued⟩
      intro s hs
      simp only at hs
      unfold Filter.pushed at hs
      split at hs
      · rcases List.mem_append.mp hs with hs | hs
        · exact hf.history s hs
        · rw [List.mem_singleton.mp hs]; exact ⟨hf.state, hf.prev⟩
      · exact hf.history s hs

theorem applyAll (is : List (FilterInput T V M K)) (f : Filter T V M K E) (hf : f.Times e.D)
    (hi : ∀ i ∈ is, e.D i.timestamp) :
    e.Same (Filter.applyAll (P.onClock e.ψ) f is) (Filter.applyAll P (f.mapTime e.φ e.ψ) (is.map (·.mapTime e.φ))) := by
  induction is generalizing f with
  | nil => exact Same.pure e hf
  | cons i is ih =>
    have h1 : ∀ {T : Type} [TimeOps T] (P : Plant T V M K E) f i is, Filter.applyAll P f (i :: is) =
        (Filter.applyInput P f i).bind fun g => Filter.applyAll P g is := by
      intro T _ P f i is
      rw [Filter.applyAll]; cases Filter.applyInput P f i <;> rfl
    rw [List.map_cons, h1, h1]
    exact Same.bind e (e.applyInput P f i hf (hi i (by simp)))
      fun g hg => ih g hg fun j hj => hi j (by simp [hj])

theorem map_rdropWhile {α β : Type} (g : α → β) (p : α → Bool) (q : β → Bool) (h : ∀ a, q (g a) = p a) (l : List α) :
    (l.map g).rdropWhile q = (l.rdropWhile p).map g := by
  induction l using List.reverseRecOn with
  | nil => simp
  | append_singleton l a ih =>
    rw [List.map_append, List.map_singleton, List.rdropWhile_concat, List.rdropWhile_concat, h]
    split
    · exact ih
    · simp

theorem pruned (f : Filter T V M K E) (hf : f.Times e.D) :
    (f.mapTime e.φ e.ψ).pruned = f.pruned.mapTime e.φ e.ψ ∧ f.pruned.Times e.D := by
  unfold Filter.pruned
  show (if f.params.rewindHistory = true then _ else _) = _ ∧ _
  split
  · constructor
    · have hh := map_rdropWhile (fun s : FilterState T V M K => s.mapTime e.φ)
        (fun s => TimeOps.lt s.timestamp (TimeOps.sub f.state.timestamp f.params.historyWindow))
        (fun s => TimeOps.lt s.timestamp (TimeOps.sub (e.φ f.state.timestamp) (e.ψ f.params.historyWindow)))
        (fun s => by
          rw [← e.back_eq _ _ hf.state hf.window]
          exact e.lt_eq _ _) f.history
      show ({ f.mapTime e.φ e.ψ with history := List.rdropWhile _ (f.history.map _) } : Filter T' V M K E) = _
      exact congrArg (fun h => ({ f.mapTime e.φ e.ψ with history := h } : Filter T' V M K E)) hh
    · exact ⟨hf.window, hf.state, hf.prev,
        fun s hs => hf.history s ((List.rdropWhile_prefix _ _).subset hs), hf.queued⟩
  · exact ⟨rfl, hf⟩

theorem pruneHistory (f : Filter T V M K E) (hf : f.Times e.D) :
    e.Same f.pruneHistory (f.mapTime e.φ e.ψ).pruneHistory := by
  rw [Filter.pruneHistory_pruned, Filter.pruneHistory_pruned]
  obtain ⟨h1, h2⟩ := e.pruned f hf
  rw [h1]
  exact Same.pure e h2

theorem applyBatch (is : List (FilterInput T V M K)) (f : Filter T V M K E) (hf : f.Times e.D)
    (hi : ∀ i ∈ is, e.D i.timestamp) :
    e.Same (Filter.applyBatchInputs (P.onClock e.ψ) f is)
      (Filter.applyBatchInputs P (f.mapTime e.φ e.ψ) (is.map (·.mapTime e.φ))) := by
  have h1 : ∀ {T : Type} [TimeOps T] (P : Plant T V M K E) f is, Filter.applyBatchInputs P f is =
      (Filter.applyAll P f is).bind fun g => g.pruneHistory := by
    intro T _ P f is
    unfold Filter.applyBatchInputs
    cases Filter.applyAll P f is <;> rfl
  rw [h1, h1]
  exact Same.bind e (e.applyAll P is f hf hi) fun g hg => e.pruneHistory g hg

theorem gt (b : Bound T) (s : T) : Bound.gt (Option.map e.φ b) (e.φ s) = Bound.gt b s := by
  cases b with
  | none => exact e.le_eq _ _
  | some t => exact e.lt_eq _ _

theorem leTime (b : Bound T) (s : T) : Bound.leTime (Option.map e.φ b) (e.φ s) = Bound.leTime b s := by
  cases b with
  | none => rfl
  | some t => exact e.le_eq _ _

theorem rewindLoop (b : Bound T) (k : ℕ) (h acc : List (FilterState T V M K)) :
    Filter.rewindLoop (Option.map e.φ b) k (h.map (·.mapTime e.φ)) (acc.map (·.mapTime e.φ)) =
      (Filter.rewindLoop b k h acc).map fun r => (r.1.map (·.mapTime e.φ), r.2.map (·.mapTime e.φ)) := by
  induction k generalizing h acc with
  | zero => rfl
  | succ k ih =>
    unfold Filter.rewindLoop
    rw [List.getElem?_map]
    cases h1 : h[k]? with
    | none => rfl
    | some s =>
      simp only [Option.map_some]
      have : Bound.leTime (Option.map e.φ b) (s.mapTime e.φ).timestamp = Bound.leTime b s.timestamp := e.leTime b _
      rw [this]
      split
      · cases h with
        | nil => rfl
        | cons a t =>
          simp only [List.map_cons]
          have := ih (a :: t).dropLast (acc ++ [s])
          rw [List.map_dropLast, List.map_append] at this
          simpa using this
      · exact ih _ _

theorem rewindLoop_sub (b : Bound T) (k : ℕ) (h acc : List (FilterState T V M K)) (r)
    (hr : Filter.rewindLoop b k h acc = some r) : (∀ s ∈ r.1, s ∈ h) ∧ ∀ s ∈ r.2, s ∈ h ∨ s ∈ acc := by
  induction k generalizing h acc with
  | zero =>
    simp only [Filter.rewindLoop, Option.some.injEq] at hr
    subst hr
    exact ⟨fun s hs => hs, fun s hs => Or.inr hs⟩
  | succ k ih =>
    unfold Filter.rewindLoop at hr
    cases h1 : h[k]? with
    | none => rw [h1] at hr; simp at hr
    | some s =>
      rw [h1] at hr
      dsimp only at hr
      split at hr
      · cases h with
        | nil => simp at hr
        | cons a t =>
          dsimp only at hr
          obtain ⟨h2, h3⟩ := ih _ _ hr
          refine ⟨fun x hx => List.dropLast_subset _ (h2 x hx), fun x hx => ?_⟩
          rcases h3 x hx with h4 | h4
          · exact Or.inl (List.dropLast_subset _ h4)
          · rcases List.mem_append.mp h4 with h5 | h5
            · exact Or.inr h5
            · rw [List.mem_singleton.mp h5]; exact Or.inl (List.mem_of_getElem? h1)
      · exact ih _ _ hr

theorem rewindHistory (f : Filter T V M K E) (b : Bound T) :
    (f.mapTime e.φ e.ψ).rewindHistory (Option.map e.φ b) =
      (f.rewindHistory b).map fun r => (r.1.mapTime e.φ e.ψ, r.2.1, r.2.2.map (·.mapTime e.φ)) := by
  unfold Filter.rewindHistory
  have h1 : Bound.gt (Option.map e.φ b) (f.mapTime e.φ e.ψ).state.timestamp = Bound.gt b f.state.timestamp := e.gt b _
  rw [h1]
  split
  · rfl
  · have h2 : (f.mapTime e.φ e.ψ).history = f.history.map (·.mapTime e.φ) := rfl
    rw [h2]
    cases h3 : f.history with
    | nil => simp
    | cons front rest =>
      simp only [List.map_cons]
      have h4 : Bound.gt (Option.map e.φ b) (front.mapTime e.φ).timestamp = Bound.gt b front.timestamp := e.gt b _
      rw [h4]
      split
      · have h5 := e.rewindLoop b (front :: rest).length (front :: rest) [f.state]
        have h6 : (FilterState.mapTime e.φ front :: List.map (fun x => FilterState.mapTime e.φ x) rest).length
            = (front :: rest).length := by simp
        rw [h6]
        simp only [List.map_cons, List.map_nil] at h5
        have h7 : (f.mapTime e.φ e.ψ).state = f.state.mapTime e.φ := rfl
        rw [h7, h5]
        cases Filter.rewindLoop b (front :: rest).length (front :: rest) [f.state] with
        | none => rfl
        | some r =>
          obtain ⟨h, acc⟩ := r
          simp only [Option.map_some]
          rw [List.getLast?_map]
          cases h.getLast? with
          | none => rfl
          | some s =>
            simp only [Option.map_some]
            rw [← List.map_dropLast, ← List.map_reverse]
            rfl
      · rfl

theorem rewindHistory_times (f : Filter T V M K E) (hf : f.Times e.D) (b : Bound T) (r)
    (hr : f.rewindHistory b = some r) : r.1.Times e.D ∧ ∀ s ∈ r.2.2, e.D s.timestamp ∧ e.D s.prevInput.timestamp := by
  unfold Filter.rewindHistory at hr
  split at hr
  · simp only [Option.some.injEq] at hr; subst hr; exact ⟨hf, by simp⟩
  · cases h3 : f.history with
    | nil => rw [h3] at hr; simp only [Option.some.injEq] at hr; subst hr; exact ⟨hf, by simp⟩
    | cons front rest =>
      rw [h3] at hr
      dsimp only at hr
      split at hr
      · split at hr
        · simp at hr
        · rename_i h acc hl
          obtain ⟨h4, h5⟩ := rewindLoop_sub _ _ _ _ _ hl
          rw [← h3] at h4 h5
          split at hr
          · simp at hr
          · rename_i s hs
            simp only [Option.some.injEq] at hr
            subst hr
            have hs' := hf.history s (h4 s (List.mem_of_getLast? hs))
            refine ⟨⟨hf.window, hs'.1, hs'.2, fun x hx => hf.history x (h4 x (List.dropLast_subset _ hx)),
              hf.queued⟩, ?_⟩
            intro x hx
            rcases h5 x (List.mem_reverse.mp hx) with h6 | h6
            · exact hf.history x h6
            · rw [List.mem_singleton.mp h6]; exact ⟨hf.state, hf.prev⟩
      · simp only [Option.some.injEq] at hr; subst hr; exact ⟨hf, by simp⟩

theorem insertInput (f : Filter T V M K E) (i : FilterInput T V M K) (hf : f.Times e.D) (hi : e.D i.timestamp) :
    e.Same (Filter.insertInput (P.onClock e.ψ) f i) (Filter.insertInput P (f.mapTime e.φ e.ψ) (i.mapTime e.φ)) := by
  unfold Filter.insertInput
  have h1 : TimeOps.lt (i.mapTime e.φ).timestamp (f.mapTime e.φ e.ψ).state.timestamp
      = TimeOps.lt i.timestamp f.state.timestamp := e.lt_eq _ _
  rw [h1]
  split
  · have h2 := e.rewindHistory f (some i.timestamp)
    have h3 : Option.map e.φ (some i.timestamp) = some (i.mapTime e.φ).timestamp := rfl
    rw [h3] at h2
    rw [h2]
    cases h4 : f.rewindHistory (some i.timestamp) with
    | none => exact ⟨rfl, fun g hg => by simp at hg⟩
    | some r =>
      obtain ⟨h5, h6⟩ := e.rewindHistory_times f hf _ _ h4
      obtain ⟨g, b, post⟩ := r
      cases b with
      | false => exact Same.pure e hf
      | true =>
        have h7 := e.applyBatch P (i :: post.map FilterState.prevInput) g h5 (by
          intro j hj
          rcases List.mem_cons.mp hj with rfl | hj
          · exact hi
          · obtain ⟨s, hs, rfl⟩ := List.mem_map.mp hj
            exact (h6 s hs).2)
        have h8 : (i :: post.map FilterState.prevInput).map (fun x => FilterInput.mapTime e.φ x) =
            i.mapTime e.φ :: (post.map fun x => FilterState.mapTime e.φ x).map FilterState.prevInput := by
          simp only [List.map_cons, List.map_map]; rfl
        rw [h8] at h7
        exact h7
  · exact e.applyBatch P [i] f hf (by simpa using hi)

theorem pruneQueue (f : Filter T V M K E) (q : List (FilterInput T V M K)) :
    (f.mapTime e.φ e.ψ).pruneQueue (q.map (·.mapTime e.φ)) = (f.pruneQueue q).map (·.mapTime e.φ) := by
  unfold Filter.pruneQueue
  have h2 : (f.mapTime e.φ e.ψ).history = f.history.map (·.mapTime e.φ) := rfl
  have h1 : (f.mapTime e.φ e.ψ).params.rewindHistory = f.params.rewindHistory := rfl
  rw [h1, h2]
  cases f.params.rewindHistory with
  | false => rfl
  | true =>
    cases f.history with
    | nil => rfl
    | cons front rest =>
      simp only [List.map_cons]
      rw [List.filter_map]
      congr 1
      apply List.filter_congr
      intro i _
      show (!TimeOps.lt (e.φ i.timestamp) (e.φ front.timestamp)) = _
      rw [e.lt_eq]

theorem min_eq (b : Bound T) (t : T) : Bound.min (Option.map e.φ b) (e.φ t) = Option.map e.φ (Bound.min b t) := by
  cases b with
  | none =>
    show (if TimeOps.le (e.φ t) (e.φ t) = true then _ else _) = Option.map e.φ (if TimeOps.le t t = true then _ else _)
    rw [e.le_eq]; split <;> rfl
  | some s =>
    show (if TimeOps.lt (e.φ t) (e.φ s) = true then _ else _) = Option.map e.φ (if TimeOps.lt t s = true then _ else _)
    rw [e.lt_eq]; split <;> rfl

theorem foldl_min (l : List (FilterInput T V M K)) (b : Bound T) :
    (l.map (·.mapTime e.φ)).foldl (fun b i => Bound.min b i.timestamp) (Option.map e.φ b) =
      Option.map e.φ (l.foldl (fun b i => Bound.min b i.timestamp) b) := by
  induction l generalizing b with
  | nil => rfl
  | cons i l ih =>
    simp only [List.map_cons, List.foldl_cons]
    have : Bound.min (Option.map e.φ b) (i.mapTime e.φ).timestamp = Option.map e.φ (Bound.min b i.timestamp) := e.min_eq b _
    rw [this, ih]

theorem oldestQueued (cq mq : List (FilterInput T V M K)) :
    Filter.oldestQueued (cq.map (·.mapTime e.φ)) (mq.map (·.mapTime e.φ)) =
      Option.map e.φ (Filter.oldestQueued cq mq) := by
  unfold Filter.oldestQueued
  have := e.foldl_min cq none
  rw [Option.map_none] at this
  rw [this, e.foldl_min]

/-- the part of `processQueues` after the queues have been pruned -/
def queueTail (P : Plant T V M K E) (sort : List (FilterInput T V M K) → List (FilterInput T V M K))
    (f : Filter T V M K E) (cq mq : List (FilterInput T V M K)) : Option (Filter T V M K E) :=
  (if f.params.rewindHistory = true then (f.rewindHistory (Filter.oldestQueued cq mq)).map fun r => (r.1, r.2.2)
    else some (f, [])).bind fun r =>
  (Filter.applyBatchInputs P r.1 (sort (r.2.map FilterState.prevInput ++ cq ++ mq))).map
    fun g => g.clearControlQueue.clearMeasurementQueue

theorem processQueues_tail (P : Plant T V M K E) (sort : List (FilterInput T V M K) → List (FilterInput T V M K))
    (f : Filter T V M K E) : f.processQueues P sort =
      queueTail P sort { f with controlQueue := f.pruneQueue f.controlQueue, measQueue := f.pruneQueue f.measQueue }
        (f.pruneQueue f.controlQueue) (f.pruneQueue f.measQueue) := by
  have key : ∀ (f2 : Filter T V M K E) cq mq,
      (match (if f2.params.rewindHistory = true then
          match f2.rewindHistory (Filter.oldestQueued cq mq) with
          | none => none
          | some (g, _, post) => some (g, post)
        else some (f2, [])) with
      | none => none
      | some (g, post) =>
        match Filter.applyBatchInputs P g (sort (post.map FilterState.prevInput ++ cq ++ mq)) with
        | none => none
        | some g => some g.clearControlQueue.clearMeasurementQueue) = queueTail P sort f2 cq mq := by
    intro f2 cq mq
    have last : ∀ g (post : List (FilterState T V M K)), (match Filter.applyBatchInputs P g (sort (post.map FilterState.prevInput ++ cq ++ mq)) with
        | none => none
        | some g => some g.clearControlQueue.clearMeasurementQueue) =
        (Filter.applyBatchInputs P g (sort (post.map FilterState.prevInput ++ cq ++ mq))).map
          fun g => g.clearControlQueue.clearMeasurementQueue := by
      intro g post
      cases Filter.applyBatchInputs P g (sort (post.map FilterState.prevInput ++ cq ++ mq)) <;> rfl
    unfold queueTail
    cases f2.params.rewindHistory with
    | false => exact last f2 []
    | true =>
      cases f2.rewindHistory (Filter.oldestQueued cq mq) with
      | none => rfl
      | some r => exact last r.1 r.2.2
  exact key _ _ _

theorem processQueues (sort : List (FilterInput T V M K) → List (FilterInput T V M K))
    (sort' : List (FilterInput T' V M K) → List (FilterInput T' V M K)) (hsort : IsTimeSort sort)
    (hs : ∀ l, (∀ i ∈ l, e.D i.timestamp) → sort' (l.map (·.mapTime e.φ)) = (sort l).map (·.mapTime e.φ))
    (f : Filter T V M K E) (hf : f.Times e.D) :
    e.Same (f.processQueues (P.onClock e.ψ) sort) ((f.mapTime e.φ e.ψ).processQueues P sort') := by
  have hsub : ∀ q : List (FilterInput T V M K), ∀ i ∈ f.pruneQueue q, i ∈ q := by
    intro q i hi
    unfold Filter.pruneQueue at hi
    split at hi
    · exact List.mem_of_mem_filter hi
    · exact hi
  rw [processQueues_tail, processQueues_tail]
  have q1 : (f.mapTime e.φ e.ψ).controlQueue = f.controlQueue.map (·.mapTime e.φ) := rfl
  have q2 : (f.mapTime e.φ e.ψ).measQueue = f.measQueue.map (·.mapTime e.φ) := rfl
  rw [q1, q2, e.pruneQueue, e.pruneQueue]
  generalize hcq : f.pruneQueue f.controlQueue = cq
  generalize hmq : f.pruneQueue f.measQueue = mq
  have hq : ∀ i ∈ cq ++ mq, e.D i.timestamp := by
    intro i hi
    rcases List.mem_append.mp hi with hi | hi
    · exact hf.queued i (List.mem_append_left _ (hsub _ i (hcq ▸ hi)))
    · exact hf.queued i (List.mem_append_right _ (hsub _ i (hmq ▸ hi)))
  have hf2 : Filter.Times e.D ({ f with controlQueue := cq, measQueue := mq } : Filter T V M K E) :=
    ⟨hf.window, hf.state, hf.prev, hf.history, hq⟩
  show e.Same _ (queueTail P sort'
    (({ f with controlQueue := cq, measQueue := mq } : Filter T V M K E).mapTime e.φ e.ψ) _ _)
  generalize ({ f with controlQueue := cq, measQueue := mq } : Filter T V M K E) = f2 at hf2 ⊢
  have last : ∀ (g : Filter T V M K E) (post : List (FilterState T V M K)), g.Times e.D →
      (∀ s ∈ post, e.D s.timestamp ∧ e.D s.prevInput.timestamp) →
      e.Same ((Filter.applyBatchInputs (P.onClock e.ψ) g (sort (post.map FilterState.prevInput ++ cq ++ mq))).map
        fun g => g.clearControlQueue.clearMeasurementQueue)
      ((Filter.applyBatchInputs P (g.mapTime e.φ e.ψ) (sort' ((post.map fun x => FilterState.mapTime e.φ x).map
          FilterState.prevInput ++ cq.map (·.mapTime e.φ) ++ mq.map (·.mapTime e.φ)))).map
        fun g => g.clearControlQueue.clearMeasurementQueue) := by
    intro g post hg hpost
    have hall : ∀ i ∈ post.map FilterState.prevInput ++ cq ++ mq, e.D i.timestamp := by
      intro i hi
      rw [List.append_assoc] at hi
      rcases List.mem_append.mp hi with hi | hi
      · obtain ⟨s, h1, rfl⟩ := List.mem_map.mp hi
        exact (hpost s h1).2
      · exact hq i hi
    have hl : (post.map fun x => FilterState.mapTime e.φ x).map FilterState.prevInput ++ cq.map (·.mapTime e.φ)
        ++ mq.map (·.mapTime e.φ) = (post.map FilterState.prevInput ++ cq ++ mq).map (·.mapTime e.φ) := by
      simp only [List.map_append, List.map_map]; rfl
    rw [hl, hs _ hall]
    obtain ⟨h2, h3⟩ := e.applyBatch P (sort (post.map FilterState.prevInput ++ cq ++ mq)) g hg
      (fun i hi => hall i ((hsort _).1.mem_iff.mp hi))
    rw [h2]
    cases h4 : Filter.applyBatchInputs (P.onClock e.ψ) g (sort (post.map FilterState.prevInput ++ cq ++ mq)) with
    | none => exact ⟨rfl, fun g hg => by simp at hg⟩
    | some g' =>
      have h5 := h3 g' h4
      refine Same.pure e (f := g'.clearControlQueue.clearMeasurementQueue) ?_
      exact ⟨h5.window, h5.state, h5.prev, h5.history, by
        intro i hi
        simp [Filter.clearControlQueue, Filter.clearMeasurementQueue] at hi⟩
  unfold queueTail
  rw [e.oldestQueued, e.rewindHistory]
  cases hr : f2.params.rewindHistory with
  | false =>
    have hr' : (f2.mapTime e.φ e.ψ).params.rewindHistory = false := hr
    rw [hr']
    exact last f2 [] hf2 (by simp)
  | true =>
    have hr' : (f2.mapTime e.φ e.ψ).params.rewindHistory = true := hr
    rw [hr']
    cases h3 : f2.rewindHistory (Filter.oldestQueued cq mq) with
    | none => exact ⟨rfl, fun g hg => by simp at hg⟩
    | some r =>
      obtain ⟨h4, h5⟩ := e.rewindHistory_times f2 hf2 _ _ h3
      exact last r.1 r.2.2 h4 h5

theorem predictTime_bind (P : Plant T V M K E) (f : Filter T V M K E) (t : T) :
    f.predictTime P t = if TimeOps.lt f.state.timestamp t = true then
      (Filter.applyInput P f ⟨P.emptyV, P.rc f.env, t, true, none⟩).bind fun g => g.pruneHistory else some f := by
  unfold Filter.predictTime
  split
  · cases Filter.applyInput P f ⟨P.emptyV, P.rc f.env, t, true, none⟩ <;> rfl
  · rfl

theorem predictControl_bind (P : Plant T V M K E) (f : Filter T V M K E) (u : V) (t : T) :
    f.predictControl P u t = if (!f.params.rewindHistory) = true then
      if TimeOps.le f.state.timestamp t = true then
        (Filter.applyInput P f ⟨u, P.rc f.env, t, true, none⟩).bind fun g => g.pruneHistory else some f
      else Filter.insertInput P f ⟨u, P.rc f.env, t, true, none⟩ := by
  unfold Filter.predictControl
  dsimp only
  split
  · split
    · cases Filter.applyInput P f ⟨u, P.rc f.env, t, true, none⟩ <;> rfl
    · rfl
  · rfl

theorem correct_bind (P : Plant T V M K E) (f : Filter T V M K E) (z : V) (c : M) (t : T) (m : Option K) :
    f.correct P z c t m = if (!f.params.rewindHistory) = true then
      if (f.params.allowPast || TimeOps.le TimeOps.zero (TimeOps.sub t f.state.timestamp)) = true then
        (Filter.applyInput P f ⟨z, c, t, false, m⟩).bind fun g => g.pruneHistory else some f
      else Filter.insertInput P f ⟨z, c, t, false, m⟩ := by
  unfold Filter.correct
  dsimp only
  split
  · split
    · cases Filter.applyInput P f ⟨z, c, t, false, m⟩ <;> rfl
    · rfl
  · rfl

theorem step (sort : List (FilterInput T V M K) → List (FilterInput T V M K))
    (sort' : List (FilterInput T' V M K) → List (FilterInput T' V M K)) (hsort : IsTimeSort sort)
    (hs : ∀ l, (∀ i ∈ l, e.D i.timestamp) → sort' (l.map (·.mapTime e.φ)) = (sort l).map (·.mapTime e.φ))
    (f : Filter T V M K E) (hf : f.Times e.D) (op : Op T V M K E) (hop : op.Times e.D) :
    e.Same (f.step (P.onClock e.ψ) sort op) ((f.mapTime e.φ e.ψ).step P sort' (op.mapTime e.φ e.ψ)) := by
  have hap : ∀ i : FilterInput T V M K, e.D i.timestamp →
      e.Same ((Filter.applyInput (P.onClock e.ψ) f i).bind fun g => g.pruneHistory)
        ((Filter.applyInput P (f.mapTime e.φ e.ψ) (i.mapTime e.φ)).bind fun g => g.pruneHistory) :=
    fun i hi => Same.bind e (e.applyInput P f i hf hi) fun g hg => e.pruneHistory g hg
  have hts : (f.mapTime e.φ e.ψ).state.timestamp = e.φ f.state.timestamp := rfl
  cases op with
  | init x c t =>
    exact Same.pure e (f := f.init x c t) ⟨hf.window, hop, hf.prev, by simp [Filter.init, Filter.clear],
      by simp [Filter.init, Filter.clear]⟩
  | predictTime t =>
    show e.Same (f.predictTime _ t) ((f.mapTime e.φ e.ψ).predictTime P (e.φ t))
    rw [predictTime_bind, predictTime_bind, hts, e.lt_eq]
    split
    · exact hap ⟨P.emptyV, P.rc f.env, t, true, none⟩ hop
    · exact Same.pure e hf
  | predictControl u t =>
    show e.Same (f.predictControl _ u t) ((f.mapTime e.φ e.ψ).predictControl P u (e.φ t))
    rw [predictControl_bind, predictControl_bind]
    have hr : (f.mapTime e.φ e.ψ).params.rewindHistory = f.params.rewindHistory := rfl
    rw [hr, hts, e.le_eq]
    split
    · split
      · exact hap ⟨u, P.rc f.env, t, true, none⟩ hop
      · exact Same.pure e hf
    · exact e.insertInput P f ⟨u, P.rc f.env, t, true, none⟩ hf hop
  | correct z c t m =>
    show e.Same (f.correct _ z c t m) ((f.mapTime e.φ e.ψ).correct P z c (e.φ t) m)
    rw [correct_bind, correct_bind]
    have hr : (f.mapTime e.φ e.ψ).params.rewindHistory = f.params.rewindHistory := rfl
    have ha : (f.mapTime e.φ e.ψ).params.allowPast = f.params.allowPast := rfl
    have hz : TimeOps.le TimeOps.zero (TimeOps.sub (e.φ t) (e.φ f.state.timestamp)) =
        TimeOps.le TimeOps.zero (TimeOps.sub t f.state.timestamp) := by
      rw [← e.sub_eq _ _ hop hf.state, e.nonneg_eq]
    rw [hr, ha, hts, hz]
    split
    · split
      · exact hap ⟨z, c, t, false, m⟩ hop
      · exact Same.pure e hf
    · exact e.insertInput P f ⟨z, c, t, false, m⟩ hf hop
  | enqueueControl u t =>
    have h := Same.pure e (f := f.enqueueControl (P.onClock e.ψ) u t) (by
      refine ⟨hf.window, hf.state, hf.prev, hf.history, ?_⟩
      intro i hi
      simp only [Filter.enqueueControl, List.append_assoc, List.mem_append, List.mem_singleton] at hi
      rcases hi with hi | rfl | hi
      · exact hf.queued i (List.mem_append_left _ hi)
      · exact hop
      · exact hf.queued i (List.mem_append_right _ hi))
    have hm : (f.enqueueControl (P.onClock e.ψ) u t).mapTime e.φ e.ψ = (f.mapTime e.φ e.ψ).enqueueControl P u (e.φ t) := by
      simp only [Filter.mapTime, Filter.enqueueControl, List.map_append, List.map_singleton]; rfl
    rw [hm] at h
    exact h
  | enqueueMeasurement z c t m =>
    have h := Same.pure e (f := f.enqueueMeasurement z c t m) (by
      refine ⟨hf.window, hf.state, hf.prev, hf.history, ?_⟩
      intro i hi
      simp only [Filter.enqueueMeasurement, List.mem_append, List.mem_singleton] at hi
      rcases hi with hi | hi | rfl
      · exact hf.queued i (List.mem_append_left _ hi)
      · exact hf.queued i (List.mem_append_right _ hi)
      · exact hop)
    have hm : (f.enqueueMeasurement z c t m).mapTime e.φ e.ψ = (f.mapTime e.φ e.ψ).enqueueMeasurement z c (e.φ t) m := by
      simp only [Filter.mapTime, Filter.enqueueMeasurement, List.map_append, List.map_singleton]; rfl
    rw [hm] at h
    exact h
  | processQueues => exact e.processQueues P sort sort' hsort hs f hf
  | clearControlQueue =>
    exact Same.pure e (f := f.clearControlQueue) ⟨hf.window, hf.state, hf.prev, hf.history, fun i hi =>
      hf.queued i (List.mem_append_right _ (by simpa [Filter.clearControlQueue] using hi))⟩
  | clearMeasurementQueue =>
    exact Same.pure e (f := f.clearMeasurementQueue) ⟨hf.window, hf.state, hf.prev, hf.history, fun i hi =>
      hf.queued i (List.mem_append_left _ (by simpa [Filter.clearMeasurementQueue] using hi))⟩
  | revertToState t =>
    show e.Same ((f.revertToState t).map Prod.fst) (((f.mapTime e.φ e.ψ).revertToState (e.φ t)).map Prod.fst)
    unfold Filter.revertToState
    have h2 := e.rewindHistory f (some t)
    rw [Option.map_some] at h2
    rw [h2]
    cases h4 : f.rewindHistory (some t) with
    | none => exact ⟨rfl, fun g hg => by simp at hg⟩
    | some r =>
      obtain ⟨h5, h6⟩ := e.rewindHistory_times f hf _ _ h4
      obtain ⟨g, b, post⟩ := r
      cases b with
      | false => exact Same.pure e h5
      | true =>
        exact Same.pure e (f := g.clearControlQueue.clearMeasurementQueue) ⟨h5.window, h5.state, h5.prev, h5.history, by
          intro i hi
          simp [Filter.clearControlQueue, Filter.clearMeasurementQueue] at hi⟩
  | setParams p =>
    exact Same.pure e (f := { f with params := p }) ⟨hop, hf.state, hf.prev, hf.history, hf.queued⟩
  | userModel g =>
    show e.Same ((g f.env).map fun x => { f with env := x }) ((g f.env).map fun x => { f.mapTime e.φ e.ψ with env := x })
    cases g f.env with
    | none => exact ⟨rfl, fun g hg => by simp at hg⟩
    | some x => exact Same.pure e (f := { f with env := x }) ⟨hf.window, hf.state, hf.prev, hf.history, hf.queued⟩

theorem run (sort : List (FilterInput T V M K) → List (FilterInput T V M K))
    (sort' : List (FilterInput T' V M K) → List (FilterInput T' V M K)) (hsort : IsTimeSort sort)
    (hs : ∀ l, (∀ i ∈ l, e.D i.timestamp) → sort' (l.map (·.mapTime e.φ)) = (sort l).map (·.mapTime e.φ))
    (ops : List (Op T V M K E)) (f : Filter T V M K E) (hf : f.Times e.D) (hop : ∀ op ∈ ops, op.Times e.D) :
    e.Same (f.run (P.onClock e.ψ) sort ops) ((f.mapTime e.φ e.ψ).run P sort' (ops.map (·.mapTime e.φ e.ψ))) := by
  induction ops generalizing f with
  | nil => exact Same.pure e hf
  | cons op ops ih =>
    have h1 : ∀ {T : Type} [TimeOps T] (P : Plant T V M K E) sort f op ops, Filter.run P sort f (op :: ops) =
        (Filter.step P sort f op).bind fun g => Filter.run P sort g ops := by
      intro T _ P sort f op ops
      rw [Filter.run]; cases Filter.step P sort f op <;> rfl
    rw [List.map_cons, h1, h1]
    exact Same.bind e (e.step P sort sort' hsort hs f hf op (hop op (by simp)))
      fun g hg => ih g hg fun op hop' => hop op (by simp [hop'])

end TimeEmb

end StateEstimation
