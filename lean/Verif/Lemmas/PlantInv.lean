import Verif.Lemmas.Sim

/-!
# State invariants over arbitrary API traces

If the model callbacks keep a predicate on the estimate, so does every sequence of API calls, for the current and
all retained states.  With `tot = True` the callbacks are required to succeed, and then so does every call.
-/

set_option linter.unusedSectionVars false

namespace StateEstimation

/-- The result, if there is one, satisfies `p`; failing is allowed only when `tot` is false. -/
def OptP (tot : Prop) {α : Type} (p : α → Prop) : Option α → Prop
  | none => ¬ tot
  | some a => p a

theorem OptP.toRel {tot : Prop} {α : Type} {p : α → Prop} {o : Option α} (h : OptP tot p o) :
    OptRel tot (fun a b => a = b ∧ p a) o o := by
  cases o with
  | none => exact h
  | some a => exact ⟨rfl, h⟩

theorem OptP.map {tot : Prop} {α β : Type} {p : α → Prop} {q : β → Prop} {o : Option α} {f : α → β} (h : OptP tot p o)
    (hpq : ∀ a, p a → q (f a)) : OptP tot q (o.map f) := by
  cases o with
  | none => exact h
  | some a => exact hpq a h

theorem OptP.bind {tot : Prop} {α β : Type} {p : α → Prop} {q : β → Prop} {o : Option α} {f : α → Option β}
    (h : OptP tot p o) (hpq : ∀ a, p a → OptP tot q (f a)) : OptP tot q (o.bind f) := by
  cases o with
  | none => exact h
  | some a => exact hpq a h

theorem OptP.imp {tot : Prop} {α : Type} {p q : α → Prop} {o : Option α} (h : OptP tot p o)
    (hpq : ∀ a, p a → q a) : OptP tot q o := by
  cases o with
  | none => exact h
  | some a => exact hpq a h

variable {T V M K E : Type} [TimeOps T]

/-- What the callbacks have to satisfy.  `S` is the invariant of state and covariance, `Ge` of the models, `U` the
admissible non-empty controls, `R` the admissible control covariances, `Z` the admissible measurements. -/
structure PlantInv (P : Plant T V M K E) (tot : Prop) (S : V → M → Prop) (Ge : E → Prop) (U : V → Prop)
    (R : M → Prop) (Z : V → M → K → Prop) : Prop where
  empty : P.vsize P.emptyV = 0
  rc : ∀ e, Ge e → R (P.rc e)
  zero : ∀ e, Ge e → U (P.zeroV (P.controlSize e))
  setRc : ∀ e c, Ge e → R c → OptP tot Ge (P.setRc e c)
  predict : ∀ e x c u dt, Ge e → S x c → U u →
    OptP tot (fun r => S r.1 r.2.1 ∧ Ge r.2.2) (P.myPredict e x c u dt)
  sysStationary : ∀ e x c d, Ge e → S x c → (P.vsize d > 0 → U d) →
    OptP tot (fun e' => Ge e' ∧ OptP tot (fun r => S r.1 r.2) (P.sysMake e' x c)) (P.sysProcess e x d)
  setMeasCov : ∀ e m z c, Ge e → Z z c m → OptP tot (fun e' => Ge e' ∧
    (∀ x p dt, S x p → OptP tot (fun r => S r.1 r.2.1 ∧ Ge r.2.2) (P.myCorrect e' x p z m dt)) ∧
    (∀ x p, S x p → OptP tot (fun e'' => Ge e'' ∧ OptP tot (fun r => S r.1 r.2) (P.measMake e'' m x p))
      (P.measProcess e' m x z))) (P.setMeasCov e m c)

variable {P : Plant T V M K E} {tot : Prop} {S : V → M → Prop} {Ge : E → Prop} {U : V → Prop}
  {R : M → Prop} {Z : V → M → K → Prop}

/-- admissible inputs -/
def InputOk (P : Plant T V M K E) (U : V → Prop) (R : M → Prop) (Z : V → M → K → Prop) (i : FilterInput T V M K) :
    Prop :=
  if i.isControl then (P.vsize i.data > 0 → U i.data ∧ R i.covariance)
  else ∃ m, i.model = some m ∧ Z i.data i.covariance m

/-- invariant of a core -/
def CoreOk (P : Plant T V M K E) (S : V → M → Prop) (Ge : E → Prop) (U : V → Prop) (R : M → Prop)
    (c : Core T V M E) : Prop :=
  S c.x c.cov ∧ Ge c.env ∧ (P.vsize c.pc > 0 → U c.pc ∧ R c.pcc)

theorem PlantInv.control (h : PlantInv P tot S Ge U R Z) (c : Core T V M E) (i : FilterInput T V M K)
    (hc : CoreOk P S Ge U R c) (hi : P.vsize i.data > 0 → U i.data ∧ R i.covariance) :
    OptP tot (CoreOk P S Ge U R) (c.control P i) := by
  obtain ⟨x, cov, ts, pc, pcc, e⟩ := c
  obtain ⟨h1, h2, h3⟩ := hc
  dsimp only at h1 h2 h3
  have hsel : ∃ u r a p, (if P.vsize i.data > 0 then (i.data, i.covariance, i.data, i.covariance)
        else if P.vsize pc > 0 then (pc, pcc, pc, pcc)
        else (P.zeroV (P.controlSize e), P.rc e, pc, pcc)) = (u, r, a, p) ∧ U u ∧ R r ∧
        (P.vsize a > 0 → U a ∧ R p) := by
    by_cases k1 : P.vsize i.data > 0
    · simp only [k1, if_true]
      exact ⟨_, _, _, _, rfl, (hi k1).1, (hi k1).2, fun _ => hi k1⟩
    · simp only [k1, if_false]
      by_cases k2 : P.vsize pc > 0
      · simp only [k2, if_true]
        exact ⟨_, _, _, _, rfl, (h3 k2).1, (h3 k2).2, fun _ => h3 k2⟩
      · simp only [k2, if_false]
        exact ⟨_, _, _, _, rfl, h.zero e h2, h.rc e h2, fun k => absurd k k2⟩
  obtain ⟨u, r, a, p, k1, k2, k3, k4⟩ := hsel
  unfold Core.control
  dsimp only
  rw [k1]
  dsimp only
  by_cases hst : (!(P.sysCheck e && P.sysIsStationary e x i.data)) = true
  · rw [if_pos hst]
    have q1 := h.setRc e r h2 k3
    cases hs : P.setRc e r with
    | none => rw [hs] at q1; exact q1
    | some e' =>
      rw [hs] at q1
      dsimp only
      have q2 := h.predict e' x cov u (TimeOps.sub i.timestamp ts) q1 h1 k2
      cases hp : P.myPredict e' x cov u (TimeOps.sub i.timestamp ts) with
      | none => rw [hp] at q2; exact q2
      | some w => rw [hp] at q2; exact ⟨q2.1, q2.2, k4⟩
  · rw [if_neg hst]
    have q1 := h.sysStationary e x cov i.data h2 h1 (fun k => (hi k).1)
    cases hs : P.sysProcess e x i.data with
    | none => rw [hs] at q1; exact q1
    | some e' =>
      rw [hs] at q1
      obtain ⟨q1, q2⟩ := q1
      dsimp only
      cases hp : P.sysMake e' x cov with
      | none => rw [hp] at q2; exact q2
      | some w => rw [hp] at q2; exact ⟨q2, q1, k4⟩

theorem PlantInv.meas (h : PlantInv P tot S Ge U R Z) (c : Core T V M E) (i : FilterInput T V M K) (dt : T)
    (hc : CoreOk P S Ge U R c) (hi : ∃ m, i.model = some m ∧ Z i.data i.covariance m) :
    OptP tot (CoreOk P S Ge U R) (c.meas P i dt) := by
  obtain ⟨x, cov, ts, pc, pcc, e⟩ := c
  obtain ⟨h1, h2, h3⟩ := hc
  dsimp only at h1 h2 h3
  obtain ⟨m, hm, hz⟩ := hi
  unfold Core.meas
  rw [hm]
  dsimp only
  have q1 := h.setMeasCov e m i.data i.covariance h2 hz
  cases hs : P.setMeasCov e m i.covariance with
  | none => rw [hs] at q1; exact q1
  | some e' =>
    rw [hs] at q1
    obtain ⟨q1, q2, q3⟩ := q1
    dsimp only
    split
    · have q2 := q2 x cov dt h1
      cases hp : P.myCorrect e' x cov i.data m dt with
      | none => rw [hp] at q2; exact q2
      | some w => rw [hp] at q2; exact ⟨q2.1, q2.2, h3⟩
    · have q3 := q3 x cov h1
      cases hp : P.measProcess e' m x i.data with
      | none => rw [hp] at q3; exact q3
      | some e'' =>
        rw [hp] at q3
        obtain ⟨q3, q4⟩ := q3
        dsimp only
        cases hq : P.measMake e'' m x cov with
        | none => rw [hq] at q4; exact q4
        | some w => rw [hq] at q4; exact ⟨q4, q3, h3⟩

theorem PlantInv.apply (h : PlantInv P tot S Ge U R Z) (c : Core T V M E) (i : FilterInput T V M K)
    (hc : CoreOk P S Ge U R c) (hi : InputOk P U R Z i) : OptP tot (CoreOk P S Ge U R) (c.apply P i) := by
  unfold Core.apply
  dsimp only
  unfold InputOk at hi
  by_cases hctl : i.isControl = true
  · rw [if_pos hctl] at hi ⊢
    exact (h.control c i hc hi).map (fun a ha => ha)
  · rw [if_neg hctl] at hi ⊢
    split
    · refine OptP.bind (OptP.map (h.control c (c.advInput i.timestamp) hc hc.2.2) (q := CoreOk P S Ge U R)
        (fun a ha => ha)) ?_
      intro a ha
      exact h.meas a i _ ha hi
    · exact h.meas c i _ hc hi

/-- the simulation of the plant by itself -/
def PlantInv.sim (h : PlantInv P tot S Ge U R Z) : SimRel P P where
  tot := tot
  RS x c x' c' := x = x' ∧ c = c' ∧ S x c
  RG pc pcc e pc' pcc' e' := pc = pc' ∧ pcc = pcc' ∧ e = e' ∧ Ge e ∧ (P.vsize pc > 0 → U pc ∧ R pcc)
  RI i j := i = j ∧ InputOk P U R Z i
  RU u u' := u = u' ∧ (P.vsize u > 0 → U u)
  ts_eq := by rintro i _ ⟨rfl, _⟩; rfl
  apply := by
    rintro ⟨x, cov, ts, pc, pcc, env⟩ ⟨x', cov', ts', pc', pcc', env'⟩ i _ h1 ⟨h2, h3, h4⟩ ⟨h5, h6, h7, h8, h9⟩ ⟨rfl, hi⟩
    dsimp only at h1 h2 h3 h4 h5 h6 h7 h8 h9
    subst h1 h2 h3 h5 h6 h7
    exact (h.apply _ i ⟨h4, h8, h9⟩ hi).toRel.mono (by
      rintro a _ ⟨rfl, ha⟩
      exact ⟨rfl, ⟨rfl, rfl, ha.1⟩, rfl, rfl, rfl, ha.2.1, ha.2.2⟩)
  ctrl := by
    rintro pc pcc e pc' pcc' e' u _ t ⟨_, _, rfl, he, _⟩ ⟨rfl, hu⟩
    exact ⟨rfl, fun hv => ⟨hu hv, h.rc e he⟩⟩
  empty := ⟨rfl, fun hv => absurd hv (by rw [h.empty]; exact Nat.lt_irrefl 0)⟩

/-- Calls whose data is admissible. -/
def OpOk (P : Plant T V M K E) (tot : Prop) (S : V → M → Prop) (Ge : E → Prop) (U : V → Prop)
    (Z : V → M → K → Prop) : Op T V M K E → Prop
  | .init x c _ => S x c
  | .predictControl u _ | .enqueueControl u _ => P.vsize u > 0 → U u
  | .correct z c _ m | .enqueueMeasurement z c _ m => ∃ k, m = some k ∧ Z z c k
  | .userModel g => ∀ e, Ge e → OptP tot Ge (g e)
  | _ => True

theorem PlantInv.rop (h : PlantInv P tot S Ge U R Z) (op : Op T V M K E) (hop : OpOk P tot S Ge U Z op) :
    h.sim.ROp op op := by
  cases op with
  | init x c t => exact .init t ⟨rfl, rfl, hop⟩
  | predictTime t => exact .predictTime t
  | predictControl u t => exact .predictControl t ⟨rfl, hop⟩
  | correct z c t m => exact .correct ⟨rfl, hop⟩
  | enqueueControl u t => exact .enqueueControl t ⟨rfl, hop⟩
  | enqueueMeasurement z c t m => exact .enqueueMeasurement ⟨rfl, hop⟩
  | processQueues => exact .processQueues
  | clearControlQueue => exact .clearControlQueue
  | clearMeasurementQueue => exact .clearMeasurementQueue
  | revertToState t => exact .revertToState t
  | setParams p => exact .setParams p
  | userModel g =>
    refine .userModel ?_
    rintro pc pcc e pc' pcc' e' ⟨rfl, rfl, rfl, he, hpc⟩
    exact (hop e he).toRel.mono (by rintro a _ ⟨rfl, ha⟩; exact ⟨rfl, rfl, rfl, ha, hpc⟩)

/-- Every trace: the invariant holds for the current and every retained state; with `tot` nothing fails. -/
theorem PlantInv.run [SaneTime T] (h : PlantInv P tot S Ge U R Z)
    (sort : List (FilterInput T V M K) → List (FilterInput T V M K)) (hsort : ∀ l, (sort l).Perm l)
    (f : Filter T V M K E) (hf : Ge f.env) (hpc : P.vsize f.prevControl > 0 → U f.prevControl ∧ R f.prevControlCov)
    (x : V) (c : M) (t : T) (hx : S x c) (ops : List (Op T V M K E)) (hops : ∀ op ∈ ops, OpOk P tot S Ge U Z op) :
    OptP tot (fun g => (∀ s ∈ g.retained, S s.x s.covariance) ∧ Ge g.env) ((f.init x c t).run P sort ops) := by
  have h0 : h.sim.RF (f.init x c t) (f.init x c t) :=
    SimRel.RF.init (R := h.sim) (f := f) (g := f) rfl ⟨rfl, rfl, rfl, hf, hpc⟩ ⟨rfl, rfl, hx⟩ t
  have hrel : ∀ l l' : List (FilterInput T V M K), List.Forall₂ h.sim.RI l l' →
      l = l' ∧ ∀ i ∈ l, InputOk P U R Z i := by
    intro l l' h
    induction h with
    | nil => simp
    | cons a _ ih =>
      obtain ⟨rfl, ha⟩ := a
      refine ⟨by rw [ih.1], ?_⟩
      intro i hi
      rcases List.mem_cons.mp hi with rfl | hi
      · exact ha
      · exact ih.2 i hi
  have := SimRel.RF.run (R := h.sim) (sort := sort) (sort' := sort) (by
      intro l l' hl
      obtain ⟨rfl, hl2⟩ := hrel l l' hl
      exact List.forall₂_same.mpr (fun i hi => ⟨rfl, hl2 i ((hsort l).mem_iff.mp hi)⟩))
    (ops := ops) (ops' := ops) (List.forall₂_same.mpr (fun op hop => h.rop op (hops op hop))) h0
  generalize (f.init x c t).run P sort ops = r at this ⊢
  cases r with
  | none => exact this
  | some g =>
    have hg : h.sim.RF g g := this
    refine ⟨?_, hg.glob.2.2.2.1⟩
    exact fun s hs => ((List.forall₂_same.mp hg.ret.1) s hs).2.2.2

end StateEstimation
