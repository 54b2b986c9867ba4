import Verif.Lemmas.PlantInv

/-!
# Two plants with the same observable behaviour

`PlantSim` compares two plants over the same vectors, matrices and model handles, callback by callback, under an
invariant `S` of the estimate.  Then every sequence of API calls gives the same states, or fails on both sides.
-/

set_option linter.unusedSectionVars false

namespace StateEstimation

theorem OptRel.elim {tot : Prop} {α β : Type} {R : α → β → Prop} {a : Option α} {b : Option β} (h : OptRel tot R a b) :
    (a = none ∧ b = none ∧ ¬ tot) ∨ ∃ x y, a = Option.some x ∧ b = Option.some y ∧ R x y := by
  cases a <;> cases b <;> simp only [OptRel] at h
  · exact Or.inl ⟨rfl, rfl, h⟩
  · exact Or.inr ⟨_, _, rfl, rfl, h⟩

variable {T V M K E E' : Type} [TimeOps T]

/-- Callback-wise agreement. `RE` relates the models, `U`/`R`/`Z` are the admissible controls, control covariances and
measurements (as in `PlantInv`). -/
structure PlantSim (P : Plant T V M K E) (Q : Plant T V M K E') (tot : Prop) (S : V → M → Prop) (RE : E → E' → Prop)
    (U : V → Prop) (R : M → Prop) (Z : V → M → K → Prop) : Prop where
  vsize : P.vsize = Q.vsize
  emptyV : P.emptyV = Q.emptyV
  zeroV : P.zeroV = Q.zeroV
  empty : P.vsize P.emptyV = 0
  controlSize : ∀ e e', RE e e' → P.controlSize e = Q.controlSize e'
  rc : ∀ e e', RE e e' → P.rc e = Q.rc e' ∧ R (P.rc e)
  zero : ∀ e e', RE e e' → U (P.zeroV (P.controlSize e))
  setRc : ∀ e e' c, RE e e' → R c → OptRel tot RE (P.setRc e c) (Q.setRc e' c)
  sysSt : ∀ e e' x c d, RE e e' → S x c →
    (P.sysCheck e && P.sysIsStationary e x d) = (Q.sysCheck e' && Q.sysIsStationary e' x d)
  predict : ∀ e e' x c u dt, RE e e' → S x c → U u →
    OptRel tot (fun r q => r.1 = q.1 ∧ r.2.1 = q.2.1 ∧ S r.1 r.2.1 ∧ RE r.2.2 q.2.2)
      (P.myPredict e x c u dt) (Q.myPredict e' x c u dt)
  sysStationary : ∀ e e' x c d, RE e e' → S x c → (P.vsize d > 0 → U d) →
    OptRel tot (fun e1 e1' => RE e1 e1' ∧ OptRel tot (fun r q => r = q ∧ S r.1 r.2) (P.sysMake e1 x c) (Q.sysMake e1' x c))
      (P.sysProcess e x d) (Q.sysProcess e' x d)
  setMeasCov : ∀ e e' m z c, RE e e' → Z z c m → OptRel tot (fun e1 e1' => RE e1 e1' ∧
    (∀ x p, S x p → (P.measCheck e1 m && P.measIsStationary e1 m x z) = (Q.measCheck e1' m && Q.measIsStationary e1' m x z)) ∧
    (∀ x p dt, S x p → OptRel tot (fun r q => r.1 = q.1 ∧ r.2.1 = q.2.1 ∧ S r.1 r.2.1 ∧ RE r.2.2 q.2.2)
      (P.myCorrect e1 x p z m dt) (Q.myCorrect e1' x p z m dt)) ∧
    (∀ x p, S x p → OptRel tot (fun e2 e2' => RE e2 e2' ∧
        OptRel tot (fun r q => r = q ∧ S r.1 r.2) (P.measMake e2 m x p) (Q.measMake e2' m x p))
      (P.measProcess e1 m x z) (Q.measProcess e1' m x z))) (P.setMeasCov e m c) (Q.setMeasCov e' m c)

variable {P : Plant T V M K E} {Q : Plant T V M K E'} {tot : Prop} {S : V → M → Prop} {RE : E → E' → Prop} {U : V → Prop}
  {R : M → Prop} {Z : V → M → K → Prop}

/-- related cores -/
def CoreSim (P : Plant T V M K E) (S : V → M → Prop) (RE : E → E' → Prop) (U : V → Prop) (R : M → Prop)
    (c : Core T V M E) (d : Core T V M E') : Prop :=
  c.ts = d.ts ∧ (c.x = d.x ∧ c.cov = d.cov ∧ S c.x c.cov) ∧
    (c.pc = d.pc ∧ c.pcc = d.pcc ∧ RE c.env d.env ∧ (P.vsize c.pc > 0 → U c.pc ∧ R c.pcc))

theorem PlantSim.control (h : PlantSim P Q tot S RE U R Z) (c : Core T V M E) (d : Core T V M E') (i : FilterInput T V M K)
    (hc : CoreSim P S RE U R c d) (hi : P.vsize i.data > 0 → U i.data ∧ R i.covariance) :
    OptRel tot (CoreSim P S RE U R) (c.control P i) (d.control Q i) := by
  obtain ⟨x, cov, ts, pc, pcc, e⟩ := c
  obtain ⟨x', cov', ts', pc', pcc', e'⟩ := d
  obtain ⟨h0, ⟨h1, h2, h3⟩, h4, h5, h6, h7⟩ := hc
  dsimp only at h0 h1 h2 h3 h4 h5 h6 h7
  subst h0 h1 h2 h4 h5
  have hsel : ∃ u r a p, (if P.vsize i.data > 0 then (i.data, i.covariance, i.data, i.covariance)
        else if P.vsize pc > 0 then (pc, pcc, pc, pcc)
        else (P.zeroV (P.controlSize e), P.rc e, pc, pcc)) = (u, r, a, p) ∧
        (if Q.vsize i.data > 0 then (i.data, i.covariance, i.data, i.covariance)
        else if Q.vsize pc > 0 then (pc, pcc, pc, pcc)
        else (Q.zeroV (Q.controlSize e'), Q.rc e', pc, pcc)) = (u, r, a, p) ∧ U u ∧ R r ∧
        (P.vsize a > 0 → U a ∧ R p) := by
    rw [← h.vsize, ← h.zeroV, ← h.controlSize e e' h6, ← (h.rc e e' h6).1]
    by_cases k1 : P.vsize i.data > 0
    · simp only [k1, if_true]
      exact ⟨_, _, _, _, rfl, rfl, (hi k1).1, (hi k1).2, fun _ => hi k1⟩
    · simp only [k1, if_false]
      by_cases k2 : P.vsize pc > 0
      · simp only [k2, if_true]
        exact ⟨_, _, _, _, rfl, rfl, (h7 k2).1, (h7 k2).2, fun _ => h7 k2⟩
      · simp only [k2, if_false]
        exact ⟨_, _, _, _, rfl, rfl, h.zero e e' h6, (h.rc e e' h6).2, fun k => absurd k k2⟩
  obtain ⟨u, r, a, p, k0, k1, k2, k3, k4⟩ := hsel
  unfold Core.control
  dsimp only
  rw [k0, k1, h.sysSt e e' x cov i.data h6 h3]
  dsimp only
  by_cases hst : (!(Q.sysCheck e' && Q.sysIsStationary e' x i.data)) = true
  · rw [if_pos hst, if_pos hst]
    have q1 := h.setRc e e' r h6 k3
    generalize P.setRc e r = o1 at q1 ⊢
    generalize Q.setRc e' r = o2 at q1 ⊢
    rcases OptRel.elim q1 with ⟨rfl, rfl, q1⟩ | ⟨e1, e1', rfl, rfl, q1⟩
    · exact q1
    · dsimp only
      have q2 := h.predict e1 e1' x cov u (TimeOps.sub i.timestamp ts) q1 h3 k2
      generalize P.myPredict e1 x cov u (TimeOps.sub i.timestamp ts) = o3 at q2 ⊢
      generalize Q.myPredict e1' x cov u (TimeOps.sub i.timestamp ts) = o4 at q2 ⊢
      rcases OptRel.elim q2 with ⟨rfl, rfl, q2⟩ | ⟨v1, v2, rfl, rfl, q2⟩
      · exact q2
      · exact ⟨rfl, ⟨q2.1, q2.2.1, q2.2.2.1⟩, rfl, rfl, q2.2.2.2, k4⟩
  · rw [if_neg hst, if_neg hst]
    have q1 := h.sysStationary e e' x cov i.data h6 h3 (fun k => (hi k).1)
    generalize P.sysProcess e x i.data = o1 at q1 ⊢
    generalize Q.sysProcess e' x i.data = o2 at q1 ⊢
    rcases OptRel.elim q1 with ⟨rfl, rfl, q1⟩ | ⟨e1, e1', rfl, rfl, q1⟩
    · exact q1
    · dsimp only
      obtain ⟨q1, q2⟩ := q1
      generalize P.sysMake e1 x cov = o3 at q2 ⊢
      generalize Q.sysMake e1' x cov = o4 at q2 ⊢
      rcases OptRel.elim q2 with ⟨rfl, rfl, q2⟩ | ⟨v1, v2, rfl, rfl, q2⟩
      · exact q2
      · obtain ⟨rfl, q3⟩ := q2
        exact ⟨rfl, ⟨rfl, rfl, q3⟩, rfl, rfl, q1, k4⟩

theorem PlantSim.meas (h : PlantSim P Q tot S RE U R Z) (c : Core T V M E) (d : Core T V M E') (i : FilterInput T V M K) (dt : T)
    (hc : CoreSim P S RE U R c d) (hi : ∃ m, i.model = some m ∧ Z i.data i.covariance m) :
    OptRel tot (CoreSim P S RE U R) (c.meas P i dt) (d.meas Q i dt) := by
  obtain ⟨x, cov, ts, pc, pcc, e⟩ := c
  obtain ⟨x', cov', ts', pc', pcc', e'⟩ := d
  obtain ⟨h0, ⟨h1, h2, h3⟩, h4, h5, h6, h7⟩ := hc
  dsimp only at h0 h1 h2 h3 h4 h5 h6 h7
  subst h0 h1 h2 h4 h5
  obtain ⟨m, hm, hz⟩ := hi
  unfold Core.meas
  rw [hm]
  dsimp only
  have q1 := h.setMeasCov e e' m i.data i.covariance h6 hz
  generalize P.setMeasCov e m i.covariance = o1 at q1 ⊢
  generalize Q.setMeasCov e' m i.covariance = o2 at q1 ⊢
  rcases OptRel.elim q1 with ⟨rfl, rfl, q1⟩ | ⟨e1, e1', rfl, rfl, q1⟩
  · exact q1
  · dsimp only
    obtain ⟨q1, q2, q3, q4⟩ := q1
    rw [q2 x cov h3]
    split
    · have q3 := q3 x cov dt h3
      generalize P.myCorrect e1 x cov i.data m dt = o3 at q3 ⊢
      generalize Q.myCorrect e1' x cov i.data m dt = o4 at q3 ⊢
      rcases OptRel.elim q3 with ⟨rfl, rfl, q3⟩ | ⟨v1, v2, rfl, rfl, q3⟩
      · exact q3
      · exact ⟨rfl, ⟨q3.1, q3.2.1, q3.2.2.1⟩, rfl, rfl, q3.2.2.2, h7⟩
    · have q4 := q4 x cov h3
      generalize P.measProcess e1 m x i.data = o3 at q4 ⊢
      generalize Q.measProcess e1' m x i.data = o4 at q4 ⊢
      rcases OptRel.elim q4 with ⟨rfl, rfl, q4⟩ | ⟨e2, e2', rfl, rfl, q4⟩
      · exact q4
      · dsimp only
        obtain ⟨q4, q5⟩ := q4
        generalize P.measMake e2 m x cov = o5 at q5 ⊢
        generalize Q.measMake e2' m x cov = o6 at q5 ⊢
        rcases OptRel.elim q5 with ⟨rfl, rfl, q5⟩ | ⟨v1, v2, rfl, rfl, q5⟩
        · exact q5
        · obtain ⟨rfl, q6⟩ := q5
          exact ⟨rfl, ⟨rfl, rfl, q6⟩, rfl, rfl, q4, h7⟩

theorem CoreSim.tick {c : Core T V M E} {d : Core T V M E'} (h : CoreSim P S RE U R c d) (dt : T) :
    CoreSim P S RE U R (c.tick dt) (d.tick dt) :=
  ⟨by unfold Core.tick; dsimp only; rw [h.1], h.2.1, h.2.2⟩

theorem PlantSim.apply (h : PlantSim P Q tot S RE U R Z) (c : Core T V M E) (d : Core T V M E') (i : FilterInput T V M K)
    (hc : CoreSim P S RE U R c d) (hi : InputOk P U R Z i) : OptRel tot (CoreSim P S RE U R) (c.apply P i) (d.apply Q i) := by
  unfold Core.apply
  dsimp only
  unfold InputOk at hi
  rw [← hc.1]
  by_cases hctl : i.isControl = true
  · rw [if_pos hctl] at hi
    rw [if_pos hctl, if_pos hctl]
    exact OptRel.map (h.control c d i hc hi) (fun a b hab => hab.tick _)
  · rw [if_neg hctl] at hi
    rw [if_neg hctl, if_neg hctl]
    split
    · have hadv : (d.advInput i.timestamp : FilterInput T V M K) = c.advInput i.timestamp := by
        unfold Core.advInput; rw [hc.2.2.1, hc.2.2.2.1]
      rw [hadv]
      refine OptRel.bind (OptRel.map (h.control c d (c.advInput i.timestamp) hc hc.2.2.2.2.2) (S := CoreSim P S RE U R)
        (fun a b hab => hab.tick _)) ?_
      intro a b hab
      exact h.meas a b i _ hab hi
    · exact h.meas c d i _ hc hi

/-- the simulation -/
def PlantSim.sim (h : PlantSim P Q tot S RE U R Z) : SimRel P Q where
  tot := tot
  RS x c x' c' := x = x' ∧ c = c' ∧ S x c
  RG pc pcc e pc' pcc' e' := pc = pc' ∧ pcc = pcc' ∧ RE e e' ∧ (P.vsize pc > 0 → U pc ∧ R pcc)
  RI i j := i = j ∧ InputOk P U R Z i
  RU u u' := u = u' ∧ (P.vsize u > 0 → U u)
  ts_eq := by rintro i _ ⟨rfl, _⟩; rfl
  apply := by
    rintro c d i _ h1 h2 h3 ⟨rfl, hi⟩
    exact h.apply c d i ⟨h1, h2, h3⟩ hi
  ctrl := by
    rintro pc pcc e pc' pcc' e' u _ t ⟨_, _, he, _⟩ ⟨rfl, hu⟩
    exact ⟨by rw [(h.rc e e' he).1], fun hv => ⟨hu hv, (h.rc e e' he).2⟩⟩
  empty := ⟨h.emptyV, fun hv => absurd hv (by rw [h.empty]; exact Nat.lt_irrefl 0)⟩

/-- The same call on both sides; user changes to the models (`userModel`) must correspond under `RE`. -/
def OpSame (P : Plant T V M K E) (tot : Prop) (S : V → M → Prop) (RE : E → E' → Prop) (U : V → Prop) (Z : V → M → K → Prop) :
    Op T V M K E → Op T V M K E' → Prop
  | .init x c t, .init x' c' t' => x = x' ∧ c = c' ∧ t = t' ∧ S x c
  | .predictTime t, .predictTime t' => t = t'
  | .predictControl u t, .predictControl u' t' => u = u' ∧ t = t' ∧ (P.vsize u > 0 → U u)
  | .correct z c t m, .correct z' c' t' m' => z = z' ∧ c = c' ∧ t = t' ∧ m = m' ∧ ∃ k, m = some k ∧ Z z c k
  | .enqueueControl u t, .enqueueControl u' t' => u = u' ∧ t = t' ∧ (P.vsize u > 0 → U u)
  | .enqueueMeasurement z c t m, .enqueueMeasurement z' c' t' m' =>
      z = z' ∧ c = c' ∧ t = t' ∧ m = m' ∧ ∃ k, m = some k ∧ Z z c k
  | .processQueues, .processQueues => True
  | .clearControlQueue, .clearControlQueue => True
  | .clearMeasurementQueue, .clearMeasurementQueue => True
  | .revertToState t, .revertToState t' => t = t'
  | .setParams p, .setParams p' => p = p'
  | .userModel g, .userModel g' => ∀ e e', RE e e' → OptRel tot RE (g e) (g' e')
  | _, _ => False

theorem PlantSim.rop (h : PlantSim P Q tot S RE U R Z) {op : Op T V M K E} {op' : Op T V M K E'}
    (hop : OpSame P tot S RE U Z op op') : h.sim.ROp op op' := by
  cases op <;> cases op' <;> simp only [OpSame] at hop
  · obtain ⟨rfl, rfl, rfl, hS⟩ := hop; exact .init _ ⟨rfl, rfl, hS⟩
  · subst hop; exact .predictTime _
  · obtain ⟨rfl, rfl, hu⟩ := hop; exact .predictControl _ ⟨rfl, hu⟩
  · obtain ⟨rfl, rfl, rfl, rfl, hk⟩ := hop; exact .correct ⟨rfl, hk⟩
  · obtain ⟨rfl, rfl, hu⟩ := hop; exact .enqueueControl _ ⟨rfl, hu⟩
  · obtain ⟨rfl, rfl, rfl, rfl, hk⟩ := hop; exact .enqueueMeasurement ⟨rfl, hk⟩
  · exact .processQueues
  · exact .clearControlQueue
  · exact .clearMeasurementQueue
  · subst hop; exact .revertToState _
  · subst hop; exact .setParams _
  · refine .userModel ?_
    rintro pc pcc e pc' pcc' e' ⟨h1, h2, h3, h4⟩
    exact OptRel.mono (hop e e' h3) (fun _ _ h5 => ⟨h1, h2, h5, h4⟩)

/-- Every trace. -/
theorem PlantSim.run [SaneTime T] (h : PlantSim P Q tot S RE U R Z)
    (sort : List (FilterInput T V M K) → List (FilterInput T V M K)) (hsort : ∀ l, (sort l).Perm l)
    (f : Filter T V M K E) (g : Filter T V M K E') (hp : f.params = g.params) (hf : RE f.env g.env)
    (hpc1 : f.prevControl = g.prevControl) (hpc2 : f.prevControlCov = g.prevControlCov)
    (hpc : P.vsize f.prevControl > 0 → U f.prevControl ∧ R f.prevControlCov)
    (x : V) (c : M) (t : T) (hx : S x c) {ops : List (Op T V M K E)} {ops' : List (Op T V M K E')}
    (hops : List.Forall₂ (OpSame P tot S RE U Z) ops ops') :
    OptRel tot (fun f' g' => f'.params = g'.params ∧ f'.prevControl = g'.prevControl ∧
        RE f'.env g'.env ∧ (∀ s ∈ f'.retained, S s.x s.covariance) ∧
        f'.retained.map (fun s => (s.x, s.covariance, s.timestamp)) =
          g'.retained.map (fun s => (s.x, s.covariance, s.timestamp)))
      ((f.init x c t).run P sort ops) ((g.init x c t).run Q sort ops') := by
  have h0 : h.sim.RF (f.init x c t) (g.init x c t) :=
    SimRel.RF.init (R := h.sim) (f := f) (g := g) hp ⟨hpc1, hpc2, hf, hpc⟩ ⟨rfl, rfl, hx⟩ t
  have hrel : ∀ l l' : List (FilterInput T V M K), List.Forall₂ h.sim.RI l l' →
      l = l' ∧ ∀ i ∈ l, InputOk P U R Z i := by
    intro l l' h
    induction h with
    | nil => simp
    | cons a _ ih =>
      obtain ⟨rfl, ha⟩ := a
      refine ⟨by rw [ih.1], ?_⟩
      intro i hi
      rcases List.mem_cons.mp hi with rfl | hi
      · exact ha
      · exact ih.2 i hi
  have := SimRel.RF.run (R := h.sim) (sort := sort) (sort' := sort) (by
      intro l l' hl
      obtain ⟨rfl, hl2⟩ := hrel l l' hl
      exact List.forall₂_same.mpr (fun i hi => ⟨rfl, hl2 i ((hsort l).mem_iff.mp hi)⟩))
    (ops := ops) (ops' := ops') (hops.imp (fun _ _ hop => h.rop hop)) h0
  refine OptRel.mono this ?_
  intro f' g' hfg
  refine ⟨hfg.params, hfg.glob.1, hfg.glob.2.2.1, ?_, ?_⟩
  · intro s hs
    have hF : List.Forall₂ (fun s _ => S s.x s.covariance) f'.retained g'.retained :=
      hfg.ret.1.imp (fun a b hab => hab.2.2.2)
    generalize f'.retained = l at hF hs
    generalize g'.retained = l' at hF
    clear * - hF hs
    induction hF with
    | nil => simp at hs
    | cons a _ ih =>
      rcases List.mem_cons.mp hs with rfl | hs
      · exact a
      · exact ih hs
  · have hF := hfg.ret.1
    generalize f'.retained = l at hF ⊢
    generalize g'.retained = l' at hF ⊢
    clear * - hF
    induction hF with
    | nil => rfl
    | cons a _ ih =>
      rw [List.map_cons, List.map_cons, ih, a.1, a.2.1, a.2.2.1]

end StateEstimation
