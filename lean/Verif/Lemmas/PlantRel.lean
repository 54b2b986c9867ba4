import Verif.Lemmas.PlantSim

/-!
# Two plants whose estimates, models and inputs correspond

Generalises `PlantSim`: the vectors and matrices of the two sides may differ and are related by `RS` (state and
covariance), `RE` (models), `RU` (non-empty controls), `RR` (control covariances) and `RZ` (measurements).  The handles of
the measurement models are the same.
-/

set_option linter.unusedSectionVars false

namespace StateEstimation

variable {T V M K E V' M' E' : Type} [TimeOps T]

/-- Control data: both absent, or both present and related. -/
def DataRel (P : Plant T V M K E) (Q : Plant T V' M' K E') (RU : V → V' → Prop) (d : V) (d' : V') : Prop :=
  (P.vsize d > 0 ∧ Q.vsize d' > 0 ∧ RU d d') ∨ (P.vsize d = 0 ∧ Q.vsize d' = 0)

/-- Control data with its covariance. -/
def CtrlRel (P : Plant T V M K E) (Q : Plant T V' M' K E') (RU : V → V' → Prop) (RR : M → M' → Prop) (d : V) (c : M)
    (d' : V') (c' : M') : Prop :=
  (P.vsize d > 0 ∧ Q.vsize d' > 0 ∧ RU d d' ∧ RR c c') ∨ (P.vsize d = 0 ∧ Q.vsize d' = 0)

/-- Inputs. -/
def InputRel (P : Plant T V M K E) (Q : Plant T V' M' K E') (RU : V → V' → Prop) (RR : M → M' → Prop)
    (RZ : V → M → V' → M' → K → Prop) (i : FilterInput T V M K) (j : FilterInput T V' M' K) : Prop :=
  i.timestamp = j.timestamp ∧ i.isControl = j.isControl ∧
    if i.isControl then CtrlRel P Q RU RR i.data i.covariance j.data j.covariance
    else ∃ m, i.model = some m ∧ j.model = some m ∧ RZ i.data i.covariance j.data j.covariance m

/-- Callback-wise correspondence. -/
structure PlantRel (P : Plant T V M K E) (Q : Plant T V' M' K E') (tot : Prop) (RS : V → M → V' → M' → Prop)
    (RE : E → E' → Prop) (RU : V → V' → Prop) (RR : M → M' → Prop) (RZ : V → M → V' → M' → K → Prop) : Prop where
  empty : P.vsize P.emptyV = 0
  empty' : Q.vsize Q.emptyV = 0
  rc : ∀ e e', RE e e' → RR (P.rc e) (Q.rc e')
  zero : ∀ e e', RE e e' → RU (P.zeroV (P.controlSize e)) (Q.zeroV (Q.controlSize e'))
  setRc : ∀ e e' c c', RE e e' → RR c c' → OptRel tot RE (P.setRc e c) (Q.setRc e' c')
  sysSt : ∀ e e' x c x' c' d d', RE e e' → RS x c x' c' → DataRel P Q RU d d' →
    (P.sysCheck e && P.sysIsStationary e x d) = (Q.sysCheck e' && Q.sysIsStationary e' x' d')
  predict : ∀ e e' x c x' c' u u' dt, RE e e' → RS x c x' c' → RU u u' →
    OptRel tot (fun r q => RS r.1 r.2.1 q.1 q.2.1 ∧ RE r.2.2 q.2.2) (P.myPredict e x c u dt) (Q.myPredict e' x' c' u' dt)
  sysStationary : ∀ e e' x c x' c' d d', RE e e' → RS x c x' c' → DataRel P Q RU d d' →
    (P.sysCheck e && P.sysIsStationary e x d) = true →
    OptRel tot (fun e1 e1' => RE e1 e1' ∧ OptRel tot (fun r q => RS r.1 r.2 q.1 q.2) (P.sysMake e1 x c) (Q.sysMake e1' x' c'))
      (P.sysProcess e x d) (Q.sysProcess e' x' d')
  setMeasCov : ∀ e e' m z c z' c', RE e e' → RZ z c z' c' m → OptRel tot (fun e1 e1' => RE e1 e1' ∧
    (∀ x p x' p', RS x p x' p' →
      (P.measCheck e1 m && P.measIsStationary e1 m x z) = (Q.measCheck e1' m && Q.measIsStationary e1' m x' z')) ∧
    (∀ x p x' p' dt, RS x p x' p' → OptRel tot (fun r q => RS r.1 r.2.1 q.1 q.2.1 ∧ RE r.2.2 q.2.2)
      (P.myCorrect e1 x p z m dt) (Q.myCorrect e1' x' p' z' m dt)) ∧
    (∀ x p x' p', RS x p x' p' → (P.measCheck e1 m && P.measIsStationary e1 m x z) = true →
      OptRel tot (fun e2 e2' => RE e2 e2' ∧
        OptRel tot (fun r q => RS r.1 r.2 q.1 q.2) (P.measMake e2 m x p) (Q.measMake e2' m x' p'))
      (P.measProcess e1 m x z) (Q.measProcess e1' m x' z'))) (P.setMeasCov e m c) (Q.setMeasCov e' m c')

variable {P : Plant T V M K E} {Q : Plant T V' M' K E'} {tot : Prop} {RS : V → M → V' → M' → Prop}
  {RE : E → E' → Prop} {RU : V → V' → Prop} {RR : M → M' → Prop} {RZ : V → M → V' → M' → K → Prop}

theorem CtrlRel.data {d : V} {c : M} {d' : V'} {c' : M'} (h : CtrlRel P Q RU RR d c d' c') : DataRel P Q RU d d' := by
  rcases h with ⟨a, b, c, _⟩ | h
  · exact Or.inl ⟨a, b, c⟩
  · exact Or.inr h

/-- related cores -/
def CoreRel (P : Plant T V M K E) (Q : Plant T V' M' K E') (RS : V → M → V' → M' → Prop) (RE : E → E' → Prop)
    (RU : V → V' → Prop) (RR : M → M' → Prop) (c : Core T V M E) (d : Core T V' M' E') : Prop :=
  c.ts = d.ts ∧ RS c.x c.cov d.x d.cov ∧ CtrlRel P Q RU RR c.pc c.pcc d.pc d.pcc ∧ RE c.env d.env

theorem PlantRel.control (h : PlantRel P Q tot RS RE RU RR RZ) (c : Core T V M E) (d : Core T V' M' E')
    (i : FilterInput T V M K) (j : FilterInput T V' M' K) (hc : CoreRel P Q RS RE RU RR c d) (ht : i.timestamp = j.timestamp)
    (hi : CtrlRel P Q RU RR i.data i.covariance j.data j.covariance) :
    OptRel tot (CoreRel P Q RS RE RU RR) (c.control P i) (d.control Q j) := by
  obtain ⟨x, cov, ts, pc, pcc, e⟩ := c
  obtain ⟨x', cov', ts', pc', pcc', e'⟩ := d
  obtain ⟨h0, h1, h2, h3⟩ := hc
  dsimp only at h0 h1 h2 h3
  subst h0
  have hsel : ∃ u r a p u' r' a' p', (if P.vsize i.data > 0 then (i.data, i.covariance, i.data, i.covariance)
        else if P.vsize pc > 0 then (pc, pcc, pc, pcc)
        else (P.zeroV (P.controlSize e), P.rc e, pc, pcc)) = (u, r, a, p) ∧
        (if Q.vsize j.data > 0 then (j.data, j.covariance, j.data, j.covariance)
        else if Q.vsize pc' > 0 then (pc', pcc', pc', pcc')
        else (Q.zeroV (Q.controlSize e'), Q.rc e', pc', pcc')) = (u', r', a', p') ∧ RU u u' ∧ RR r r' ∧
        CtrlRel P Q RU RR a p a' p' := by
    rcases hi with ⟨k1, k2, k3, k4⟩ | ⟨k1, k2⟩
    · rw [if_pos k1, if_pos k2]
      exact ⟨_, _, _, _, _, _, _, _, rfl, rfl, k3, k4, Or.inl ⟨k1, k2, k3, k4⟩⟩
    · rw [if_neg (show ¬ P.vsize i.data > 0 by omega), if_neg (show ¬ Q.vsize j.data > 0 by omega)]
      rcases h2 with ⟨k1, k2, k3, k4⟩ | ⟨k1, k2⟩
      · rw [if_pos k1, if_pos k2]
        exact ⟨_, _, _, _, _, _, _, _, rfl, rfl, k3, k4, Or.inl ⟨k1, k2, k3, k4⟩⟩
      · rw [if_neg (show ¬ P.vsize pc > 0 by omega), if_neg (show ¬ Q.vsize pc' > 0 by omega)]
        exact ⟨_, _, _, _, _, _, _, _, rfl, rfl, h.zero e e' h3, h.rc e e' h3, Or.inr ⟨k1, k2⟩⟩
  obtain ⟨u, r, a, p, u', r', a', p', k0, k1, k2, k3, k4⟩ := hsel
  unfold Core.control
  dsimp only
  rw [k0, k1, ← ht, ← h.sysSt e e' x cov x' cov' i.data j.data h3 h1 hi.data]
  dsimp only
  by_cases hst : (!(P.sysCheck e && P.sysIsStationary e x i.data)) = true
  · rw [if_pos hst, if_pos hst]
    have q1 := h.setRc e e' r r' h3 k3
    generalize P.setRc e r = o1 at q1 ⊢
    generalize Q.setRc e' r' = o2 at q1 ⊢
    rcases OptRel.elim q1 with ⟨rfl, rfl, q1⟩ | ⟨e1, e1', rfl, rfl, q1⟩
    · exact q1
    · dsimp only
      have q2 := h.predict e1 e1' x cov x' cov' u u' (TimeOps.sub i.timestamp ts) q1 h1 k2
      generalize P.myPredict e1 x cov u (TimeOps.sub i.timestamp ts) = o3 at q2 ⊢
      generalize Q.myPredict e1' x' cov' u' (TimeOps.sub i.timestamp ts) = o4 at q2 ⊢
      rcases OptRel.elim q2 with ⟨rfl, rfl, q2⟩ | ⟨v1, v2, rfl, rfl, q2⟩
      · exact q2
      · exact ⟨rfl, q2.1, k4, q2.2⟩
  · rw [if_neg hst, if_neg hst]
    have q1 := h.sysStationary e e' x cov x' cov' i.data j.data h3 h1 hi.data (by simpa using hst)
    generalize P.sysProcess e x i.data = o1 at q1 ⊢
    generalize Q.sysProcess e' x' j.data = o2 at q1 ⊢
    rcases OptRel.elim q1 with ⟨rfl, rfl, q1⟩ | ⟨e1, e1', rfl, rfl, q1⟩
    · exact q1
    · dsimp only
      obtain ⟨q1, q2⟩ := q1
      generalize P.sysMake e1 x cov = o3 at q2 ⊢
      generalize Q.sysMake e1' x' cov' = o4 at q2 ⊢
      rcases OptRel.elim q2 with ⟨rfl, rfl, q2⟩ | ⟨v1, v2, rfl, rfl, q2⟩
      · exact q2
      · exact ⟨rfl, q2, k4, q1⟩

theorem PlantRel.meas (h : PlantRel P Q tot RS RE RU RR RZ) (c : Core T V M E) (d : Core T V' M' E')
    (i : FilterInput T V M K) (j : FilterInput T V' M' K) (dt : T) (hc : CoreRel P Q RS RE RU RR c d)
    (hi : ∃ m, i.model = some m ∧ j.model = some m ∧ RZ i.data i.covariance j.data j.covariance m) :
    OptRel tot (CoreRel P Q RS RE RU RR) (c.meas P i dt) (d.meas Q j dt) := by
  obtain ⟨x, cov, ts, pc, pcc, e⟩ := c
  obtain ⟨x', cov', ts', pc', pcc', e'⟩ := d
  obtain ⟨h0, h1, h2, h3⟩ := hc
  dsimp only at h0 h1 h2 h3
  subst h0
  obtain ⟨m, hm, hm', hz⟩ := hi
  unfold Core.meas
  rw [hm, hm']
  dsimp only
  have q1 := h.setMeasCov e e' m i.data i.covariance j.data j.covariance h3 hz
  generalize P.setMeasCov e m i.covariance = o1 at q1 ⊢
  generalize Q.setMeasCov e' m j.covariance = o2 at q1 ⊢
  rcases OptRel.elim q1 with ⟨rfl, rfl, q1⟩ | ⟨e1, e1', rfl, rfl, q1⟩
  · exact q1
  · dsimp only
    obtain ⟨q1, q2, q3, q4⟩ := q1
    have q2 := q2 x cov x' cov' h1
    by_cases hst : (!(P.measCheck e1 m && P.measIsStationary e1 m x i.data)) = true
    · rw [if_pos hst, if_pos (by rw [← q2]; exact hst)]
      have q3 := q3 x cov x' cov' dt h1
      generalize P.myCorrect e1 x cov i.data m dt = o3 at q3 ⊢
      generalize Q.myCorrect e1' x' cov' j.data m dt = o4 at q3 ⊢
      rcases OptRel.elim q3 with ⟨rfl, rfl, q3⟩ | ⟨v1, v2, rfl, rfl, q3⟩
      · exact q3
      · exact ⟨rfl, q3.1, h2, q3.2⟩
    · rw [if_neg hst, if_neg (by rw [← q2]; exact hst)]
      have q4 := q4 x cov x' cov' h1 (by simpa using hst)
      generalize P.measProcess e1 m x i.data = o3 at q4 ⊢
      generalize Q.measProcess e1' m x' j.data = o4 at q4 ⊢
      rcases OptRel.elim q4 with ⟨rfl, rfl, q4⟩ | ⟨e2, e2', rfl, rfl, q4⟩
      · exact q4
      · dsimp only
        obtain ⟨q4, q5⟩ := q4
        generalize P.measMake e2 m x cov = o5 at q5 ⊢
        generalize Q.measMake e2' m x' cov' = o6 at q5 ⊢
        rcases OptRel.elim q5 with ⟨rfl, rfl, q5⟩ | ⟨v1, v2, rfl, rfl, q5⟩
        · exact q5
        · exact ⟨rfl, q5, h2, q4⟩

theorem CoreRel.tick {c : Core T V M E} {d : Core T V' M' E'} (h : CoreRel P Q RS RE RU RR c d) (dt : T) :
    CoreRel P Q RS RE RU RR (c.tick dt) (d.tick dt) :=
  ⟨by unfold Core.tick; dsimp only; rw [h.1], h.2.1, h.2.2⟩

theorem PlantRel.apply (h : PlantRel P Q tot RS RE RU RR RZ) (c : Core T V M E) (d : Core T V' M' E')
    (i : FilterInput T V M K) (j : FilterInput T V' M' K) (hc : CoreRel P Q RS RE RU RR c d)
    (hi : InputRel P Q RU RR RZ i j) : OptRel tot (CoreRel P Q RS RE RU RR) (c.apply P i) (d.apply Q j) := by
  obtain ⟨ht, hctl, hi⟩ := hi
  unfold Core.apply
  dsimp only
  rw [← hc.1, ← hctl, ← ht]
  by_cases hctl : i.isControl = true
  · rw [if_pos hctl] at hi
    rw [if_pos hctl, if_pos hctl]
    exact OptRel.map (h.control c d i j hc ht hi) (fun a b hab => hab.tick _)
  · rw [if_neg hctl] at hi
    rw [if_neg hctl, if_neg hctl]
    split
    · refine OptRel.bind (OptRel.map (h.control c d (c.advInput i.timestamp) (d.advInput i.timestamp) hc rfl hc.2.2.1)
        (S := CoreRel P Q RS RE RU RR) (fun a b hab => hab.tick _)) ?_
      intro a b hab
      exact h.meas a b i j _ hab hi
    · exact h.meas c d i j _ hc hi

/-- the simulation -/
def PlantRel.sim (h : PlantRel P Q tot RS RE RU RR RZ) : SimRel P Q where
  tot := tot
  RS := RS
  RG pc pcc e pc' pcc' e' := CtrlRel P Q RU RR pc pcc pc' pcc' ∧ RE e e'
  RI := InputRel P Q RU RR RZ
  RU := DataRel P Q RU
  ts_eq h := h.1
  apply c d i j h1 h2 h3 hi := h.apply c d i j ⟨h1, h2, h3⟩ hi
  ctrl := by
    rintro pc pcc e pc' pcc' e' u u' t ⟨_, he⟩ hu
    refine ⟨rfl, rfl, ?_⟩
    rw [if_pos rfl]
    rcases hu with ⟨a, b, c⟩ | hu
    · exact Or.inl ⟨a, b, c, h.rc e e' he⟩
    · exact Or.inr hu
  empty := Or.inr ⟨h.empty, h.empty'⟩

/-- Corresponding calls. -/
def OpRel (P : Plant T V M K E) (Q : Plant T V' M' K E') (tot : Prop) (RS : V → M → V' → M' → Prop) (RE : E → E' → Prop)
    (RU : V → V' → Prop) (RZ : V → M → V' → M' → K → Prop) : Op T V M K E → Op T V' M' K E' → Prop
  | .init x c t, .init x' c' t' => t = t' ∧ RS x c x' c'
  | .predictTime t, .predictTime t' => t = t'
  | .predictControl u t, .predictControl u' t' => t = t' ∧ DataRel P Q RU u u'
  | .correct z c t m, .correct z' c' t' m' => t = t' ∧ ∃ k, m = some k ∧ m' = some k ∧ RZ z c z' c' k
  | .enqueueControl u t, .enqueueControl u' t' => t = t' ∧ DataRel P Q RU u u'
  | .enqueueMeasurement z c t m, .enqueueMeasurement z' c' t' m' =>
      t = t' ∧ ∃ k, m = some k ∧ m' = some k ∧ RZ z c z' c' k
  | .processQueues, .processQueues => True
  | .clearControlQueue, .clearControlQueue => True
  | .clearMeasurementQueue, .clearMeasurementQueue => True
  | .revertToState t, .revertToState t' => t = t'
  | .setParams p, .setParams p' => p = p'
  | .userModel g, .userModel g' => ∀ e e', RE e e' → OptRel tot RE (g e) (g' e')
  | _, _ => False

theorem PlantRel.rop (h : PlantRel P Q tot RS RE RU RR RZ) {op : Op T V M K E} {op' : Op T V' M' K E'}
    (hop : OpRel P Q tot RS RE RU RZ op op') : h.sim.ROp op op' := by
  cases op <;> cases op' <;> simp only [OpRel] at hop
  · obtain ⟨rfl, hS⟩ := hop; exact .init _ hS
  · subst hop; exact .predictTime _
  · obtain ⟨rfl, hu⟩ := hop; exact .predictControl _ hu
  · obtain ⟨rfl, hk⟩ := hop; exact .correct ⟨rfl, rfl, hk⟩
  · obtain ⟨rfl, hu⟩ := hop; exact .enqueueControl _ hu
  · obtain ⟨rfl, hk⟩ := hop; exact .enqueueMeasurement ⟨rfl, rfl, hk⟩
  · exact .processQueues
  · exact .clearControlQueue
  · exact .clearMeasurementQueue
  · subst hop; exact .revertToState _
  · subst hop; exact .setParams _
  · refine .userModel ?_
    rintro pc pcc e pc' pcc' e' ⟨h1, h2⟩
    exact OptRel.mono (hop e e' h2) (fun _ _ h5 => ⟨h1, h5⟩)

/-- Two sorting routines that look only at the time stamps: on lists with the same time stamps they make the same
rearrangement. `std::sort` with the comparator of filter_base.hpp:196-199 is such a routine. -/
def SameSort (sort : List (FilterInput T V M K) → List (FilterInput T V M K))
    (sort' : List (FilterInput T V' M' K) → List (FilterInput T V' M' K)) : Prop :=
  ∀ (R : FilterInput T V M K → FilterInput T V' M' K → Prop), (∀ i j, R i j → i.timestamp = j.timestamp) →
    ∀ l l', List.Forall₂ R l l' → List.Forall₂ R (sort l) (sort' l')

/-- Every trace. -/
theorem PlantRel.run [SaneTime T] (h : PlantRel P Q tot RS RE RU RR RZ)
    {sort : List (FilterInput T V M K) → List (FilterInput T V M K)}
    {sort' : List (FilterInput T V' M' K) → List (FilterInput T V' M' K)} (hsort : SameSort sort sort')
    (f : Filter T V M K E) (g : Filter T V' M' K E') (hp : f.params = g.params) (hf : RE f.env g.env)
    (hpc : CtrlRel P Q RU RR f.prevControl f.prevControlCov g.prevControl g.prevControlCov)
    (x : V) (c : M) (x' : V') (c' : M') (t : T) (hx : RS x c x' c') {ops : List (Op T V M K E)} {ops' : List (Op T V' M' K E')}
    (hops : List.Forall₂ (OpRel P Q tot RS RE RU RZ) ops ops') :
    OptRel tot (fun f' g' => f'.params = g'.params ∧ RE f'.env g'.env ∧
        CtrlRel P Q RU RR f'.prevControl f'.prevControlCov g'.prevControl g'.prevControlCov ∧
        List.Forall₂ (fun s s' => s.timestamp = s'.timestamp ∧ RS s.x s.covariance s'.x s'.covariance)
          f'.retained g'.retained)
      ((f.init x c t).run P sort ops) ((g.init x' c' t).run Q sort' ops') := by
  have h0 : h.sim.RF (f.init x c t) (g.init x' c' t) :=
    SimRel.RF.init (R := h.sim) (f := f) (g := g) hp ⟨hpc, hf⟩ hx t
  have := SimRel.RF.run (R := h.sim) (sort := sort) (sort' := sort') (hsort _ (fun i j h => h.1))
    (ops := ops) (ops' := ops') (hops.imp (fun _ _ hop => h.rop hop)) h0
  refine OptRel.mono this ?_
  intro f' g' hfg
  exact ⟨hfg.params, hfg.glob.2, hfg.glob.1, hfg.ret.1⟩

end StateEstimation
