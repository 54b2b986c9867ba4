import Verif.Spec.Models
import Verif.Lemmas.PlantInv

/-! # Invariants of the plants built by `mkPlant` -/

set_option linter.unusedSectionVars false

namespace StateEstimation

variable {T K DS XS DM XM : Type} [DecidableEq K]

theorem OptP.of_eq {tot : Prop} {α : Type} {p : α → Prop} {o : Option α} {a : α} (h : o = some a) (hp : p a) :
    OptP tot p o := by rw [h]; exact hp

theorem DMat.PSD_of {n : Nat} {A : Matrix (Fin n) (Fin n) ℝ} : (DMat.of A).PSD ↔ A.PosSemidef :=
  ⟨fun ⟨_, h⟩ => h, fun h => ⟨rfl, h⟩⟩

theorem DMat.PD_of {n : Nat} {A : Matrix (Fin n) (Fin n) ℝ} : (DMat.of A).PD ↔ A.PosDef :=
  ⟨fun ⟨_, h⟩ => h, fun h => ⟨rfl, h⟩⟩

theorem DMat.PD.psd {A : DMat} (h : A.PD) : A.PSD := ⟨h.1, h.2.posSemidef⟩

theorem DMat.Is.exists_of {A : DMat} {r c : Nat} (h : A.Is r c) :
    ∃ B : Matrix (Fin r) (Fin c) ℝ, A = DMat.of B := A.exists_of h.1 h.2

theorem Sys.SameConfig.refl {D X : Type} (s : Sys D X) : s.SameConfig s := ⟨rfl, rfl, rfl, rfl, rfl⟩
theorem Meas.SameConfig.refl {D X : Type} (s : Meas D X) : s.SameConfig s := ⟨rfl, rfl, rfl, rfl⟩

section
variable {ds : Nat → Nat → DS → Prop} {dm : Nat → Nat → DM → Prop} {N : DMat → DMat → Prop}
  {Q : DVec → DMat → Prop} {n m : Nat} {kd : K → Nat}

theorem Env.Ok.setSys {e : Env K DS XS DM XM} (h : e.Ok ds dm N Q n m kd) {s : Sys DS XS} (hs : s.Sized ds n m)
    (hc : e.sys.SameConfig s) : Env.Ok ds dm N Q n m kd { e with sys := s } :=
  ⟨hs, by rw [hc.Rp, hc.Rc]; exact h.noise, by
    show FilterModel.MakeKeeps Q s.fm
    rw [hc.fm]; exact h.sysMake, h.meas, h.measMake⟩

theorem Env.Ok.setMeas {e : Env K DS XS DM XM} (h : e.Ok ds dm N Q n m kd) (k : K) {s : Meas DM XM}
    (hs : s.Sized dm n (kd k)) (hc : (e.meas k).SameConfig s) : Env.Ok ds dm N Q n m kd (e.setMeas k s) := by
  refine ⟨h.sys, h.noise, h.sysMake, ?_, ?_⟩
  · intro j
    unfold Env.setMeas
    dsimp only
    by_cases hj : j = k
    · subst hj; rw [if_pos rfl]; exact hs
    · rw [if_neg hj]; exact h.meas j
  · intro j
    unfold Env.setMeas
    dsimp only
    by_cases hj : j = k
    · subst hj; rw [if_pos rfl, hc.fm]; exact h.measMake j
    · rw [if_neg hj]; exact h.measMake j

theorem mkPlant_inv {tot : Prop} {sc : SysClass T DS XS} {mc : K → MeasClass T DM XM}
    {predict correct} {NC NM : DMat → Prop}
    (hsc : SysContract ds sc) (hmc : ∀ k, MeasContract dm (mc k))
    (hQ : ∀ x c, Q x c → x.size = n)
    (hN1 : ∀ Rp Rc Rc', N Rp Rc → NC Rc' → N Rp Rc') (hN2 : ∀ Rp Rc, N Rp Rc → NC Rc)
    (hpred : ∀ (e : Env K DS XS DM XM) x c u (dt : T), e.Ok ds dm N Q n m kd → Q x c → u.size = m →
      OptP tot (fun r => Q r.1 r.2.1 ∧ r.2.2.Ok ds dm N Q n m kd) (predict e x c u dt))
    (hcorr : ∀ (e : Env K DS XS DM XM) x c z k (dt : T), e.Ok ds dm N Q n m kd → Q x c → z.size = kd k →
      NM (e.meas k).cov → OptP tot (fun r => Q r.1 r.2.1 ∧ r.2.2.Ok ds dm N Q n m kd) (correct e x c z k dt)) :
    PlantInv (mkPlant sc mc predict correct) tot Q (Env.Ok ds dm N Q n m kd) (fun u => u.size = m)
      (fun R => R.Is m m ∧ NC R) (fun z c k => z.size = kd k ∧ c.Is (kd k) (kd k) ∧ NM c) where
  empty := rfl
  rc e he := ⟨he.sys.Rc, hN2 _ _ he.noise⟩
  zero e he := he.sys.controls
  setRc e c he hc := by
    refine OptP.of_eq (a := { e with sys := { e.sys with Rc := c } }) ?_ ?_
    · show ((e.sys.setControlCovariance c).map _) = _
      unfold Sys.setControlCovariance
      rw [if_pos (by rw [he.sys.controls]; exact hc.1)]; rfl
    · exact ⟨⟨he.sys.states, he.sys.controls, he.sys.der, he.sys.P, he.sys.Rp, he.sys.V, hc.1⟩,
        hN1 _ _ _ he.noise hc.2, he.sysMake, he.meas, he.measMake⟩
  predict e x c u dt he hx hu := hpred e x c u dt he hx hu
  sysStationary e x c d he hx hd := by
    have hd' : d.size = m ∨ d.size = 0 := by
      rcases Nat.eq_zero_or_pos d.size with h | h
      · exact Or.inr h
      · exact Or.inl (hd h)
    obtain ⟨s', h1, h2, h3⟩ := hsc.stationary e.sys x d he.sys (hQ _ _ hx) hd'
    refine OptP.of_eq (a := { e with sys := s' }) ?_ ?_
    · show ((sc.processStationary e.sys x d).map _) = _
      rw [h1]; rfl
    · have ho := he.setSys h2 h3
      refine ⟨ho, ?_⟩
      obtain ⟨x', c', k1, k2⟩ := ho.sysMake x c hx
      exact OptP.of_eq k1 k2
  setMeasCov e k z c he hz := by
    refine OptP.of_eq (a := e.setMeas k { e.meas k with cov := c }) ?_ ?_
    · show (((e.meas k).setCovariance c).map _) = _
      unfold Meas.setCovariance
      rw [if_pos (by rw [(he.meas k).meas]; exact hz.2.1)]; rfl
    · have ho : (e.setMeas k { e.meas k with cov := c }).Ok ds dm N Q n m kd := by
        refine ⟨he.sys, he.noise, he.sysMake, ?_, ?_⟩
        · intro j
          unfold Env.setMeas
          dsimp only
          by_cases hj : j = k
          · subst hj; rw [if_pos rfl]
            exact ⟨(he.meas j).states, (he.meas j).meas, (he.meas j).der, hz.2.1⟩
          · rw [if_neg hj]; exact he.meas j
        · intro j
          unfold Env.setMeas
          dsimp only
          by_cases hj : j = k
          · subst hj; rw [if_pos rfl]; exact he.measMake j
          · rw [if_neg hj]; exact he.measMake j
      refine ⟨ho, ?_, ?_⟩
      · intro x p dt hx
        refine hcorr _ x p z k dt ho hx hz.1 ?_
        unfold Env.setMeas
        simp only [if_true]
        exact hz.2.2
      · intro x p hx
        obtain ⟨s', h1, h2, h3⟩ := (hmc k).stationary _ x z (ho.meas k) (hQ _ _ hx) hz.1
        refine OptP.of_eq (a := (e.setMeas k { e.meas k with cov := c }).setMeas k s') ?_ ?_
        · show (((mc k).processStationary _ x z).map _) = _
          rw [h1]; rfl
        · have ho2 := ho.setMeas k h2 h3
          refine ⟨ho2, ?_⟩
          obtain ⟨x', c', k1, k2⟩ := ho2.measMake k x p hx
          exact OptP.of_eq k1 k2

end

/-- Well-formed calls are admissible for the invariant. -/
theorem Op.WellFormed.opOk {E : Type} {P : Plant T DVec DMat K E} (hv : P.vsize = DVec.size) {tot : Prop} {Q : DVec → DMat → Prop}
    {G : E → Prop} {m : Nat} {kd : K → Nat} {NM : DMat → Prop} {op : Op T DVec DMat K E}
    (h : op.WellFormed Q G m kd NM) :
    OpOk P tot Q G (fun u => u.size = m) (fun z c k => z.size = kd k ∧ c.Is (kd k) (kd k) ∧ NM c) op := by
  cases op with
  | init x c t => exact h
  | predictControl u t =>
    intro hu
    rw [hv] at hu
    rcases h with h | h
    · exact h
    · omega
  | enqueueControl u t =>
    intro hu
    rw [hv] at hu
    rcases h with h | h
    · exact h
    · omega
  | correct z c t mdl => exact h
  | enqueueMeasurement z c t mdl => exact h
  | userModel g =>
    intro e he
    obtain ⟨e', h1, h2⟩ := h e he
    exact OptP.of_eq h1 h2
  | predictTime t => trivial
  | processQueues => trivial
  | clearControlQueue => trivial
  | clearMeasurementQueue => trivial
  | revertToState t => trivial
  | setParams p => trivial

/-- Every trace of well-formed calls on a constructed filter. -/
theorem mkPlant_run [TimeOps T] [SaneTime T] {ds : Nat → Nat → DS → Prop} {dm : Nat → Nat → DM → Prop} {N : DMat → DMat → Prop}
    {Q : DVec → DMat → Prop} {n m : Nat} {kd : K → Nat}
    {tot : Prop} {sc : SysClass T DS XS} {mc : K → MeasClass T DM XM} {predict correct} {NC NM : DMat → Prop}
    (hinv : PlantInv (mkPlant sc mc predict correct) tot Q (Env.Ok ds dm N Q n m kd) (fun u => u.size = m)
      (fun R => R.Is m m ∧ NC R) (fun z c k => z.size = kd k ∧ c.Is (kd k) (kd k) ∧ NM c))
    (sort : List (FilterInput T DVec DMat K) → List (FilterInput T DVec DMat K)) (hsort : ∀ l, (sort l).Perm l)
    (params : Params T) (e : Env K DS XS DM XM) (he : e.Ok ds dm N Q n m kd) (x : DVec) (c : DMat) (t : T) (hx : Q x c)
    (ops : List (Op T DVec DMat K (Env K DS XS DM XM)))
    (hops : ∀ op ∈ ops, op.WellFormed Q (Env.Ok ds dm N Q n m kd) m kd NM) :
    OptP tot (fun g => (∀ s ∈ g.retained, Q s.x s.covariance) ∧ g.env.Ok ds dm N Q n m kd)
      ((Filter.construct (mkPlant sc mc predict correct) params e x c t).run (mkPlant sc mc predict correct) sort ops) := by
  unfold Filter.construct
  refine hinv.run sort hsort _ he ?_ x c t hx ops (fun op hop => (hops op hop).opOk rfl)
  intro h
  exact absurd h (by exact Nat.lt_irrefl 0)

end StateEstimation
