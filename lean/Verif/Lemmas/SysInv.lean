import Verif.Lemmas.Numeric

/-! # `mkPlant_inv` with an additional invariant of the system model object -/

set_option linter.unusedSectionVars false

namespace StateEstimation

variable {T K DS XS DM XM : Type} [DecidableEq K]
variable {ds : Nat → Nat → DS → Prop} {dm : Nat → Nat → DM → Prop} {N : DMat → DMat → Prop}
  {Q : DVec → DMat → Prop} {n m : Nat} {kd : K → Nat}

theorem mkPlant_inv_sys {tot : Prop} {sc : SysClass T DS XS} {mc : K → MeasClass T DM XM} {A : Sys DS XS → Prop}
    (hA1 : ∀ s c, A s → A { s with Rc := c }) (hA2 : ∀ s x d s', A s → sc.processStationary s x d = some s' → A s')
    {predict correct} {NC NM : DMat → Prop}
    (hsc : SysContract ds sc) (hmc : ∀ k, MeasContract dm (mc k))
    (hQ : ∀ x c, Q x c → x.size = n)
    (hN1 : ∀ Rp Rc Rc', N Rp Rc → NC Rc' → N Rp Rc') (hN2 : ∀ Rp Rc, N Rp Rc → NC Rc)
    (hpred : ∀ (e : Env K DS XS DM XM) x c u (dt : T), e.Ok ds dm N Q n m kd → A e.sys → Q x c → u.size = m →
      OptP tot (fun r => Q r.1 r.2.1 ∧ r.2.2.Ok ds dm N Q n m kd ∧ A r.2.2.sys) (predict e x c u dt))
    (hcorr : ∀ (e : Env K DS XS DM XM) x c z k (dt : T), e.Ok ds dm N Q n m kd → A e.sys → Q x c → z.size = kd k →
      NM (e.meas k).cov → OptP tot (fun r => Q r.1 r.2.1 ∧ r.2.2.Ok ds dm N Q n m kd ∧ A r.2.2.sys) (correct e x c z k dt)) :
    PlantInv (mkPlant sc mc predict correct) tot Q (fun e => Env.Ok ds dm N Q n m kd e ∧ A e.sys) (fun u => u.size = m)
      (fun R => R.Is m m ∧ NC R) (fun z c k => z.size = kd k ∧ c.Is (kd k) (kd k) ∧ NM c) where
  empty := rfl
  rc e he := ⟨he.1.sys.Rc, hN2 _ _ he.1.noise⟩
  zero e he := he.1.sys.controls
  setRc e c he hc := by
    obtain ⟨he, ha⟩ := he
    refine OptP.of_eq (a := { e with sys := { e.sys with Rc := c } }) ?_ ?_
    · show ((e.sys.setControlCovariance c).map _) = _
      unfold Sys.setControlCovariance
      rw [if_pos (by rw [he.sys.controls]; exact hc.1)]; rfl
    · exact ⟨⟨⟨he.sys.states, he.sys.controls, he.sys.der, he.sys.P, he.sys.Rp, he.sys.V, hc.1⟩,
        hN1 _ _ _ he.noise hc.2, he.sysMake, he.meas, he.measMake⟩, hA1 _ _ ha⟩
  predict e x c u dt he hx hu := hpred e x c u dt he.1 he.2 hx hu
  sysStationary e x c d he hx hd := by
    obtain ⟨he, ha⟩ := he
    have hd' : d.size = m ∨ d.size = 0 := by
      rcases Nat.eq_zero_or_pos d.size with h | h
      · exact Or.inr h
      · exact Or.inl (hd h)
    obtain ⟨s', h1, h2, h3⟩ := hsc.stationary e.sys x d he.sys (hQ _ _ hx) hd'
    refine OptP.of_eq (a := { e with sys := s' }) ?_ ?_
    · show ((sc.processStationary e.sys x d).map _) = _
      rw [h1]; rfl
    · have ho := he.setSys h2 h3
      refine ⟨⟨ho, hA2 _ _ _ _ ha h1⟩, ?_⟩
      obtain ⟨x', c', k1, k2⟩ := ho.sysMake x c hx
      exact OptP.of_eq k1 k2
  setMeasCov e k z c he hz := by
    obtain ⟨he, ha⟩ := he
    refine OptP.of_eq (a := e.setMeas k { e.meas k with cov := c }) ?_ ?_
    · show (((e.meas k).setCovariance c).map _) = _
      unfold Meas.setCovariance
      rw [if_pos (by rw [(he.meas k).meas]; exact hz.2.1)]; rfl
    · have ho : (e.setMeas k { e.meas k with cov := c }).Ok ds dm N Q n m kd := by
        refine ⟨he.sys, he.noise, he.sysMake, ?_, ?_⟩
        · intro j
          unfold Env.setMeas
          dsimp only
          by_cases hj : j = k
          · subst hj; rw [if_pos rfl]
            exact ⟨(he.meas j).states, (he.meas j).meas, (he.meas j).der, hz.2.1⟩
          · rw [if_neg hj]; exact he.meas j
        · intro j
          unfold Env.setMeas
          dsimp only
          by_cases hj : j = k
          · subst hj; rw [if_pos rfl]; exact he.measMake j
          · rw [if_neg hj]; exact he.measMake j
      refine ⟨⟨ho, ha⟩, ?_, ?_⟩
      · intro x p dt hx
        refine hcorr _ x p z k dt ho ha hx hz.1 ?_
        unfold Env.setMeas
        simp only [if_true]
        exact hz.2.2
      · intro x p hx
        obtain ⟨s', h1, h2, h3⟩ := (hmc k).stationary _ x z (ho.meas k) (hQ _ _ hx) hz.1
        refine OptP.of_eq (a := (e.setMeas k { e.meas k with cov := c }).setMeas k s') ?_ ?_
        · show (((mc k).processStationary _ x z).map _) = _
          rw [h1]; rfl
        · have ho2 := ho.setMeas k h2 h3
          refine ⟨⟨ho2, ha⟩, ?_⟩
          obtain ⟨x', c', k1, k2⟩ := ho2.measMake k x p hx
          exact OptP.of_eq k1 k2

/-- `mkPlant_inv` with additional invariants of the system model and of the sensor models. -/
theorem mkPlant_inv_objs {tot : Prop} {sc : SysClass T DS XS} {mc : K → MeasClass T DM XM} {A : Sys DS XS → Prop}
    {B : K → Meas DM XM → Prop} (hB1 : ∀ k s c, B k s → B k { s with cov := c })
    (hB2 : ∀ k s x d s', B k s → (mc k).processStationary s x d = some s' → B k s')
    (hA1 : ∀ s c, A s → A { s with Rc := c }) (hA2 : ∀ s x d s', A s → sc.processStationary s x d = some s' → A s')
    {predict correct} {NC NM : DMat → Prop}
    (hsc : SysContract ds sc) (hmc : ∀ k, MeasContract dm (mc k))
    (hQ : ∀ x c, Q x c → x.size = n)
    (hN1 : ∀ Rp Rc Rc', N Rp Rc → NC Rc' → N Rp Rc') (hN2 : ∀ Rp Rc, N Rp Rc → NC Rc)
    (hpred : ∀ (e : Env K DS XS DM XM) x c u (dt : T), e.Ok ds dm N Q n m kd → A e.sys → (∀ k, B k (e.meas k)) → Q x c → u.size = m →
      OptP tot (fun r => Q r.1 r.2.1 ∧ r.2.2.Ok ds dm N Q n m kd ∧ A r.2.2.sys ∧ ∀ k, B k (r.2.2.meas k)) (predict e x c u dt))
    (hcorr : ∀ (e : Env K DS XS DM XM) x c z k (dt : T), e.Ok ds dm N Q n m kd → A e.sys → (∀ k, B k (e.meas k)) → Q x c → z.size = kd k →
      NM (e.meas k).cov → OptP tot (fun r => Q r.1 r.2.1 ∧ r.2.2.Ok ds dm N Q n m kd ∧ A r.2.2.sys ∧ ∀ k, B k (r.2.2.meas k)) (correct e x c z k dt)) :
    PlantInv (mkPlant sc mc predict correct) tot Q (fun e => Env.Ok ds dm N Q n m kd e ∧ A e.sys ∧ ∀ k, B k (e.meas k)) (fun u => u.size = m)
      (fun R => R.Is m m ∧ NC R) (fun z c k => z.size = kd k ∧ c.Is (kd k) (kd k) ∧ NM c) where
  empty := rfl
  rc e he := ⟨he.1.sys.Rc, hN2 _ _ he.1.noise⟩
  zero e he := he.1.sys.controls
  setRc e c he hc := by
    obtain ⟨he, ha, hb⟩ := he
    refine OptP.of_eq (a := { e with sys := { e.sys with Rc := c } }) ?_ ?_
    · show ((e.sys.setControlCovariance c).map _) = _
      unfold Sys.setControlCovariance
      rw [if_pos (by rw [he.sys.controls]; exact hc.1)]; rfl
    · exact ⟨⟨⟨he.sys.states, he.sys.controls, he.sys.der, he.sys.P, he.sys.Rp, he.sys.V, hc.1⟩,
        hN1 _ _ _ he.noise hc.2, he.sysMake, he.meas, he.measMake⟩, hA1 _ _ ha, hb⟩
  predict e x c u dt he hx hu := hpred e x c u dt he.1 he.2.1 he.2.2 hx hu
  sysStationary e x c d he hx hd := by
    obtain ⟨he, ha, hb⟩ := he
    have hd' : d.size = m ∨ d.size = 0 := by
      rcases Nat.eq_zero_or_pos d.size with h | h
      · exact Or.inr h
      · exact Or.inl (hd h)
    obtain ⟨s', h1, h2, h3⟩ := hsc.stationary e.sys x d he.sys (hQ _ _ hx) hd'
    refine OptP.of_eq (a := { e with sys := s' }) ?_ ?_
    · show ((sc.processStationary e.sys x d).map _) = _
      rw [h1]; rfl
    · have ho := he.setSys h2 h3
      refine ⟨⟨ho, hA2 _ _ _ _ ha h1, hb⟩, ?_⟩
      obtain ⟨x', c', k1, k2⟩ := ho.sysMake x c hx
      exact OptP.of_eq k1 k2
  setMeasCov e k z c he hz := by
    obtain ⟨he, ha, hb⟩ := he
    refine OptP.of_eq (a := e.setMeas k { e.meas k with cov := c }) ?_ ?_
    · show (((e.meas k).setCovariance c).map _) = _
      unfold Meas.setCovariance
      rw [if_pos (by rw [(he.meas k).meas]; exact hz.2.1)]; rfl
    · have ho : (e.setMeas k { e.meas k with cov := c }).Ok ds dm N Q n m kd := by
        refine ⟨he.sys, he.noise, he.sysMake, ?_, ?_⟩
        · intro j
          unfold Env.setMeas
          dsimp only
          by_cases hj : j = k
          · subst hj; rw [if_pos rfl]
            exact ⟨(he.meas j).states, (he.meas j).meas, (he.meas j).der, hz.2.1⟩
          · rw [if_neg hj]; exact he.meas j
        · intro j
          unfold Env.setMeas
          dsimp only
          by_cases hj : j = k
          · subst hj; rw [if_pos rfl]; exact he.measMake j
          · rw [if_neg hj]; exact he.measMake j
      have hb1 : ∀ j, B j ((e.setMeas k { e.meas k with cov := c }).meas j) := by
        intro j
        unfold Env.setMeas
        dsimp only
        by_cases hj : j = k
        · subst hj; rw [if_pos rfl]; exact hB1 _ _ _ (hb j)
        · rw [if_neg hj]; exact hb j
      refine ⟨⟨ho, ha, hb1⟩, ?_, ?_⟩
      · intro x p dt hx
        refine hcorr _ x p z k dt ho ha hb1 hx hz.1 ?_
        unfold Env.setMeas
        simp only [if_true]
        exact hz.2.2
      · intro x p hx
        obtain ⟨s', h1, h2, h3⟩ := (hmc k).stationary _ x z (ho.meas k) (hQ _ _ hx) hz.1
        refine OptP.of_eq (a := (e.setMeas k { e.meas k with cov := c }).setMeas k s') ?_ ?_
        · show (((mc k).processStationary _ x z).map _) = _
          rw [h1]; rfl
        · have ho2 := ho.setMeas k h2 h3
          refine ⟨⟨ho2, ha, fun j => ?_⟩, ?_⟩
          · show B j (if j = k then s' else _)
            by_cases hj : j = k
            · subst hj; rw [if_pos rfl]; exact hB2 _ _ _ _ _ (hb1 j) h1
            · rw [if_neg hj]; exact hb1 j
          obtain ⟨x', c', k1, k2⟩ := ho2.measMake k x p hx
          exact OptP.of_eq k1 k2

/-- Every trace of well-formed calls on a constructed filter, with any invariant of the models. -/
theorem mkPlant_run_inv [TimeOps T] [SaneTime T]
    {tot : Prop} {sc : SysClass T DS XS} {mc : K → MeasClass T DM XM} {predict correct} {NC NM : DMat → Prop}
    {Ge : Env K DS XS DM XM → Prop}
    (hinv : PlantInv (mkPlant sc mc predict correct) tot Q Ge (fun u => u.size = m)
      (fun R => R.Is m m ∧ NC R) (fun z c k => z.size = kd k ∧ c.Is (kd k) (kd k) ∧ NM c))
    (sort : List (FilterInput T DVec DMat K) → List (FilterInput T DVec DMat K)) (hsort : ∀ l, (sort l).Perm l)
    (params : Params T) (e : Env K DS XS DM XM) (he : Ge e) (x : DVec) (c : DMat) (t : T) (hx : Q x c)
    (ops : List (Op T DVec DMat K (Env K DS XS DM XM)))
    (hops : ∀ op ∈ ops, op.WellFormed Q Ge m kd NM) :
    OptP tot (fun g => (∀ s ∈ g.retained, Q s.x s.covariance) ∧ Ge g.env)
      ((Filter.construct (mkPlant sc mc predict correct) params e x c t).run (mkPlant sc mc predict correct) sort ops) := by
  unfold Filter.construct
  refine hinv.run sort hsort _ he ?_ x c t hx ops (fun op hop => (hops op hop).opOk rfl)
  intro h
  exact absurd h (by exact Nat.lt_irrefl 0)

end StateEstimation
