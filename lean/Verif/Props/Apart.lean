import Verif.Lemmas.Apart
import Verif.Props.Kalman
import Verif.Props.DataFree

/-!
# C98: unrelated subsystems do not influence each other

One filter may estimate two things that have nothing to do with each other.  What is on one side - estimates, noise, controls,
measurements, when the other side is measured and with what result - makes no difference to the other side.
-/

set_option linter.unusedSectionVars false

namespace StateEstimation
namespace Props

open Filter Examples

variable {T K X Y DS XS DM XM : Type} [DecidableEq K] [TimeOps T]

section
variable {n m : Nat} {kd : K → Nat} {ds : Nat → Nat → DS → Prop} {dm : Nat → Nat → DM → Prop} {p : Sides} {q : K → Nat → Bool}
  {DA : DS → DS → Prop} {DB : K → DM → DM → Prop}

private theorem setMeas_apart {e e' : Env K DS XS DM XM} (h : e.Apart p q DA DB e') (k : K) {a a' : Meas DM XM}
    (ha : a.Apart (q k) (DB k) a') (hf : a.fm.checkStationary = false) : (e.setMeas k a).Apart p q DA DB (e'.setMeas k a') := by
  refine ⟨h.sys, fun j => ?_, h.quiet, fun j => ?_⟩
  · unfold Env.setMeas
    dsimp only
    by_cases hj : j = k
    · subst hj; rw [if_pos rfl, if_pos rfl]; exact ha
    · rw [if_neg hj, if_neg hj]; exact h.meas j
  · unfold Env.setMeas
    dsimp only
    by_cases hj : j = k
    · rw [if_pos hj]; exact hf
    · rw [if_neg hj]; exact h.quietMeas j

/-- The relation between the two estimates. -/
private def RS (p : Sides) (n : Nat) (x : DVec) (c : DMat) (x' : DVec) (c' : DMat) : Prop :=
  EstimatePSD n x c ∧ EstimatePSD n x' c' ∧ AgreeOn p.states x x' ∧ ApartMat p.states p.states c c'

/-- The relation between the models. -/
private def RE (ds : Nat → Nat → DS → Prop) (dm : Nat → Nat → DM → Prop) (n m : Nat) (kd : K → Nat) (p : Sides) (q : K → Nat → Bool)
    (DA : DS → DS → Prop) (DB : K → DM → DM → Prop) (e e' : Env K DS XS DM XM) : Prop :=
  e.Ok ds dm NoisePSD (EstimatePSD n) n m kd ∧ e'.Ok ds dm NoisePSD (EstimatePSD n) n m kd ∧ e.Apart p q DA DB e'

private theorem step_rel {A B : Option (DVec × DMat × Env K DS XS DM XM)}
    (hA : OptP True (fun r => EstimatePSD n r.1 r.2.1 ∧ r.2.2.Ok ds dm NoisePSD (EstimatePSD n) n m kd) A)
    (hB : OptP True (fun r => EstimatePSD n r.1 r.2.1 ∧ r.2.2.Ok ds dm NoisePSD (EstimatePSD n) n m kd) B)
    (h : Both (StepApart p (Env.Apart p q DA DB)) A B) :
    OptRel True (fun r q' => RS p n r.1 r.2.1 q'.1 q'.2.1 ∧ RE ds dm n m kd p q DA DB r.2.2 q'.2.2) A B :=
  OptRel.mono (OptRel.of_both hA hB h) fun _ _ h => ⟨⟨h.1.1, h.2.1.1, h.2.2.1⟩, h.1.2, h.2.1.2, h.2.2.2⟩

private theorem mk_apart {sc : SysClass T DS XS} {mc : K → MeasClass T DM XM} {pr co}
    (hinv : PlantInv (mkPlant sc mc pr co) True (EstimatePSD n) (Env.Ok ds dm NoisePSD (EstimatePSD n) n m kd) (fun u => u.size = m)
      (fun R => R.Is m m ∧ R.PSD) (fun z c k => z.size = kd k ∧ c.Is (kd k) (kd k) ∧ c.PD))
    (hpr : ∀ (e e' : Env K DS XS DM XM) x x' c c' u u' (dt : T), e.Apart p q DA DB e' → AgreeOn p.states x x' →
      ApartMat p.states p.states c c' → AgreeOn p.controls u u' →
      Both (StepApart p (Env.Apart p q DA DB)) (pr e x c u dt) (pr e' x' c' u' dt))
    (hco : ∀ (e e' : Env K DS XS DM XM) x x' c c' z z' k (dt : T), e.Apart p q DA DB e' → AgreeOn p.states x x' →
      ApartMat p.states p.states c c' → AgreeOn (q k) z z' →
      Both (StepApart p (Env.Apart p q DA DB)) (co e x c z k dt) (co e' x' c' z' k dt)) :
    PlantRel (mkPlant sc mc pr co) (mkPlant sc mc pr co) True (RS p n) (RE ds dm n m kd p q DA DB)
      (fun u u' => u.size = m ∧ u'.size = m ∧ AgreeOn p.controls u u')
      (fun R R' => (R.Is m m ∧ R.PSD) ∧ (R'.Is m m ∧ R'.PSD) ∧ ApartMat p.controls p.controls R R')
      (fun z c z' c' k => (z.size = kd k ∧ c.Is (kd k) (kd k) ∧ c.PD) ∧ (z'.size = kd k ∧ c'.Is (kd k) (kd k) ∧ c'.PD) ∧
        AgreeOn (q k) z z' ∧ ApartMat (q k) (q k) c c') where
  empty := rfl
  empty' := rfl
  rc := fun e e' he => ⟨hinv.rc e he.1, hinv.rc e' he.2.1, he.2.2.sys.Rc⟩
  zero := by
    intro e e' he
    refine ⟨hinv.zero e he.1, hinv.zero e' he.2.1, ?_⟩
    show AgreeOn _ (DVec.zero e.sys.controlDims) (DVec.zero e'.sys.controlDims)
    rw [he.2.2.sys.controls]
    exact ⟨rfl, fun _ _ => rfl⟩
  setRc := by
    intro e e' c c' he hc
    refine OptRel.mono (OptRel.of_both (hinv.setRc e c he.1 hc.1) (hinv.setRc e' c' he.2.1 hc.2.1)
      (R := Env.Apart p q DA DB) ?_) fun _ _ h => h
    intro r r' hr hr'
    have hr : ((e.sys.setControlCovariance c).map fun s => { e with sys := s }) = some r := hr
    have hr' : ((e'.sys.setControlCovariance c').map fun s => { e' with sys := s }) = some r' := hr'
    unfold Sys.setControlCovariance at hr hr'
    split at hr
    · split at hr'
      · injection hr with hr; injection hr' with hr'
        subst hr; subst hr'
        have h := he.2.2
        exact ⟨⟨h.sys.fm, h.sys.controls, h.sys.ext, h.sys.Rp, hc.2.2, h.sys.P, h.sys.V, h.sys.der⟩, h.meas, h.quiet, h.quietMeas⟩
      · cases hr'
    · cases hr
  sysSt := by
    intro e e' x c x' c' d d' he _ _
    show (e.sys.fm.checkStationary && _) = (e'.sys.fm.checkStationary && _)
    rw [he.2.2.sys.fm, he.2.2.quiet]; rfl
  predict := by
    intro e e' x c x' c' u u' dt he hx hu
    exact step_rel (hinv.predict e x c u dt he.1 hx.1 hu.1) (hinv.predict e' x' c' u' dt he.2.1 hx.2.1 hu.2.1)
      (hpr e e' x x' c c' u u' dt he.2.2 hx.2.2.1 hx.2.2.2 hu.2.2)
  sysStationary := by
    intro e e' x c x' c' d d' he _ _ h
    have h : (e.sys.fm.checkStationary && _) = true := h
    rw [he.2.2.quiet] at h; cases h
  setMeasCov := by
    intro e e' k z c z' c' he hz
    have h1 := hinv.setMeasCov e k z c he.1 hz.1
    have h2 := hinv.setMeasCov e' k z' c' he.2.1 hz.2.1
    refine OptRel.mono (OptRel.of_both h1 h2 (R := Env.Apart p q DA DB) ?_) ?_
    · intro r r' hr hr'
      have hr : (((e.meas k).setCovariance c).map (e.setMeas k)) = some r := hr
      have hr' : (((e'.meas k).setCovariance c').map (e'.setMeas k)) = some r' := hr'
      unfold Meas.setCovariance at hr hr'
      split at hr
      · split at hr'
        · injection hr with hr; injection hr' with hr'
          subst hr; subst hr'
          have h := he.2.2.meas k
          exact setMeas_apart he.2.2 k ⟨h.fm, h.dims, h.ext, hz.2.2.2, h.der⟩ (he.2.2.quietMeas k)
        · cases hr'
      · cases hr
    · rintro r r' ⟨⟨o1, c1, _⟩, ⟨o2, c2, _⟩, ha⟩
      refine ⟨⟨o1, o2, ha⟩, ?_, ?_, ?_⟩
      · intro x c x' c' _
        show ((r.meas k).fm.checkStationary && _) = ((r'.meas k).fm.checkStationary && _)
        rw [(ha.meas k).fm, ha.quietMeas]; rfl
      · intro x c x' c' dt hx
        exact step_rel (c1 x c dt hx.1) (c2 x' c' dt hx.2.1) (hco r r' x x' c c' z z' k dt ha hx.2.2.1 hx.2.2.2 hz.2.2.1)
      · intro x c x' c' _ h
        have h : ((r.meas k).fm.checkStationary && _) = true := h
        rw [ha.quietMeas] at h; cases h

/-- Both runs complete; at every remembered moment and now, the states agree on the side looked at, the covariances do, and
there is no covariance between the sides; the times are the same. -/
def SameSide (p : Sides) {E : Type} (a b : Option (Filter T DVec DMat K E)) : Prop :=
  ∃ f g, a = some f ∧ b = some g ∧ AgreeOn p.states f.getState g.getState ∧
    ApartMat p.states p.states f.getCovariance g.getCovariance ∧ g.getStateTime = f.getStateTime ∧
    List.Forall₂ (fun s s' => s'.timestamp = s.timestamp ∧ AgreeOn p.states s.x s'.x ∧
      ApartMat p.states p.states s.covariance s'.covariance) f.retained g.retained

private theorem apart_run [SaneTime T] {P : Plant T DVec DMat K (Env K DS XS DM XM)} (hv : P.vsize = DVec.size)
    (h : PlantRel P P True (RS p n) (RE ds dm n m kd p q DA DB)
      (fun u u' => u.size = m ∧ u'.size = m ∧ AgreeOn p.controls u u')
      (fun R R' => (R.Is m m ∧ R.PSD) ∧ (R'.Is m m ∧ R'.PSD) ∧ ApartMat p.controls p.controls R R')
      (fun z c z' c' k => (z.size = kd k ∧ c.Is (kd k) (kd k) ∧ c.PD) ∧ (z'.size = kd k ∧ c'.Is (kd k) (kd k) ∧ c'.PD) ∧
        AgreeOn (q k) z z' ∧ ApartMat (q k) (q k) c c'))
    (sort : List (FilterInput T DVec DMat K) → List (FilterInput T DVec DMat K)) (hsort : SameSort sort sort)
    (params : Params T) (e e' : Env K DS XS DM XM) (he : e.Ok ds dm NoisePSD (EstimatePSD n) n m kd)
    (he' : e'.Ok ds dm NoisePSD (EstimatePSD n) n m kd) (hee : e.Apart p q DA DB e') (x x' : DVec) (c c' : DMat) (t : T)
    (hx : EstimatePSD n x c) (hx' : EstimatePSD n x' c') (hxx : AgreeOn p.states x x') (hcc : ApartMat p.states p.states c c')
    (ops ops' : List (Op T DVec DMat K (Env K DS XS DM XM)))
    (hops : ∀ op ∈ ops, op.WellFormed (EstimatePSD n) (Env.Ok ds dm NoisePSD (EstimatePSD n) n m kd) m kd DMat.PD)
    (hops' : ∀ op ∈ ops', op.WellFormed (EstimatePSD n) (Env.Ok ds dm NoisePSD (EstimatePSD n) n m kd) m kd DMat.PD)
    (hrel : List.Forall₂ (ApartCall p q (Env.Apart p q DA DB)) ops ops') :
    SameSide p ((construct P params e x c t).run P sort ops) ((construct P params e' x' c' t).run P sort ops') := by
  have hd : ∀ u u' : DVec, AgreeOn p.controls u u' → (u.size = m ∨ u.size = 0) →
      DataRel P P (fun u u' => u.size = m ∧ u'.size = m ∧ AgreeOn p.controls u u') u u' := by
    intro u u' h hu
    unfold DataRel
    rw [hv]
    rcases Nat.eq_zero_or_pos u.size with h0 | h0
    · exact Or.inr ⟨h0, h.1.trans h0⟩
    · have : u.size = m := by rcases hu with hu | hu <;> omega
      exact Or.inl ⟨h0, h.1.symm ▸ h0, this, h.1.trans this, h⟩
  have hmk : ∀ (op op' : Op T DVec DMat K (Env K DS XS DM XM)),
      op.WellFormed (EstimatePSD n) (Env.Ok ds dm NoisePSD (EstimatePSD n) n m kd) m kd DMat.PD →
      op'.WellFormed (EstimatePSD n) (Env.Ok ds dm NoisePSD (EstimatePSD n) n m kd) m kd DMat.PD →
      ApartCall p q (Env.Apart p q DA DB) op op' →
      OpRel P P True (RS p n) (RE ds dm n m kd p q DA DB)
      (fun u u' => u.size = m ∧ u'.size = m ∧ AgreeOn p.controls u u')
      (fun z c z' c' k => (z.size = kd k ∧ c.Is (kd k) (kd k) ∧ c.PD) ∧ (z'.size = kd k ∧ c'.Is (kd k) (kd k) ∧ c'.PD) ∧
        AgreeOn (q k) z z' ∧ ApartMat (q k) (q k) c c') op op' := by
    intro op op' w w' h
    cases op <;> cases op' <;> simp only [ApartCall] at h <;> simp only [OpRel] <;> simp only [Op.WellFormed] at w w'
    · exact ⟨h.2.2.symm, w, w', h.1, h.2.1⟩
    · exact h.symm
    · exact ⟨h.2.symm, hd _ _ h.1 w⟩
    · obtain ⟨rfl, rfl, h⟩ := h
      obtain ⟨k, hk, w⟩ := w
      obtain ⟨k', hk', w'⟩ := w'
      have : k' = k := by rw [hk] at hk'; injection hk' with hk'; exact hk'.symm
      subst this
      exact ⟨rfl, k', hk, hk, w, w', h k' hk⟩
    · exact ⟨h.2.symm, hd _ _ h.1 w⟩
    · obtain ⟨rfl, rfl, h⟩ := h
      obtain ⟨k, hk, w⟩ := w
      obtain ⟨k', hk', w'⟩ := w'
      have : k' = k := by rw [hk] at hk'; injection hk' with hk'; exact hk'.symm
      subst this
      exact ⟨rfl, k', hk, hk, w, w', h k' hk⟩
    · exact h.symm
    · exact h.symm
    · rintro e e' ⟨o1, o2, ha⟩
      obtain ⟨r, hr, wr⟩ := w e o1
      obtain ⟨r', hr', wr'⟩ := w' e' o2
      rw [hr, hr']
      exact ⟨wr, wr', h e e' r r' ha hr hr'⟩
  have hrel' : List.Forall₂ (OpRel P P True (RS p n) (RE ds dm n m kd p q DA DB)
      (fun u u' => u.size = m ∧ u'.size = m ∧ AgreeOn p.controls u u')
      (fun z c z' c' k => (z.size = kd k ∧ c.Is (kd k) (kd k) ∧ c.PD) ∧ (z'.size = kd k ∧ c'.Is (kd k) (kd k) ∧ c'.PD) ∧
        AgreeOn (q k) z z' ∧ ApartMat (q k) (q k) c c')) ops ops' := by
    clear * - hrel hops hops' hmk
    induction hrel with
    | nil => exact .nil
    | cons a _ ih =>
      exact .cons (hmk _ _ (hops _ (by simp)) (hops' _ (by simp)) a)
        (ih (fun o ho => hops o (by simp [ho])) (fun o ho => hops' o (by simp [ho])))
  have := h.run hsort
    { params := params
      state := { x := P.emptyV, covariance := P.emptyM, timestamp := TimeOps.zero, prevInput := FilterInput.default P }
      prevControl := P.emptyV, prevControlCov := P.emptyM, env := e, history := [], controlQueue := [], measQueue := [] }
    { params := params
      state := { x := P.emptyV, covariance := P.emptyM, timestamp := TimeOps.zero, prevInput := FilterInput.default P }
      prevControl := P.emptyV, prevControlCov := P.emptyM, env := e', history := [], controlQueue := [], measQueue := [] }
    rfl ⟨he, he', hee⟩ (Or.inr ⟨h.empty, h.empty⟩) x c x' c' t ⟨hx, hx', hxx, hcc⟩ hrel'
  have h1 : OptRel True _ ((construct P params e x c t).run P sort ops) ((construct P params e' x' c' t).run P sort ops') := this
  generalize (construct P params e x c t).run P sort ops = o1 at h1 ⊢
  generalize (construct P params e' x' c' t).run P sort ops' = o2 at h1 ⊢
  rcases OptRel.elim h1 with ⟨rfl, rfl, hn⟩ | ⟨f, g, rfl, rfl, _, _, _, h4⟩
  · exact False.elim (hn trivial)
  · have hs := (SimRel.forall₂_concat (l := f.history) (l' := g.history) h4).2
    exact ⟨f, g, rfl, rfl, hs.2.2.2.1, hs.2.2.2.2, hs.1.symm, h4.imp fun _ _ h => ⟨h.1.symm, h.2.2.2.1, h.2.2.2.2⟩⟩

end

private theorem fm_update {D : Type} {DA : D → D → Prop} {p : Sides} {sc : SysClass T D X} (h : sc.KeepsApart p DA) {s r : Sys D X}
    {x u : DVec} {dt : T} (hu : s.update sc x u dt = some r) : r.fm = s.fm := by
  unfold Sys.update at hu
  split at hu
  · exact h.fm _ _ _ _ _ hu
  · cases hu

private theorem mfm_update {D : Type} {DA : D → D → Prop} {p : Sides} {q : Nat → Bool} {mc : MeasClass T D Y} (h : mc.KeepsApart p q DA)
    {s r : Meas D Y} {x : DVec} {dt : T} (hu : s.update mc x dt = some r) : r.fm = s.fm := by
  unfold Meas.update at hu
  split at hu
  · exact h.fm _ _ _ _ hu
  · cases hu

section
variable [SaneTime T] {n m : Nat} {kd : K → Nat} {p : Sides} {q : K → Nat → Bool}
  (sort : List (FilterInput T DVec DMat K) → List (FilterInput T DVec DMat K)) (hsort : SameSort sort sort)
  (params : Params T) (x x' : DVec) (c c' : DMat) (t : T)
  (hx : EstimatePSD n x c) (hx' : EstimatePSD n x' c') (hxx : AgreeOn p.states x x') (hcc : ApartMat p.states p.states c c')
include hsort hx hx' hxx hcc

/-- **C98 (Kalman filter).**  Models, initial estimates, noises, controls and sensors that keep two sides apart.  Two runs that
have in common all calls, all times, and everything on the one side, and that differ arbitrarily on the other - in estimate,
covariance, noise, controls, measured values and their covariances (which only have to be positive definite): on the side they
have in common they give the same states and covariances, now and at every remembered moment, and never invent a correlation
between the sides. -/
theorem C98_kf {sc : SysClass T LinSysData X} {mc : K → MeasClass T LinMeasData Y}
    (hsc : SysContract LinSysData.Sized sc) (hmc : ∀ j, MeasContract LinMeasData.Sized (mc j))
    (ha : sc.KeepsApart p (LinSysData.Apart p)) (hb : ∀ k, (mc k).KeepsApart p (q k) (LinMeasData.Apart p (q k)))
    (e e' : Env K LinSysData X LinMeasData Y) (he : e.Ok LinSysData.Sized LinMeasData.Sized NoisePSD (EstimatePSD n) n m kd)
    (he' : e'.Ok LinSysData.Sized LinMeasData.Sized NoisePSD (EstimatePSD n) n m kd)
    (hee : e.Apart p q (LinSysData.Apart p) (fun k => LinMeasData.Apart p (q k)) e')
    (ops ops' : List (Op T DVec DMat K (Env K LinSysData X LinMeasData Y)))
    (hops : ∀ op ∈ ops, op.WellFormed (EstimatePSD n) (Env.Ok LinSysData.Sized LinMeasData.Sized NoisePSD (EstimatePSD n) n m kd) m kd DMat.PD)
    (hops' : ∀ op ∈ ops', op.WellFormed (EstimatePSD n) (Env.Ok LinSysData.Sized LinMeasData.Sized NoisePSD (EstimatePSD n) n m kd) m kd DMat.PD)
    (hrel : List.Forall₂ (ApartCall p q (Env.Apart p q (LinSysData.Apart p) fun k => LinMeasData.Apart p (q k))) ops ops') :
    SameSide p ((construct (kfPlant sc mc) params e x c t).run (kfPlant sc mc) sort ops)
      ((construct (kfPlant sc mc) params e' x' c' t).run (kfPlant sc mc) sort ops') := by
  refine apart_run rfl (mk_apart (kf_inv_psd hsc hmc kd) ?_ ?_) sort hsort params e e' he he' hee x x' c c' t hx hx' hxx hcc ops ops'
    hops hops' hrel
  · intro e e' x x' c c' u u' dt he hx hc hu
    refine kfPredict_apart ha he.sys hx hc hu dt fun r r' hr hr' hrr => ⟨hrr, he.meas, ?_, he.quietMeas⟩
    show r.fm.checkStationary = false
    rw [fm_update ha hr]; exact he.quiet
  · intro e e' x x' c c' z z' k dt he hx hc hz
    refine kfCorrect_apart ha.plain (hb k) (he.meas k) hx hc hz dt fun r r' hr hr' hrr => setMeas_apart he k hrr ?_
    rw [mfm_update (hb k) hr]; exact he.quietMeas k

/-- **C98 (EKF).**  For every nonlinear model that keeps the sides apart. -/
theorem C98_ekf {sc : SysClass T NonlinSysData X} {mc : K → MeasClass T NonlinMeasData Y}
    (hsc : SysContract NonlinSysData.Sized sc) (hmc : ∀ j, MeasContract NonlinMeasData.Sized (mc j))
    (ha : sc.KeepsApart p (NonlinSysData.Apart p)) (hb : ∀ k, (mc k).KeepsApart p (q k) (NonlinMeasData.Apart p (q k)))
    (e e' : Env K NonlinSysData X NonlinMeasData Y) (he : e.Ok NonlinSysData.Sized NonlinMeasData.Sized NoisePSD (EstimatePSD n) n m kd)
    (he' : e'.Ok NonlinSysData.Sized NonlinMeasData.Sized NoisePSD (EstimatePSD n) n m kd)
    (hee : e.Apart p q (NonlinSysData.Apart p) (fun k => NonlinMeasData.Apart p (q k)) e')
    (ops ops' : List (Op T DVec DMat K (Env K NonlinSysData X NonlinMeasData Y)))
    (hops : ∀ op ∈ ops, op.WellFormed (EstimatePSD n) (Env.Ok NonlinSysData.Sized NonlinMeasData.Sized NoisePSD (EstimatePSD n) n m kd) m kd DMat.PD)
    (hops' : ∀ op ∈ ops', op.WellFormed (EstimatePSD n) (Env.Ok NonlinSysData.Sized NonlinMeasData.Sized NoisePSD (EstimatePSD n) n m kd) m kd DMat.PD)
    (hrel : List.Forall₂ (ApartCall p q (Env.Apart p q (NonlinSysData.Apart p) fun k => NonlinMeasData.Apart p (q k))) ops ops') :
    SameSide p ((construct (ekfPlant sc mc) params e x c t).run (ekfPlant sc mc) sort ops)
      ((construct (ekfPlant sc mc) params e' x' c' t).run (ekfPlant sc mc) sort ops') := by
  refine apart_run rfl (mk_apart (ekf_inv_psd hsc hmc kd) ?_ ?_) sort hsort params e e' he he' hee x x' c c' t hx hx' hxx hcc ops ops'
    hops hops' hrel
  · intro e e' x x' c c' u u' dt he hx hc hu
    refine ekfPredict_apart ha he.sys hx hc hu dt fun r r' hr hr' hrr => ⟨hrr, he.meas, ?_, he.quietMeas⟩
    show r.fm.checkStationary = false
    rw [fm_update ha hr]; exact he.quiet
  · intro e e' x x' c c' z z' k dt he hx hc hz
    refine ekfCorrect_apart ha.plain (hb k) (he.meas k) hx hc hz dt fun r r' hr hr' hrr => setMeas_apart he k hrr ?_
    rw [mfm_update (hb k) hr]; exact he.quietMeas k

end

/-! ## The hypotheses are met

Two tanks: the level of the first leaks, that of the second grows; each has a pump and a gauge. -/

/-- `A = diag(1 - dt, 1 + dt)`, `B = V = dt I`, `P = I`. -/
noncomputable def tanksClass : SysClass ℝ LinSysData Unit :=
  SysClass.plain fun s _ _ dt =>
    if s.stateSize = 2 ∧ s.controlDims = 2 ∧ s.Rp.rows = 2 then
      some { s with der := ⟨.of !![1 - dt, 0; 0, 1 + dt], .of !![dt, 0; 0, dt]⟩
                    P := .identity 2
                    V := .of !![dt, 0; 0, dt] }
    else some s

/-- The gauge of the first tank (`true`) reads `x₀`, that of the second `x₁`. -/
noncomputable def gaugeClass (first : Bool) : MeasClass ℝ LinMeasData Unit :=
  MeasClass.plain fun s _ _ =>
    if s.stateSize = 2 ∧ s.measDims = 1 then some { s with der := ⟨.of (if first then !![1, 0] else !![0, 1])⟩ } else some s

/-- State 0, pump 0 and noise 0 belong to the first tank. -/
def tankSides : Sides := ⟨fun i => i == 0, fun i => i == 0, fun i => i == 0⟩

private theorem diag_apart (a b : ℝ) : ApartMat tankSides.states tankSides.states (.of !![a, 0; 0, b]) (.of !![a, 0; 0, b]) := by
  rw [apart_of]
  refine ⟨fun i j hij => ?_, fun _ _ _ _ => rfl⟩
  fin_cases i <;> fin_cases j <;> first | exact ⟨rfl, rfl⟩ | exact absurd rfl hij

theorem tanks_apart : tanksClass.KeepsApart tankSides (LinSysData.Apart tankSides) where
  plain := plain_ops _
  update := by
    intro s s' x x' u u' dt r r' h _ _ hr hr'
    change (if s.stateSize = 2 ∧ s.controlDims = 2 ∧ s.Rp.rows = 2 then _ else some s) = some r at hr
    change (if s'.stateSize = 2 ∧ s'.controlDims = 2 ∧ s'.Rp.rows = 2 then _ else some s') = some r' at hr'
    have e : (s'.stateSize = 2 ∧ s'.controlDims = 2 ∧ s'.Rp.rows = 2) = (s.stateSize = 2 ∧ s.controlDims = 2 ∧ s.Rp.rows = 2) := by
      unfold Sys.stateSize
      rw [h.fm, h.controls, h.Rp.rows]
    by_cases hs : s.stateSize = 2 ∧ s.controlDims = 2 ∧ s.Rp.rows = 2
    · rw [if_pos hs] at hr
      rw [if_pos (e ▸ hs)] at hr'
      injection hr with hr; injection hr' with hr'
      subst hr; subst hr'
      exact ⟨h.fm, h.controls, h.ext, h.Rp, h.Rc, ApartMat.identity 2, diag_apart dt dt, diag_apart _ _, diag_apart dt dt⟩
    · rw [if_neg hs] at hr
      rw [if_neg (e ▸ hs)] at hr'
      injection hr with hr; injection hr' with hr'
      subst hr; subst hr'
      exact h
  fm := by
    intro s x u dt r hr
    change (if s.stateSize = 2 ∧ s.controlDims = 2 ∧ s.Rp.rows = 2 then _ else some s) = some r at hr
    split at hr <;> (injection hr with hr; subst hr; rfl)

theorem gauge_apart (first : Bool) : (gaugeClass first).KeepsApart tankSides (fun _ => first) (LinMeasData.Apart tankSides fun _ => first) where
  plain := plain_mops _
  update := by
    intro s s' x x' dt r r' h _ hr hr'
    change (if s.stateSize = 2 ∧ s.measDims = 1 then _ else some s) = some r at hr
    change (if s'.stateSize = 2 ∧ s'.measDims = 1 then _ else some s') = some r' at hr'
    have e : (s'.stateSize = 2 ∧ s'.measDims = 1) = (s.stateSize = 2 ∧ s.measDims = 1) := by
      unfold Meas.stateSize
      rw [h.fm, h.dims]
    by_cases hs : s.stateSize = 2 ∧ s.measDims = 1
    · rw [if_pos hs] at hr
      rw [if_pos (e ▸ hs)] at hr'
      injection hr with hr; injection hr' with hr'
      subst hr; subst hr'
      refine ⟨h.fm, h.dims, h.ext, h.cov, ?_⟩
      show ApartMat _ _ (.of _) (.of _)
      rw [apart_of]
      refine ⟨fun i j hij => ?_, fun _ _ _ _ => rfl⟩
      cases first <;> fin_cases i <;> fin_cases j <;> first | exact ⟨rfl, rfl⟩ | exact absurd rfl hij
    · rw [if_neg hs] at hr
      rw [if_neg (e ▸ hs)] at hr'
      injection hr with hr; injection hr' with hr'
      subst hr; subst hr'
      exact h
  fm := by
    intro s x dt r hr
    change (if s.stateSize = 2 ∧ s.measDims = 1 then _ else some s) = some r at hr
    split at hr <;> (injection hr with hr; subst hr; rfl)

theorem tanks_contract : SysContract LinSysData.Sized tanksClass := by
  apply plain_contract
  intro n m s x u dt hs hx hu
  split
  next h =>
    obtain ⟨h1, h2, h3⟩ := h
    have hn : n = 2 := by rw [← hs.states]; exact h1
    have hm : m = 2 := by rw [← hs.controls]; exact h2
    subst hn hm
    exact ⟨_, rfl, ⟨hs.states, hs.controls, ⟨⟨rfl, rfl⟩, rfl, rfl⟩, ⟨rfl, h3.symm⟩, hs.Rp, ⟨rfl, rfl⟩, hs.Rc⟩,
      ⟨rfl, rfl, rfl, rfl, rfl⟩⟩
  next => exact ⟨s, rfl, hs, Sys.SameConfig.refl s⟩

theorem gauge_contract (first : Bool) : MeasContract LinMeasData.Sized (gaugeClass first) := by
  apply plain_mcontract
  intro n k s x dt hs hx
  split
  next h =>
    have hn : n = 2 := by rw [← hs.states]; exact h.1
    have hk : k = 1 := by rw [← hs.meas]; exact h.2
    subst hn hk
    exact ⟨_, rfl, ⟨hs.states, hs.meas, ⟨rfl, rfl⟩, hs.cov⟩, ⟨rfl, rfl, rfl, rfl⟩⟩
  next => exact ⟨s, rfl, hs, Meas.SameConfig.refl s⟩

/-- Freshly constructed models; the second tank's process noise is set to `r`. -/
noncomputable def tanksEnv (r : ℝ) : Env Bool LinSysData Unit LinMeasData Unit :=
  { sys := { Sys.constructLinear 2 2 2 () with Rp := .of !![1, 0; 0, r] }, meas := fun _ => Meas.constructLinear 2 1 () }

/-- The models of two runs with different noise in the second tank. -/
example (r r' : ℝ) : (tanksEnv r).Apart tankSides (fun k _ => k) (LinSysData.Apart tankSides)
    (fun k => LinMeasData.Apart tankSides fun _ => k) (tanksEnv r') := by
  have hz : ∀ (a b : Nat → Bool) (m n : Nat), ApartMat a b (.zero m n) (.zero m n) := by
    intro a b m n
    rw [DMat.zero_of, apart_of]
    exact ⟨fun _ _ _ => ⟨rfl, rfl⟩, fun _ _ _ _ => rfl⟩
  have hR : ApartMat tankSides.noises tankSides.noises (.of !![1, 0; 0, r]) (.of !![1, 0; 0, r']) := by
    rw [apart_of]
    refine ⟨fun i j hij => ?_, fun i j hi hj => ?_⟩
    · fin_cases i <;> fin_cases j <;> first | exact ⟨rfl, rfl⟩ | exact absurd rfl hij
    · fin_cases i <;> fin_cases j <;> first | rfl | cases hi | cases hj
  exact ⟨⟨rfl, rfl, rfl, hR, hz _ _ _ _, hz _ _ _ _, hz _ _ _ _, hz _ _ _ _, hz _ _ _ _⟩,
    fun k => ⟨rfl, rfl, rfl, hz _ _ _ _, hz _ _ _ _⟩, rfl, fun _ => rfl⟩

/-- Two runs: different pumping and different readings in the second tank. -/
example (u v w z z' : ℝ) (R : DMat) (EA) :
    List.Forall₂ (ApartCall (T := ℝ) (K := Bool) (DS := LinSysData) (XS := Unit) (DM := LinMeasData) (XM := Unit) tankSides (fun k _ => k) EA)
    [.predictControl (.of ![u, v]) 1, .correct (.of ![z]) (.identity 1) 2 (some false), .correct (.of ![z]) (.identity 1) 1 (some true)]
    [.predictControl (.of ![u, w]) 1, .correct (.of ![z']) (.of !![5]) 2 (some false), .correct (.of ![z]) (.identity 1) 1 (some true)] := by
  refine .cons ⟨?_, rfl⟩ (.cons ⟨rfl, rfl, ?_⟩ (.cons ⟨rfl, rfl, ?_⟩ .nil))
  · rw [agree_of]
    intro i hi
    fin_cases i
    · rfl
    · cases hi
  · intro k hk
    injection hk with hk
    subst hk
    refine ⟨agree_of.mpr fun i hi => ?_, apart_of.mpr ⟨fun i j hij => absurd rfl hij, fun i j hi => ?_⟩⟩
    · cases hi
    · cases hi
  · intro k hk
    injection hk with hk
    subst hk
    exact ⟨agree_of.mpr fun _ _ => rfl, ApartMat.identity 1⟩

end Props
end StateEstimation
