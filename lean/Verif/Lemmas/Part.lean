import Verif.Spec.Part
import Verif.Lemmas.Apart
import Verif.Lemmas.VSInv

/-!
# Simulation between a filter and the filter of some of its states
-/

set_option linter.unusedSectionVars false

namespace StateEstimation

open Matrix Filter Kalman

variable {T K X X' Y Y' DS XS XS' DM XM XM' : Type} [DecidableEq K] [TimeOps T]
variable {n ns m ms : Nat} {kd ks : K → Nat} {ds : Nat → Nat → DS → Prop} {dm : Nat → Nat → DM → Prop}
  {σ : Fin ns → Fin n} {τ : Fin ms → Fin m} {ρ : ∀ k, Fin (ks k) → Fin (kd k)}
  {DA : DS → DS → Prop} {DB : K → DM → DM → Prop} {N : DMat → DMat → Prop} {Q Q' : DVec → DMat → Prop}

theorem vecPart_of {v : Fin n → ℝ} {x' : DVec} : VecPart σ (.of v) x' ↔ x' = .of (v ∘ σ) := by
  constructor
  · rintro ⟨w, h, rfl⟩
    rw [DVec.of_inj.mp h]
  · rintro rfl; exact ⟨v, rfl, rfl⟩

theorem matPart_of {r c k l : Nat} {σ : Fin k → Fin r} {τ : Fin l → Fin c} {M : Matrix (Fin r) (Fin c) ℝ} {A' : DMat} :
    MatPart σ τ (.of M) A' ↔ A' = .of (M.submatrix σ τ) := by
  constructor
  · rintro ⟨w, h, rfl⟩
    rw [DMat.of_inj.mp h]
  · rintro rfl; exact ⟨M, rfl, rfl⟩

/-- Related results of one step. -/
def Part.Step (σ : Fin ns → Fin n) (τ : Fin ms → Fin m) (ρ : ∀ k, Fin (ks k) → Fin (kd k)) (DA : DS → DS → Prop)
    (DB : K → DM → DM → Prop) (r : DVec × DMat × Env K DS XS DM XM) (q : DVec × DMat × Env K DS XS' DM XM') : Prop :=
  VecPart σ r.1 q.1 ∧ MatPart σ σ r.2.1 q.2.1 ∧ r.2.2.Part σ τ ρ DA DB q.2.2

theorem Part.sys {e : Env K DS XS DM XM} {e' : Env K DS XS' DM XM'} (h : e.Part σ τ ρ DA DB e') {s : Sys DS XS} {s' : Sys DS XS'}
    (h1 : e.sys.SameConfig s) (h2 : e'.sys.SameConfig s') (hs : s.Part σ τ DA s') :
    ({ e with sys := s } : Env K DS XS DM XM).Part σ τ ρ DA DB { e' with sys := s' } where
  states := by
    show Selects s.fm.activeStates σ
    rw [h1.fm]; exact h.states
  controls := by
    show Selects s.activeControls τ
    rw [h1.activeControls]; exact h.controls
  measured := h.measured
  sys := hs
  meas := h.meas
  quiet := ⟨by show s.fm.checkStationary = false; rw [h1.fm]; exact h.quiet.1, h.quiet.2⟩
  quiet' := ⟨by show s'.fm.checkStationary = false; rw [h2.fm]; exact h.quiet'.1, h.quiet'.2⟩

theorem Part.meas {e : Env K DS XS DM XM} {e' : Env K DS XS' DM XM'} (h : e.Part σ τ ρ DA DB e') (k : K) {s : Meas DM XM}
    {s' : Meas DM XM'} (h1 : s.fm = (e.meas k).fm) (h1' : s.activeMeasurements = (e.meas k).activeMeasurements)
    (h2 : s'.fm = (e'.meas k).fm) (hs : s.Part (ρ k) (DB k) s') :
    (e.setMeas k s).Part σ τ ρ DA DB (e'.setMeas k s') where
  states := h.states
  controls := h.controls
  measured := fun j => by
    unfold Env.setMeas
    dsimp only
    by_cases hj : j = k
    · subst hj; rw [if_pos rfl, h1']; exact h.measured j
    · rw [if_neg hj]; exact h.measured j
  sys := h.sys
  meas := fun j => by
    unfold Env.setMeas
    dsimp only
    by_cases hj : j = k
    · subst hj; rw [if_pos rfl, if_pos rfl]; exact hs
    · rw [if_neg hj, if_neg hj]; exact h.meas j
  quiet := ⟨h.quiet.1, fun j => by
    unfold Env.setMeas
    dsimp only
    by_cases hj : j = k
    · subst hj; rw [if_pos rfl, h1]; exact h.quiet.2 j
    · rw [if_neg hj]; exact h.quiet.2 j⟩
  quiet' := ⟨h.quiet'.1, fun j => by
    unfold Env.setMeas
    dsimp only
    by_cases hj : j = k
    · subst hj; rw [if_pos rfl, h2]; exact h.quiet'.2 j
    · rw [if_neg hj]; exact h.quiet'.2 j⟩

theorem Env.Part.selecting {e : Env K DS XS DM XM} {e' : Env K DS XS' DM XM'} (h : e.Part σ τ ρ DA DB e') : e.Selecting σ m kd :=
  ⟨h.states, ⟨ms, τ, h.controls⟩, fun k => ⟨ks k, ρ k, h.measured k⟩⟩

/-- The relation between the two estimates. -/
def Part.RS (Q Q' : DVec → DMat → Prop) (σ : Fin ns → Fin n) (x : DVec) (c : DMat) (x' : DVec) (c' : DMat) : Prop :=
  Q x c ∧ Q' x' c' ∧ VecPart σ x x' ∧ MatPart σ σ c c'

/-- The relation between the models. -/
def Part.RE (N : DMat → DMat → Prop) (Q Q' : DVec → DMat → Prop) (ds : Nat → Nat → DS → Prop) (dm : Nat → Nat → DM → Prop)
    (σ : Fin ns → Fin n) (τ : Fin ms → Fin m)
    (ρ : ∀ k, Fin (ks k) → Fin (kd k)) (DA : DS → DS → Prop) (DB : K → DM → DM → Prop) (e : Env K DS XS DM XM)
    (e' : Env K DS XS' DM XM') : Prop :=
  (e.Ok ds dm N Q n m kd ∧ e.Selecting σ m kd) ∧ e'.Ok ds dm N Q' ns ms ks ∧ e.Part σ τ ρ DA DB e'

def Part.RU (τ : Fin ms → Fin m) (u u' : DVec) : Prop := u.size = m ∧ u'.size = ms ∧ VecPart τ u u'

def Part.RR (τ : Fin ms → Fin m) (R R' : DMat) : Prop := (R.Is m m ∧ R.PSD) ∧ (R'.Is ms ms ∧ R'.PSD) ∧ MatPart τ τ R R'

def Part.RZ (ρ : ∀ k, Fin (ks k) → Fin (kd k)) (z : DVec) (c : DMat) (z' : DVec) (c' : DMat) (k : K) : Prop :=
  (z.size = kd k ∧ c.Is (kd k) (kd k) ∧ c.PD) ∧ (z'.size = ks k ∧ c'.Is (ks k) (ks k) ∧ c'.PD) ∧
    VecPart (ρ k) z z' ∧ MatPart (ρ k) (ρ k) c c'

theorem Part.step_rel {A : Option (DVec × DMat × Env K DS XS DM XM)} {B : Option (DVec × DMat × Env K DS XS' DM XM')}
    (hA : OptP True (fun r => Q r.1 r.2.1 ∧ r.2.2.Ok ds dm N Q n m kd ∧ r.2.2.Selecting σ m kd) A)
    (hB : OptP True (fun r => Q' r.1 r.2.1 ∧ r.2.2.Ok ds dm N Q' ns ms ks) B)
    (h : Both (Part.Step σ τ ρ DA DB) A B) :
    OptRel True (fun r q' => Part.RS Q Q' σ r.1 r.2.1 q'.1 q'.2.1 ∧ Part.RE N Q Q' ds dm σ τ ρ DA DB r.2.2 q'.2.2) A B :=
  OptRel.mono (OptRel.of_both hA hB h) fun _ _ h => ⟨⟨h.1.1, h.2.1.1, h.2.2.1, h.2.2.2.1⟩, h.1.2, h.2.1.2, h.2.2.2.2⟩

theorem Part.mk {sc : SysClass T DS XS} {mc : K → MeasClass T DM XM} {pr co} {sc' : SysClass T DS XS'}
    {mc' : K → MeasClass T DM XM'} {pr' co'}
    (hinv : PlantInv (mkPlant sc mc pr co) True Q
      (fun e => Env.Ok ds dm N Q n m kd e ∧ e.Selecting σ m kd) (fun u => u.size = m)
      (fun R => R.Is m m ∧ R.PSD) (fun z c k => z.size = kd k ∧ c.Is (kd k) (kd k) ∧ c.PD))
    (hinv' : PlantInv (mkPlant sc' mc' pr' co') True Q'
      (Env.Ok ds dm N Q' ns ms ks) (fun u => u.size = ms)
      (fun R => R.Is ms ms ∧ R.PSD) (fun z c k => z.size = ks k ∧ c.Is (ks k) (ks k) ∧ c.PD))
    (hpr : ∀ (e : Env K DS XS DM XM) (e' : Env K DS XS' DM XM') x x' c c' u u' (dt : T), Part.RE N Q Q' ds dm σ τ ρ DA DB e e' →
      Part.RS Q Q' σ x c x' c' → Part.RU τ u u' → Both (Part.Step σ τ ρ DA DB) (pr e x c u dt) (pr' e' x' c' u' dt))
    (hco : ∀ (e : Env K DS XS DM XM) (e' : Env K DS XS' DM XM') x x' c c' z z' k (dt : T), Part.RE N Q Q' ds dm σ τ ρ DA DB e e' →
      Part.RS Q Q' σ x c x' c' → z.size = kd k → VecPart (ρ k) z z' → (e.meas k).cov.PD →
      Both (Part.Step σ τ ρ DA DB) (co e x c z k dt) (co' e' x' c' z' k dt)) :
    PlantRel (mkPlant sc mc pr co) (mkPlant sc' mc' pr' co') True (Part.RS Q Q' σ) (Part.RE N Q Q' ds dm σ τ ρ DA DB) (Part.RU τ) (Part.RR τ) (Part.RZ ρ) where
  empty := rfl
  empty' := rfl
  rc := fun e e' he => ⟨hinv.rc e he.1, hinv'.rc e' he.2.1, he.2.2.sys.Rc⟩
  zero := by
    intro e e' he
    refine ⟨hinv.zero e he.1, hinv'.zero e' he.2.1, ?_⟩
    show VecPart _ (DVec.zero e.sys.controlDims) (DVec.zero e'.sys.controlDims)
    rw [he.1.1.sys.controls, he.2.1.sys.controls]
    exact ⟨0, rfl, rfl⟩
  setRc := by
    intro e e' c c' he hc
    refine OptRel.mono (OptRel.of_both (hinv.setRc e c he.1 hc.1) (hinv'.setRc e' c' he.2.1 hc.2.1)
      (R := Env.Part σ τ ρ DA DB) ?_) fun _ _ h => h
    intro r r' hr hr'
    have hr : ((e.sys.setControlCovariance c).map fun s => { e with sys := s }) = some r := hr
    have hr' : ((e'.sys.setControlCovariance c').map fun s => { e' with sys := s }) = some r' := hr'
    unfold Sys.setControlCovariance at hr hr'
    split at hr
    · split at hr'
      · injection hr with hr; injection hr' with hr'
        subst hr; subst hr'
        have h := he.2.2
        exact ⟨h.states, h.controls, h.measured, ⟨h.sys.Rp, hc.2.2, h.sys.P, h.sys.V, h.sys.der⟩, h.meas, h.quiet, h.quiet'⟩
      · cases hr'
    · cases hr
  sysSt := by
    intro e e' x c x' c' d d' he _ _
    show (e.sys.fm.checkStationary && _) = (e'.sys.fm.checkStationary && _)
    rw [he.2.2.quiet.1, he.2.2.quiet'.1]; rfl
  predict := by
    intro e e' x c x' c' u u' dt he hx hu
    exact Part.step_rel (hinv.predict e x c u dt he.1 hx.1 hu.1) (hinv'.predict e' x' c' u' dt he.2.1 hx.2.1 hu.2.1)
      (hpr e e' x x' c c' u u' dt he hx hu)
  sysStationary := by
    intro e e' x c x' c' d d' he _ _ h
    have h : (e.sys.fm.checkStationary && _) = true := h
    rw [he.2.2.quiet.1] at h; cases h
  setMeasCov := by
    intro e e' k z c z' c' he hz
    have h1 := hinv.setMeasCov e k z c he.1 hz.1
    have h2 := hinv'.setMeasCov e' k z' c' he.2.1 hz.2.1
    refine OptRel.mono (OptRel.of_both h1 h2 (R := fun r r' => Env.Part σ τ ρ DA DB r r' ∧ (r.meas k).cov = c) ?_) ?_
    · intro r r' hr hr'
      have hr : (((e.meas k).setCovariance c).map (e.setMeas k)) = some r := hr
      have hr' : (((e'.meas k).setCovariance c').map (e'.setMeas k)) = some r' := hr'
      unfold Meas.setCovariance at hr hr'
      split at hr
      · split at hr'
        · injection hr with hr; injection hr' with hr'
          subst hr; subst hr'
          have h := he.2.2.meas k
          refine ⟨Part.meas he.2.2 k rfl rfl rfl ⟨hz.2.2.2, h.der⟩, ?_⟩
          unfold Env.setMeas
          simp only [if_true]
        · cases hr'
      · cases hr
    · rintro r r' ⟨⟨o1, c1, _⟩, ⟨o2, c2, _⟩, ha, hcov⟩
      refine ⟨⟨o1, o2, ha⟩, ?_, ?_, ?_⟩
      · intro x c x' c' _
        show ((r.meas k).fm.checkStationary && _) = ((r'.meas k).fm.checkStationary && _)
        rw [ha.quiet.2, ha.quiet'.2]; rfl
      · intro x c x' c' dt hx
        exact Part.step_rel (c1 x c dt hx.1) (c2 x' c' dt hx.2.1)
          (hco r r' x x' c c' z z' k dt ⟨o1, o2, ha⟩ hx hz.1.1 hz.2.2.1 (hcov ▸ hz.1.2.2))
      · intro x c x' c' _ h
        have h : ((r.meas k).fm.checkStationary && _) = true := h
        rw [ha.quiet.2] at h; cases h

theorem Part.selects_pos {l : List Nat} {n k : Nat} {σ : Fin k → Fin n} (h : Selects l σ) : 0 < n ↔ 0 < k := by
  have hl := congrArg List.length h.list
  rw [List.length_ofFn] at hl
  constructor
  · intro hn
    split at hl
    · rw [List.length_range] at hl; omega
    next hne => exact hl ▸ List.length_pos_iff.mpr hne
  · intro hk
    exact Nat.lt_of_le_of_lt (Nat.zero_le _) (σ ⟨0, hk⟩).2

theorem Part.run [SaneTime T] {E E' : Type} {P : Plant T DVec DMat K E} {P' : Plant T DVec DMat K E'} {G : E → Prop} {G' : E' → Prop}
    {EA : E → E' → Prop} (hm : 0 < m ↔ 0 < ms)
    (hv : P.vsize = DVec.size) (hv' : P'.vsize = DVec.size)
    (h : PlantRel P P' True (Part.RS Q Q' σ) (fun e e' => G e ∧ G' e' ∧ EA e e') (Part.RU τ) (Part.RR τ) (Part.RZ ρ))
    (sort : List (FilterInput T DVec DMat K) → List (FilterInput T DVec DMat K)) (hsort : SameSort sort sort)
    (params : Params T) (e : E) (e' : E') (he : G e) (he' : G' e') (hee : EA e e') (x x' : DVec) (c c' : DMat) (t : T)
    (hx : Q x c) (hx' : Q' x' c') (hxx : VecPart σ x x') (hcc : MatPart σ σ c c')
    (ops : List (Op T DVec DMat K E)) (ops' : List (Op T DVec DMat K E'))
    (hops : ∀ op ∈ ops, op.WellFormed Q G m kd DMat.PD) (hops' : ∀ op ∈ ops', op.WellFormed Q' G' ms ks DMat.PD)
    (hrel : List.Forall₂ (PartCall σ τ ρ EA) ops ops') :
    PartOf σ ((construct P params e x c t).run P sort ops) ((construct P' params e' x' c' t).run P' sort ops') := by
  have hd : ∀ u u' : DVec, (VecPart τ u u' ∨ u.size = 0 ∧ u'.size = 0) → DataRel P P' (Part.RU τ) u u' := by
    intro u u' h
    unfold DataRel
    rw [hv, hv']
    rcases h with ⟨w, rfl, rfl⟩ | h
    · rcases Nat.eq_zero_or_pos m with h0 | h0
      · have : ¬ 0 < ms := fun q => by have := hm.mpr q; omega
        exact Or.inr ⟨h0, Nat.eq_zero_of_not_pos this⟩
      · exact Or.inl ⟨h0, hm.mp h0, rfl, rfl, w, rfl, rfl⟩
    · exact Or.inr h
  have hmk : ∀ (op : Op T DVec DMat K E) (op' : Op T DVec DMat K E'), op.WellFormed Q G m kd DMat.PD →
      op'.WellFormed Q' G' ms ks DMat.PD → PartCall σ τ ρ EA op op' →
      OpRel P P' True (Part.RS Q Q' σ) (fun e e' => G e ∧ G' e' ∧ EA e e') (Part.RU τ) (Part.RZ ρ) op op' := by
    intro op op' w w' h
    cases op <;> cases op' <;> simp only [PartCall] at h <;> simp only [OpRel] <;> simp only [Op.WellFormed] at w w'
    · exact ⟨h.2.2.symm, w, w', h.1, h.2.1⟩
    · exact h.symm
    · exact ⟨h.2.symm, hd _ _ h.1⟩
    · obtain ⟨rfl, rfl, h⟩ := h
      obtain ⟨k, hk, w⟩ := w
      obtain ⟨k', hk', w'⟩ := w'
      have : k' = k := by rw [hk] at hk'; injection hk' with hk'; exact hk'.symm
      subst this
      exact ⟨rfl, k', hk, hk, w, w', h k' hk⟩
    · exact ⟨h.2.symm, hd _ _ h.1⟩
    · obtain ⟨rfl, rfl, h⟩ := h
      obtain ⟨k, hk, w⟩ := w
      obtain ⟨k', hk', w'⟩ := w'
      have : k' = k := by rw [hk] at hk'; injection hk' with hk'; exact hk'.symm
      subst this
      exact ⟨rfl, k', hk, hk, w, w', h k' hk⟩
    · exact h.symm
    · exact h.symm
    · rintro e e' ⟨o1, o2, ha⟩
      obtain ⟨r, hr, wr⟩ := w e o1
      obtain ⟨r', hr', wr'⟩ := w' e' o2
      rw [hr, hr']
      exact ⟨wr, wr', h e e' r r' ha hr hr'⟩
  have hrel' : List.Forall₂ (OpRel P P' True (Part.RS Q Q' σ) (fun e e' => G e ∧ G' e' ∧ EA e e') (Part.RU τ) (Part.RZ ρ)) ops ops' := by
    clear * - hrel hops hops' hmk
    induction hrel with
    | nil => exact .nil
    | cons a _ ih =>
      exact .cons (hmk _ _ (hops _ (by simp)) (hops' _ (by simp)) a)
        (ih (fun o ho => hops o (by simp [ho])) (fun o ho => hops' o (by simp [ho])))
  have := h.run hsort
    { params := params
      state := { x := P.emptyV, covariance := P.emptyM, timestamp := TimeOps.zero, prevInput := FilterInput.default P }
      prevControl := P.emptyV, prevControlCov := P.emptyM, env := e, history := [], controlQueue := [], measQueue := [] }
    { params := params
      state := { x := P'.emptyV, covariance := P'.emptyM, timestamp := TimeOps.zero, prevInput := FilterInput.default P' }
      prevControl := P'.emptyV, prevControlCov := P'.emptyM, env := e', history := [], controlQueue := [], measQueue := [] }
    rfl ⟨he, he', hee⟩ (Or.inr ⟨h.empty, h.empty'⟩) x c x' c' t ⟨hx, hx', hxx, hcc⟩ hrel'
  have h1 : OptRel True _ ((construct P params e x c t).run P sort ops) ((construct P' params e' x' c' t).run P' sort ops') := this
  generalize (construct P params e x c t).run P sort ops = o1 at h1 ⊢
  generalize (construct P' params e' x' c' t).run P' sort ops' = o2 at h1 ⊢
  rcases OptRel.elim h1 with ⟨rfl, rfl, hn⟩ | ⟨f, g, rfl, rfl, _, _, _, h4⟩
  · exact False.elim (hn trivial)
  · have hs := (SimRel.forall₂_concat (l := f.history) (l' := g.history) h4).2
    exact ⟨f, g, rfl, rfl, hs.2.2.2.1, hs.2.2.2.2, hs.1.symm, h4.imp fun _ _ h => ⟨h.1.symm, h.2.2.2.1, h.2.2.2.2⟩⟩

theorem Part.noise {D : Type} {DA : D → D → Prop} {s : Sys D X} {s' : Sys D X'} (h : s.Part σ τ DA s') {p : Nat}
    {W : Matrix (Fin n) (Fin p) ℝ} {V : Matrix (Fin n) (Fin m) ℝ} {Rp : Matrix (Fin p) (Fin p) ℝ} {Rc : Matrix (Fin m) (Fin m) ℝ}
    (hW : s.P = .of W) (hV : s.V = .of V) (hRp : s.Rp = .of Rp) (hRc : s.Rc = .of Rc) :
    s'.P = .of (W.submatrix σ id) ∧ s'.V = .of (V.submatrix σ τ) ∧ s'.Rp = .of Rp ∧ s'.Rc = .of (Rc.submatrix τ τ) := by
  refine ⟨?_, ?_, by rw [h.Rp, hRp], ?_⟩
  · have h := h.P
    rw [hRp, hW] at h
    exact matPart_of.mp h
  · have h := h.V
    rw [hV] at h
    exact matPart_of.mp h
  · have h := h.Rc
    rw [hRc] at h
    exact matPart_of.mp h

theorem Part.over_vec {σ : Fin ns → Fin n} {s : Fin ns → ℝ} {a b : Fin n → ℝ} (h : OverwritesVec σ s a b) : b ∘ σ = s :=
  funext h.selected

/-- A relation between plants, lifted to filters with members of their own, the same on both sides. -/
theorem mkPlantWith_rel {O : Type} {tot : Prop} {RS : DVec → DMat → DVec → DMat → Prop}
    {RE : Env K DS XS DM XM → Env K DS XS' DM XM' → Prop} {RU : DVec → DVec → Prop} {RR : DMat → DMat → Prop}
    {RZ : DVec → DMat → DVec → DMat → K → Prop} {sc : SysClass T DS XS} {mc : K → MeasClass T DM XM}
    {sc' : SysClass T DS XS'} {mc' : K → MeasClass T DM XM'} {pr co pr' co'} (Good : O → Prop)
    (h : ∀ o, Good o → PlantRel (mkPlant sc mc (pr o) (co o)) (mkPlant sc' mc' (pr' o) (co' o)) tot RS RE RU RR RZ) :
    PlantRel (mkPlantWith sc mc pr co) (mkPlantWith sc' mc' pr' co') tot RS
      (fun e e' => RE e.1 e'.1 ∧ Good e.2 ∧ e'.2 = e.2) RU RR RZ where
  empty := rfl
  empty' := rfl
  rc := fun e e' he => (h e.2 he.2.1).rc e.1 e'.1 he.1
  zero := fun e e' he => (h e.2 he.2.1).zero e.1 e'.1 he.1
  setRc := fun e e' c c' he hc => OptRel.map ((h e.2 he.2.1).setRc e.1 e'.1 c c' he.1 hc) fun _ _ ha => ⟨ha, he.2⟩
  sysSt := fun e e' x c x' c' d d' he hx hd => (h e.2 he.2.1).sysSt e.1 e'.1 x c x' c' d d' he.1 hx hd
  predict := by
    rintro ⟨e, o⟩ ⟨e', o'⟩ x c x' c' u u' dt ⟨he, ho, ho'⟩ hx hu
    dsimp only at ho'; subst ho'
    exact OptRel.map ((h _ ho).predict e e' x c x' c' u u' dt he hx hu) fun _ _ ha => ⟨ha.1, ha.2, ho, rfl⟩
  sysStationary := by
    rintro ⟨e, o⟩ ⟨e', o'⟩ x c x' c' d d' ⟨he, ho, ho'⟩ hx hd hst
    dsimp only at ho'; subst ho'
    exact OptRel.map ((h _ ho).sysStationary e e' x c x' c' d d' he hx hd hst) fun _ _ ha => ⟨⟨ha.1, ho, rfl⟩, ha.2⟩
  setMeasCov := by
    rintro ⟨e, o⟩ ⟨e', o'⟩ k z c z' c' ⟨he, ho, ho'⟩ hz
    dsimp only at ho'; subst ho'
    exact OptRel.map ((h _ ho).setMeasCov e e' k z c z' c' he hz) fun _ _ ha =>
      ⟨⟨ha.1, ho, rfl⟩, ha.2.1,
        fun x p x' p' dt hx => OptRel.map (ha.2.2.1 x p x' p' dt hx) fun _ _ hb => ⟨hb.1, hb.2, ho, rfl⟩,
        fun x p x' p' hx hst => OptRel.map (ha.2.2.2 x p x' p' hx hst) fun _ _ hb => ⟨⟨hb.1, ho, rfl⟩, hb.2⟩⟩

end StateEstimation
