import Verif.Lemmas.PartUKF
import Verif.Props.Part
import Verif.Props.Unscented

/-!
# C124 for the unscented filters

`UKFVS` computes, for the active states, controls and measurements, exactly what `UKF` computes with models of these alone.
-/

set_option linter.unusedSectionVars false

namespace StateEstimation
namespace Props

open Matrix Filter Examples Kalman Sigma

variable {T K X X' Y Y' : Type} [DecidableEq K] [TimeOps T]
variable {n ns m ms p : Nat} {kd ks : K → Nat} {σ : Fin ns → Fin n} {τ : Fin ms → Fin m} {ρ : ∀ k, Fin (ks k) → Fin (kd k)}

private theorem part_pd {x x' : DVec} {c c' : DMat} (hx : ActivePD σ x c) (hxx : VecPart σ x x') (hcc : MatPart σ σ c c') :
    EstimatePD ns x' c' := by
  obtain ⟨v, rfl, rfl⟩ := hxx
  obtain ⟨M, rfl, rfl⟩ := hcc
  obtain ⟨_, Q, h1, _, h2⟩ := hx
  have := DMat.of_inj.mp h1; subst this
  exact ⟨⟨rfl, rfl, rfl⟩, DMat.PD_of.mpr h2⟩

/-- **C124 (UKFVS).**  Models `sc`, `mc` of `n` states with the states `σ`, the controls `τ` and the measurement components `ρ`
active, and models `sc'`, `mc'` of these alone, process noise that reaches every state.  A `UKFVS` with the former and a `UKF` with
the latter, with the same sigma point parameters, receive the same calls, the second the listed entries of every vector and
matrix.  Now and at every remembered moment, the `UKF` has the listed entries of the state and the covariance of the `UKFVS`, at the
same time. -/
theorem C124_ukfvs [SaneTime T]
    (sort : List (FilterInput T DVec DMat K) → List (FilterInput T DVec DMat K)) (hsort : SameSort sort sort)
    (params : Params T) (x x' : DVec) (c c' : DMat) (t : T)
    (hx : ActivePD σ x c) (hxx : VecPart σ x x') (hcc : MatPart σ σ c c')
    {llt : DMat → Option DMat} (hllt : LltSpec llt) (junk junk' : Nat → Nat → ℝ)
    {sc : SysClass T NonlinSysData X} {mc : K → MeasClass T NonlinMeasData Y} {sc' : SysClass T NonlinSysData X'}
    {mc' : K → MeasClass T NonlinMeasData Y'}
    (hsc : SysContract NonlinSysData.Sized sc) (hmc : ∀ j, MeasContract NonlinMeasData.Sized (mc j))
    (hsc' : SysContract NonlinSysData.Sized sc') (hmc' : ∀ j, MeasContract NonlinMeasData.Sized (mc' j))
    (hspread : sc.SpreadsNoise NonlinSysData.Sized n m p) (hspread' : sc'.SpreadsNoise NonlinSysData.Sized ns ms p)
    (ha : sc.HasPart NonlinSysData.Sized σ τ (NonlinSysData.Part σ) sc')
    (hb : ∀ k, (mc k).HasPart NonlinMeasData.Sized σ (ρ k) (NonlinMeasData.Part (ρ k) σ) (mc' k))
    (sp : SigmaParams) (hsp : SigmaAdmissible ns sp)
    (e : Env K NonlinSysData X NonlinMeasData Y) (e' : Env K NonlinSysData X' NonlinMeasData Y')
    (he : e.Ok NonlinSysData.Sized NonlinMeasData.Sized (NoisePD p) (ActivePD σ) n m kd)
    (he' : e'.Ok NonlinSysData.Sized NonlinMeasData.Sized (NoisePD p) (EstimatePD ns) ns ms ks)
    (hee : e.Part σ τ ρ (NonlinSysData.Part σ) (fun k => NonlinMeasData.Part (ρ k) σ) e')
    (ops : List (Op T DVec DMat K (Env K NonlinSysData X NonlinMeasData Y × SigmaParams)))
    (ops' : List (Op T DVec DMat K (Env K NonlinSysData X' NonlinMeasData Y' × SigmaParams)))
    (hops : ∀ op ∈ ops, op.WellFormed (ActivePD σ)
      (fun e => (Env.Ok NonlinSysData.Sized NonlinMeasData.Sized (NoisePD p) (ActivePD σ) n m kd e.1 ∧ e.1.Selecting σ m kd) ∧
        SigmaAdmissible ns e.2) m kd DMat.PD)
    (hops' : ∀ op ∈ ops', op.WellFormed (EstimatePD ns)
      (fun e => Env.Ok NonlinSysData.Sized NonlinMeasData.Sized (NoisePD p) (EstimatePD ns) ns ms ks e.1 ∧ SigmaAdmissible ns e.2)
      ms ks DMat.PD)
    (hrel : List.Forall₂ (PartCall σ τ ρ fun e e' =>
      e.1.Part σ τ ρ (NonlinSysData.Part σ) (fun k => NonlinMeasData.Part (ρ k) σ) e'.1 ∧ e'.2 = e.2) ops ops') :
    PartOf σ ((construct (ukfvsPlant llt junk sc mc) params (e, sp) x c t).run (ukfvsPlant llt junk sc mc) sort ops)
      ((construct (ukfPlant llt junk' sc' mc') params (e', sp) x' c' t).run (ukfPlant llt junk' sc' mc') sort ops') := by
  have hplant := mkPlantWith_rel (sc := sc) (mc := mc) (sc' := sc') (mc' := mc')
    (pr := fun sp e x cov u dt => ukfvsPredict llt junk sc sp e.sys x cov u dt fun s =>
      ({ e with sys := s } : Env K NonlinSysData X NonlinMeasData Y))
    (co := fun sp e x cov z k dt => ukfvsCorrect llt junk sc (mc k) sp e.sys (e.meas k) x cov z dt (e.setMeas k))
    (pr' := fun sp e x cov u dt => ukfPredict llt junk' sc' sp e.sys x cov u dt fun s =>
      ({ e with sys := s } : Env K NonlinSysData X' NonlinMeasData Y'))
    (co' := fun sp e x cov z k dt => ukfCorrect llt junk' sc' (mc' k) sp e.sys (e.meas k) x cov z dt (e.setMeas k))
    (SigmaAdmissible ns) (fun o ho => Part.mk (DA := NonlinSysData.Part σ) (DB := fun k => NonlinMeasData.Part (ρ k) σ) (τ := τ) (ρ := ρ)
      (ukfvs_inv_at (σ := σ) hllt junk hsc ha.plain hspread hmc (fun j => (hb j).plain) kd ho)
      (ukf_inv_at hllt junk' hsc' ha.plain' hspread' hmc' (fun j => (hb j).plain') ks ho) (by
        intro e e' x x' c c' u u' dt he hx hu r r' hr hr'
        obtain ⟨lam, d, hlam, hd, rfl⟩ := ho.elim
        obtain ⟨⟨_, Q, hQ, _, hQ2⟩, _, ⟨v, rfl, rfl⟩, ⟨M, rfl, rfl⟩⟩ := hx
        have := DMat.of_inj.mp hQ; subst this
        obtain ⟨_, _, ⟨w, rfl, rfl⟩⟩ := hu
        obtain ⟨L, hL, _⟩ := hllt.scaled hlam hQ2
        obtain ⟨s, s', v1, M1, h1, ⟨v2, M2, h2, h3, h4⟩, h5, h6, h7⟩ := Part.ukfPredict hsc hsc' ha he.1.1.sys he.2.1.sys he.2.2.sys
          he.2.2.states he.2.2.controls junk junk' hL v w dt
          (fun s => ({ e with sys := s } : Env K NonlinSysData X NonlinMeasData Y))
          (fun s => ({ e' with sys := s } : Env K NonlinSysData X' NonlinMeasData Y'))
        rw [h1] at hr
        rw [h2] at hr'
        injection hr with hr; injection hr' with hr'
        subst hr; subst hr'
        exact ⟨h3, h4, Part.sys he.2.2 h5 h6 h7⟩) (by
        intro e e' x x' c c' z z' k dt he hx hz0 hz hR r r' hr hr'
        obtain ⟨lam, d, hlam, hd, rfl⟩ := ho.elim
        obtain ⟨⟨_, Q, hQ, _, hQ2⟩, _, ⟨v, rfl, rfl⟩, ⟨M, rfl, rfl⟩⟩ := hx
        have := DMat.of_inj.mp hQ; subst this
        obtain ⟨w, rfl, rfl⟩ := hz
        obtain ⟨R, hRe⟩ := (he.1.1.meas k).cov.exists_of
        rw [hRe, DMat.PD_of] at hR
        obtain ⟨L, hL, _⟩ := hllt.scaled hlam hQ2
        obtain ⟨s, s', v1, M1, h1, ⟨v2, M2, h2, h3, h4⟩, h5, h6, h7⟩ := Part.ukfCorrect ha.plain ha.plain' (hmc k) (hmc' k) (hb k)
          he.1.1.sys he.2.1.sys he.2.2.states (he.1.1.meas k) (he.2.1.meas k) (he.2.2.meas k) (he.2.2.measured k) hRe
          (hR.submatrix (he.2.2.measured k).inj) junk junk' hlam hd hL v w dt (e.setMeas k) (e'.setMeas k)
        rw [h1] at hr
        rw [h2] at hr'
        injection hr with hr; injection hr' with hr'
        subst hr; subst hr'
        exact ⟨h3, h4, Part.meas he.2.2 k h5.fm h5.activeMeasurements h6.fm h7⟩))
  refine Part.run (P := ukfvsPlant llt junk sc mc) (P' := ukfPlant llt junk' sc' mc')
    (Part.selects_pos hee.controls) rfl rfl (Q := ActivePD σ) (Q' := EstimatePD ns)
    (G := fun e => (Env.Ok NonlinSysData.Sized NonlinMeasData.Sized (NoisePD p) (ActivePD σ) n m kd e.1 ∧ e.1.Selecting σ m kd) ∧
        SigmaAdmissible ns e.2)
    (G' := fun e => Env.Ok NonlinSysData.Sized NonlinMeasData.Sized (NoisePD p) (EstimatePD ns) ns ms ks e.1 ∧ SigmaAdmissible ns e.2)
    (EA := fun e e' => e.1.Part σ τ ρ (NonlinSysData.Part σ) (fun k => NonlinMeasData.Part (ρ k) σ) e'.1 ∧ e'.2 = e.2)
    ?_ sort hsort params _ _ ⟨⟨he, hee.selecting⟩, hsp⟩ ⟨he', hsp⟩ ⟨hee, rfl⟩ x x' c c' t hx (part_pd hx hxx hcc) hxx hcc ops ops'
    hops hops' hrel
  have heq : (fun (e : Env K NonlinSysData X NonlinMeasData Y × SigmaParams) (e' : Env K NonlinSysData X' NonlinMeasData Y' × SigmaParams) =>
      Part.RE (NoisePD p) (ActivePD σ) (EstimatePD ns) NonlinSysData.Sized NonlinMeasData.Sized σ τ ρ (NonlinSysData.Part σ)
        (fun k => NonlinMeasData.Part (ρ k) σ) e.1 e'.1 ∧ SigmaAdmissible ns e.2 ∧ e'.2 = e.2)
      = (fun e e' => ((Env.Ok NonlinSysData.Sized NonlinMeasData.Sized (NoisePD p) (ActivePD σ) n m kd e.1 ∧ e.1.Selecting σ m kd) ∧
        SigmaAdmissible ns e.2) ∧
        (Env.Ok NonlinSysData.Sized NonlinMeasData.Sized (NoisePD p) (EstimatePD ns) ns ms ks e'.1 ∧ SigmaAdmissible ns e'.2) ∧
        e.1.Part σ τ ρ (NonlinSysData.Part σ) (fun k => NonlinMeasData.Part (ρ k) σ) e'.1 ∧ e'.2 = e.2) := by
    funext a b
    apply propext
    constructor
    · rintro ⟨⟨h1, h2, h3⟩, h4, h5⟩
      exact ⟨⟨h1, h4⟩, ⟨h2, by rw [h5]; exact h4⟩, h3, h5⟩
    · rintro ⟨⟨h1, h4⟩, ⟨h2, _⟩, h3, h5⟩
      exact ⟨⟨h1, h2, h3⟩, h4, h5⟩
  rw [heq] at hplant
  exact hplant

/-! ## The hypotheses are met

Two states, `g = (x + dt (x² + u), y)`, of which the first is active and measured, `h = x²`. -/

/-- Both states. -/
noncomputable def duoClass : SysClass ℝ NonlinSysData Unit :=
  SysClass.plain fun s x u dt =>
    if s.stateSize = 2 ∧ s.controlDims = 1 ∧ s.Rp.rows = 2 then
      some { s with der := ⟨.of ![head x + dt * (head x ^ 2 + head u), (x.get? 1).getD 0], .of !![1 + 2 * dt * head x, 0; 0, 1]⟩
                    P := .of !![1, 0; 0, 1]
                    V := .of !![dt; 0] }
    else some s

/-- The first alone. -/
noncomputable def soloClass : SysClass ℝ NonlinSysData Unit :=
  SysClass.plain fun s x u dt =>
    if s.stateSize = 1 ∧ s.controlDims = 1 ∧ s.Rp.rows = 2 then
      some { s with der := ⟨vec1 (head x + dt * (head x ^ 2 + head u)), mat1 (1 + 2 * dt * head x)⟩
                    P := .of !![1, 0]
                    V := mat1 dt }
    else some s

/-- `h = x²` for two states. -/
noncomputable def duoSquare : MeasClass ℝ NonlinMeasData Unit :=
  MeasClass.plain fun s x _ =>
    if s.stateSize = 2 ∧ s.measDims = 1 then some { s with der := ⟨vec1 (head x ^ 2), .of !![2 * head x, 0]⟩ } else some s

theorem duo_contract : SysContract NonlinSysData.Sized duoClass := by
  apply plain_contract
  intro n m s x u dt hs hx hu
  split
  next h =>
    obtain ⟨h1, h2, h3⟩ := h
    have hn : n = 2 := by rw [← hs.states]; exact h1
    have hm : m = 1 := by rw [← hs.controls]; exact h2
    subst hn hm
    exact ⟨_, rfl, ⟨hs.states, hs.controls, ⟨rfl, rfl, rfl⟩, ⟨rfl, h3.symm⟩, hs.Rp, ⟨rfl, rfl⟩, hs.Rc⟩, ⟨rfl, rfl, rfl, rfl, rfl⟩⟩
  next => exact ⟨s, rfl, hs, Sys.SameConfig.refl s⟩

theorem solo_contract : SysContract NonlinSysData.Sized soloClass := by
  apply plain_contract
  intro n m s x u dt hs hx hu
  split
  next h =>
    obtain ⟨h1, h2, h3⟩ := h
    have hn : n = 1 := by rw [← hs.states]; exact h1
    have hm : m = 1 := by rw [← hs.controls]; exact h2
    subst hn hm
    exact ⟨_, rfl, ⟨hs.states, hs.controls, ⟨rfl, rfl, rfl⟩, ⟨rfl, h3.symm⟩, hs.Rp, ⟨rfl, rfl⟩, hs.Rc⟩, ⟨rfl, rfl, rfl, rfl, rfl⟩⟩
  next => exact ⟨s, rfl, hs, Sys.SameConfig.refl s⟩

theorem duoSquare_contract : MeasContract NonlinMeasData.Sized duoSquare := by
  apply plain_mcontract
  intro n k s x dt hs hx
  split
  next h =>
    have hn : n = 2 := by rw [← hs.states]; exact h.1
    have hk : k = 1 := by rw [← hs.meas]; exact h.2
    subst hn hk
    exact ⟨_, rfl, ⟨hs.states, hs.meas, ⟨rfl, rfl, rfl⟩, hs.cov⟩, ⟨rfl, rfl, rfl, rfl⟩⟩
  next => exact ⟨s, rfl, hs, Meas.SameConfig.refl s⟩

theorem duo_spreads : duoClass.SpreadsNoise NonlinSysData.Sized 2 1 2 := by
  intro s x u dt s' W hs hp hx hu hup hW v hv
  change (if _ then _ else _) = _ at hup
  rw [if_pos ⟨hs.states, hs.controls, hp.1⟩] at hup
  injection hup with hup
  rw [← hup] at hW
  have hW' : !![(1 : ℝ), 0; 0, 1] = W := DMat.of_inj.mp hW
  rw [← hW'] at hv
  funext i
  have h0 := congrFun hv 0
  have h1 := congrFun hv 1
  simp [Matrix.vecMul, dotProduct, Fin.sum_univ_two] at h0 h1
  fin_cases i
  · exact h0
  · exact h1

theorem solo_spreads : soloClass.SpreadsNoise NonlinSysData.Sized 1 1 2 := by
  intro s x u dt s' W hs hp hx hu hup hW v hv
  change (if _ then _ else _) = _ at hup
  rw [if_pos ⟨hs.states, hs.controls, hp.1⟩] at hup
  injection hup with hup
  rw [← hup] at hW
  have hW' : !![(1 : ℝ), 0] = W := DMat.of_inj.mp hW
  rw [← hW'] at hv
  funext i
  have h0 := congrFun hv 0
  simp [Matrix.vecMul, dotProduct] at h0
  fin_cases i
  exact h0

private theorem head_of' {n : Nat} (v : Fin (n + 1) → ℝ) : head (.of v) = v 0 := by simp [head, DVec.get?]

theorem solo_part : duoClass.HasPart NonlinSysData.Sized sel0 all1 (NonlinSysData.Part sel0) soloClass where
  plain := plain_ops _
  plain' := plain_ops _
  update := by
    rintro s s' x x' u u' dt r r' hs hs' h ⟨v, rfl, rfl⟩ ⟨w, rfl, rfl⟩ hr hr'
    change (if s.stateSize = 2 ∧ s.controlDims = 1 ∧ s.Rp.rows = 2 then _ else some s) = some r at hr
    change (if s'.stateSize = 1 ∧ s'.controlDims = 1 ∧ s'.Rp.rows = 2 then _ else some s') = some r' at hr'
    by_cases h2 : s.Rp.rows = 2
    · rw [if_pos ⟨hs.states, hs.controls, h2⟩] at hr
      rw [if_pos ⟨hs'.states, hs'.controls, by rw [h.Rp]; exact h2⟩] at hr'
      injection hr with hr; injection hr' with hr'
      subst hr; subst hr'
      simp only [head_of']
      refine ⟨h.Rp, h.Rc, ?_, ⟨!![dt; 0], rfl, ?_⟩, ⟨_, rfl, ?_⟩, ⟨_, rfl, ?_⟩⟩
      · show MatPart sel0 (id : Fin s.Rp.rows → Fin s.Rp.rows) (.of !![1, 0; 0, 1]) (.of !![1, 0])
        rw [h2]
        refine ⟨_, rfl, ?_⟩
        congr 1
        ext i j; fin_cases i; fin_cases j <;> rfl
      · show DMat.of _ = DMat.of _
        congr 1
        ext i j; fin_cases i; fin_cases j; rfl
      · show DVec.of _ = DVec.of _
        congr 1
        funext i; fin_cases i; rfl
      · show DMat.of _ = DMat.of _
        congr 1
        ext i j; fin_cases i; fin_cases j; rfl
    · rw [if_neg fun q => h2 q.2.2] at hr
      rw [if_neg fun q => h2 (by rw [← h.Rp]; exact q.2.2)] at hr'
      injection hr with hr; injection hr' with hr'
      subst hr; subst hr'
      exact h

theorem square_part : duoSquare.HasPart NonlinMeasData.Sized sel0 all1 (NonlinMeasData.Part all1 sel0) squareClass where
  plain := plain_mops _
  plain' := plain_mops _
  update := by
    rintro s s' x x' dt r r' hs hs' h ⟨v, rfl, rfl⟩ hr hr'
    change (if s.stateSize = 2 ∧ s.measDims = 1 then _ else some s) = some r at hr
    change (if s'.stateSize = 1 ∧ s'.measDims = 1 then _ else some s') = some r' at hr'
    rw [if_pos ⟨hs.states, hs.meas⟩] at hr
    rw [if_pos ⟨hs'.states, hs'.meas⟩] at hr'
    injection hr with hr; injection hr' with hr'
    subst hr; subst hr'
    simp only [head_of']
    refine ⟨h.cov, ⟨_, rfl, ?_⟩, ⟨_, rfl, ?_⟩⟩
    · rfl
    · show DMat.of _ = DMat.of _
      congr 1
      ext i j; fin_cases i; fin_cases j; rfl

/-- Fresh models of both states, the first active, unit process noise. -/
noncomputable def duoEnv : Env Unit NonlinSysData Unit NonlinMeasData Unit :=
  { sys := ({ Sys.constructNonlinear 2 1 2 () with Rp := .identity 2 } : Sys NonlinSysData Unit).setActiveStates [0]
    meas := fun _ => Meas.constructNonlinear 2 1 () }

/-- Fresh models of the first state alone. -/
noncomputable def soloEnv : Env Unit NonlinSysData Unit NonlinMeasData Unit :=
  { sys := { Sys.constructNonlinear 1 1 2 () with Rp := .identity 2 }, meas := fun _ => Meas.constructNonlinear 1 1 () }

theorem duoEnv_ok {Q : DVec → DMat → Prop} : duoEnv.Ok NonlinSysData.Sized NonlinMeasData.Sized (NoisePD 2) Q 2 1 (fun _ => 1) where
  sys := ⟨rfl, rfl, ⟨rfl, rfl, rfl⟩, ⟨rfl, rfl⟩, ⟨rfl, rfl⟩, ⟨rfl, rfl⟩, ⟨rfl, rfl⟩⟩
  noise := ⟨⟨rfl, rfl⟩, identity_pd 2, ⟨rfl, PosSemidef.zero⟩⟩
  sysMake := fun x c h => ⟨x, c, rfl, h⟩
  meas := fun _ => ⟨rfl, rfl, ⟨rfl, rfl, rfl⟩, rfl, rfl⟩
  measMake := fun _ x c h => ⟨x, c, rfl, h⟩

theorem soloEnv_ok {Q : DVec → DMat → Prop} : soloEnv.Ok NonlinSysData.Sized NonlinMeasData.Sized (NoisePD 2) Q 1 1 (fun _ => 1) where
  sys := ⟨rfl, rfl, ⟨rfl, rfl, rfl⟩, ⟨rfl, rfl⟩, ⟨rfl, rfl⟩, ⟨rfl, rfl⟩, ⟨rfl, rfl⟩⟩
  noise := ⟨⟨rfl, rfl⟩, identity_pd 2, ⟨rfl, PosSemidef.zero⟩⟩
  sysMake := fun x c h => ⟨x, c, rfl, h⟩
  meas := fun _ => ⟨rfl, rfl, ⟨rfl, rfl, rfl⟩, rfl, rfl⟩
  measMake := fun _ x c h => ⟨x, c, rfl, h⟩

private theorem zero_mat {r c k l : Nat} (σ : Fin k → Fin r) (τ : Fin l → Fin c) : MatPart σ τ (.zero r c) (.zero k l) :=
  ⟨0, rfl, rfl⟩

theorem soloEnv_part : duoEnv.Part sel0 all1 (fun _ => all1) (NonlinSysData.Part sel0) (fun _ => NonlinMeasData.Part all1 sel0) soloEnv where
  states := ⟨by decide, by decide⟩
  controls := selects_nil
  measured := fun _ => selects_nil
  sys := ⟨rfl, zero_mat _ _, zero_mat (r := 2) (c := 2) (k := 1) (l := 2) sel0 id, zero_mat (r := 2) (c := 1) (k := 1) (l := 1) sel0 id,
    ⟨0, rfl, rfl⟩, zero_mat (r := 2) (c := 2) (k := 1) (l := 1) sel0 sel0⟩
  meas := fun _ => ⟨zero_mat (r := 1) (c := 1) (k := 1) (l := 1) id id, ⟨0, rfl, rfl⟩, zero_mat (r := 1) (c := 2) (k := 1) (l := 1) id sel0⟩
  quiet := ⟨rfl, fun _ => rfl⟩
  quiet' := ⟨rfl, fun _ => rfl⟩

/-- A `UKFVS` with the first state active, begun with any second state `v` and any correlation `r` - and the `UKF` of the first
alone. -/
example (sort : List (FilterInput ℝ DVec DMat Unit) → List (FilterInput ℝ DVec DMat Unit)) (hsort : SameSort sort sort)
    (params : Params ℝ) (junk junk' : Nat → Nat → ℝ) (sp : SigmaParams) (hsp : SigmaAdmissible 1 sp) (v r u z w : ℝ) :
    PartOf sel0
      ((construct (ukfvsPlant someLlt junk duoClass fun _ : Unit => duoSquare) params (duoEnv, sp) (.of ![0, v]) (.of !![1, r; r, 1]) 0).run
        (ukfvsPlant someLlt junk duoClass fun _ => duoSquare) sort
        [.predictControl (.of ![u]) 1, .correct (.of ![z]) (.identity 1) 2 (some ()), .correct (.of ![w]) (.identity 1) 1 (some ()), .predictTime 3])
      ((construct (ukfPlant someLlt junk' soloClass fun _ : Unit => squareClass) params (soloEnv, sp) (.of ![0]) (.of !![1]) 0).run
        (ukfPlant someLlt junk' soloClass fun _ => squareClass) sort
        [.predictControl (.of ![u]) 1, .correct (.of ![z]) (.identity 1) 2 (some ()), .correct (.of ![w]) (.identity 1) 1 (some ()), .predictTime 3]) := by
  have hv1 : ∀ (a : Fin 1 → ℝ), VecPart all1 (.of a) (.of a) := fun a => ⟨a, rfl, rfl⟩
  have hm1 : MatPart all1 all1 (.identity 1) (.identity 1) := ⟨1, rfl, rfl⟩
  have hsub : (!![1, r; r, 1] : Matrix (Fin 2) (Fin 2) ℝ).submatrix sel0 sel0 = 1 := by
    ext i j; fin_cases i; fin_cases j; rfl
  refine C124_ukfvs (ks := fun _ => 1) (kd := fun _ => 1) (ρ := fun _ => all1) sort hsort params _ _ _ _ _ ?_ ?_ ?_ someLlt_spec junk junk'
    duo_contract (fun _ => duoSquare_contract) solo_contract (fun _ => square_contract) duo_spreads solo_spreads solo_part
    (fun _ => square_part) sp hsp duoEnv soloEnv duoEnv_ok soloEnv_ok soloEnv_part _ _ ?_ ?_ ?_
  · refine ⟨rfl, _, rfl, ?_, ?_⟩
    · ext i j; fin_cases i <;> fin_cases j <;> rfl
    · rw [hsub]; exact PosDef.one
  · refine ⟨_, rfl, ?_⟩
    congr 1
    ext i; fin_cases i; rfl
  · refine ⟨_, rfl, ?_⟩
    rw [hsub]
    congr 1
    ext i j; fin_cases i; fin_cases j; rfl
  · intro op hop
    simp only [List.mem_cons, List.not_mem_nil, or_false] at hop
    rcases hop with rfl | rfl | rfl | rfl
    · exact Or.inl rfl
    · exact ⟨(), rfl, rfl, ⟨rfl, rfl⟩, identity_pd 1⟩
    · exact ⟨(), rfl, rfl, ⟨rfl, rfl⟩, identity_pd 1⟩
    · trivial
  · intro op hop
    simp only [List.mem_cons, List.not_mem_nil, or_false] at hop
    rcases hop with rfl | rfl | rfl | rfl
    · exact Or.inl rfl
    · exact ⟨(), rfl, rfl, ⟨rfl, rfl⟩, identity_pd 1⟩
    · exact ⟨(), rfl, rfl, ⟨rfl, rfl⟩, identity_pd 1⟩
    · trivial
  · exact .cons ⟨Or.inl (hv1 _), rfl⟩ (.cons ⟨rfl, rfl, fun _ _ => ⟨hv1 _, hm1⟩⟩ (.cons ⟨rfl, rfl, fun _ _ => ⟨hv1 _, hm1⟩⟩ (.cons rfl .nil)))

end Props
end StateEstimation
