import Verif.Lemmas.UKFUnits
import Verif.Props.Unscented
import Verif.Props.DataFree
import Verif.Props.Units

/-!
# C99: changing the units of a UKF changes nothing but the units; renumbering its states does
-/

set_option linter.unusedSectionVars false

namespace StateEstimation
namespace Props

open Matrix Sigma Filter Examples

variable {T K X Y : Type} {n m p : Nat} {kd : K → Nat} [DecidableEq K]

/-- The models correspond and the sigma point parameters are the same. -/
def UkfEnvIn (u : Units n m p kd) (e e' : Env K NonlinSysData X NonlinMeasData Y × SigmaParams) : Prop :=
  u.EnvIn u.NonlinSysIn u.NonlinMeasIn e.1 e'.1 ∧ e'.2 = e.2

/-- Well-formed UKF object (C36/C37). -/
def UkfOk (n m p : Nat) (kd : K → Nat) (e : Env K NonlinSysData X NonlinMeasData Y × SigmaParams) : Prop :=
  Env.Ok NonlinSysData.Sized NonlinMeasData.Sized (NoisePD p) (EstimatePD n) n m kd e.1 ∧ SigmaAdmissible n e.2

private theorem total {α β : Type} {A : α → Prop} {R : α → β → Prop} {a : Option α} {b : Option β} (ha : OptP True A a)
    (h : OptRel False R a b) : OptRel True (fun r q => A r ∧ R r q) a b := by
  cases a with
  | none => exact False.elim (ha trivial)
  | some r =>
    cases b with
    | none => exact False.elim h
    | some q => exact ⟨ha, h⟩

private theorem setMeas_in {u : Units n m p kd} {e e' : Env K NonlinSysData X NonlinMeasData Y}
    (he : u.EnvIn u.NonlinSysIn u.NonlinMeasIn e e') (k : K) {r r' : Meas NonlinMeasData Y}
    (hr : u.MeasIn k (u.NonlinMeasIn k) r r') : u.EnvIn u.NonlinSysIn u.NonlinMeasIn (e.setMeas k r) (e'.setMeas k r') := by
  refine ⟨he.1, fun j => ?_⟩
  show u.MeasIn j (u.NonlinMeasIn j) ((e.setMeas k r).meas j) ((e'.setMeas k r').meas j)
  unfold Env.setMeas
  dsimp only
  by_cases hj : j = k
  · subst hj; rw [if_pos rfl, if_pos rfl]; exact hr
  · rw [if_neg hj, if_neg hj]; exact he.2 j

private def RS (u : Units n m p kd) (x : DVec) (c : DMat) (x' : DVec) (c' : DMat) : Prop :=
  EstimatePD n x c ∧ u.StateIn x c x' c'

private theorem total_state {u : Units n m p kd} {a b : Option (DVec × DMat)} (ha : OptP True (fun r => EstimatePD n r.1 r.2) a)
    (h : OptRel False (fun r q => u.StateIn r.1 r.2 q.1 q.2) a b) : OptRel True (fun r q => RS u r.1 r.2 q.1 q.2) a b :=
  OptRel.mono (total ha h) fun _ _ h => h

private theorem make_in {u : Units n m p kd} {R : DVec → DVec → Prop} {f f' : FilterModel} (h : u.StationaryIn R f f') {x c x' c'}
    (hx : u.StateIn x c x' c') :
    OptRel False (fun r q => u.StateIn r.1 r.2 q.1 q.2) (f.makeStationary x c) (f'.makeStationary x' c') := by
  have := h.make x c x' c' hx
  generalize f.makeStationary x c = a at this ⊢
  generalize f'.makeStationary x' c' = b at this ⊢
  cases a <;> cases b <;> simp only [OptRel] at this ⊢
  · exact fun h => h
  · exact this

private def RE (u : Units n m p kd) (e e' : Env K NonlinSysData X NonlinMeasData Y × SigmaParams) : Prop :=
  UkfOk n m p kd e ∧ UkfEnvIn u e e'

set_option maxHeartbeats 1600000 in
private theorem ukf_rel [TimeOps T] (u : Units n m p kd) (hT : Units.LowerPos u.T) (junk junk' : Nat → Nat → ℝ)
    {sc sc' : SysClass T NonlinSysData X} (hcl : u.SysClassIn u.NonlinSysIn sc sc')
    {mc mc' : K → MeasClass T NonlinMeasData Y} (hml : ∀ k, u.MeasClassIn k (u.NonlinMeasIn k) (mc k) (mc' k))
    (hinv : PlantInv (ukfPlant eigenLlt junk sc mc) True (EstimatePD n) (UkfOk n m p kd)
      (fun u => u.size = m) (fun R => R.Is m m ∧ R.PSD) (fun z c k => z.size = kd k ∧ c.Is (kd k) (kd k) ∧ c.PD)) :
    PlantRel (ukfPlant eigenLlt junk sc mc) (ukfPlant eigenLlt junk' sc' mc') True (RS u) (RE u) (Units.VecIn u.U)
      (fun R R' => R.PSD ∧ Units.CovIn u.U R R')
      (fun z c z' c' k => (Units.VecIn (u.D k) z z' ∧ Units.CovIn (u.D k) c c') ∧ c.PD) where
  empty := rfl
  empty' := rfl
  rc e e' he := ⟨(hinv.rc e he.1).2, he.2.1.1.Rc⟩
  zero e e' he := by
    show Units.VecIn u.U (.zero e.1.sys.controlDims) (.zero e'.1.sys.controlDims)
    rw [he.2.1.1.controls, he.2.1.1.controls']
    exact ⟨0, rfl, by rw [Matrix.mulVec_zero]; rfl⟩
  setRc e e' c c' he hc := by
    obtain ⟨hp, M, rfl, rfl⟩ := hc
    refine OptRel.mono (total (hinv.setRc e _ he.1 ⟨⟨rfl, rfl⟩, hp⟩) (R := UkfEnvIn u) ?_) fun _ _ h => h
    have he1 := he.2.1
    show OptRel False _ (((e.1.sys.setControlCovariance _).map _).map _) (((e'.1.sys.setControlCovariance _).map _).map _)
    unfold Sys.setControlCovariance
    rw [if_pos ⟨he1.1.controls.symm, he1.1.controls.symm⟩, if_pos ⟨he1.1.controls'.symm, he1.1.controls'.symm⟩]
    exact ⟨⟨⟨he1.1.states, he1.1.states', he1.1.controls, he1.1.controls', he1.1.der, he1.1.P, he1.1.Rp, he1.1.V, ⟨M, rfl, rfl⟩,
      he1.1.fm⟩, he1.2⟩, he.2.2⟩
  sysSt e e' x c x' c' d d' he hx hd := by
    show (e.1.sys.fm.checkStationary && e.1.sys.fm.isStationary x d) = (e'.1.sys.fm.checkStationary && e'.1.sys.fm.isStationary x' d')
    rw [he.2.1.1.fm.check, he.2.1.1.fm.is x c x' c' d d' hx.2 (by
      rcases hd with ⟨h1, _, h3⟩ | h
      · exact Or.inl ⟨h1, h3⟩
      · exact Or.inr h)]
  predict e e' x c x' c' v v' dt he hx hv := by
    have h1 := hinv.predict e x c v dt he.1 hx.1 (by obtain ⟨a, rfl, _⟩ := hv; rfl)
    refine OptRel.mono (total h1 (R := fun r q => u.StateIn r.1 r.2.1 q.1 q.2.1 ∧ UkfEnvIn u r.2.2 q.2.2) ?_)
      fun _ _ h => ⟨⟨h.1.1, h.2.1⟩, h.1.2, h.2.2⟩
    show OptRel False _ ((ukfPredict eigenLlt junk sc e.2 e.1.sys x c v dt fun s => { e.1 with sys := s }).map _)
      ((ukfPredict eigenLlt junk' sc' e'.2 e'.1.sys x' c' v' dt fun s => { e'.1 with sys := s }).map _)
    rw [he.2.2]
    refine OptRel.map (ukfPredict_units (R := u.EnvIn u.NonlinSysIn u.NonlinMeasIn) hT hcl he.2.1.1 he.1.2 hx.2 hx.1.2 hv junk junk' dt
      fun s s' hs => ⟨hs, he.2.1.2⟩) fun r q h => ⟨h.1, h.2, rfl⟩
  sysStationary e e' x c x' c' d d' he hx hd _ := by
    have hd1 : u.DataIn d d' := by
      rcases hd with ⟨h1, _, h3⟩ | h
      · exact Or.inl ⟨h1, h3⟩
      · exact Or.inr h
    have h1 := hinv.sysStationary e x c d he.1 hx.1 (by
      intro h0
      rcases hd1 with ⟨_, a, rfl, _⟩ | h
      · rfl
      · have h0 : 0 < d.size := h0
        exact absurd h.1 h0.ne')
    refine OptRel.mono (total h1 (R := fun r q => UkfEnvIn u r q ∧
      OptRel False (fun r q => u.StateIn r.1 r.2 q.1 q.2) (r.1.sys.fm.makeStationary x c) (q.1.sys.fm.makeStationary x' c')) ?_)
      fun r q h => ⟨⟨h.1.1, h.2.1⟩, total_state h.1.2 h.2.2⟩
    show OptRel False _ (((sc.processStationary e.1.sys x d).map _).map _) (((sc'.processStationary e'.1.sys x' d').map _).map _)
    have hx2 := hx.2
    obtain ⟨⟨y, rfl, rfl⟩, hx3⟩ := hx.2
    rw [Option.map_map, Option.map_map]
    refine OptRel.map (OptRel.of_units (hcl.stationary e.1.sys e'.1.sys y d d' he.2.1.1 hd1)) (fun s s' hs =>
      ⟨⟨⟨hs, he.2.1.2⟩, he.2.2⟩, make_in hs.fm hx2⟩)
  setMeasCov e e' k z c z' c' he hz := by
    obtain ⟨⟨hz, M, rfl, rfl⟩, hp⟩ := hz
    have h1 := hinv.setMeasCov e k z (.of M) he.1 ⟨by obtain ⟨a, rfl, _⟩ := hz; rfl, ⟨rfl, rfl⟩, hp⟩
    refine OptRel.mono (total h1 (R := UkfEnvIn u) ?_) ?_
    · show OptRel False _ ((((e.1.meas k).setCovariance _).map _).map _) ((((e'.1.meas k).setCovariance _).map _).map _)
      have hk := he.2.1.2 k
      unfold Meas.setCovariance
      rw [if_pos ⟨hk.meas.symm, hk.meas.symm⟩, if_pos ⟨hk.meas'.symm, hk.meas'.symm⟩]
      have hk1 : u.MeasIn k (u.NonlinMeasIn k) { e.1.meas k with cov := .of M } { e'.1.meas k with cov := .of (u.D k * M * (u.D k)ᵀ) } :=
        ⟨hk.states, hk.states', hk.meas, hk.meas', hk.der, ⟨M, rfl, rfl⟩, hk.fm⟩
      exact ⟨setMeas_in he.2.1 k hk1, he.2.2⟩
    · rintro r r' ⟨⟨o1, c1, m1⟩, hr⟩
      refine ⟨⟨o1, hr⟩, ?_, ?_, ?_⟩
      · intro x q x' q' hx
        have := (hr.1.2 k).fm
        show ((r.1.meas k).fm.checkStationary && FilterModel.isStationary _ x z)
          = ((r'.1.meas k).fm.checkStationary && FilterModel.isStationary _ x' z')
        rw [this.check, this.is x q x' q' z z' hx.2 hz]
      · intro x q x' q' dt hx
        refine OptRel.mono (total (c1 x q dt hx.1) (R := fun r q => u.StateIn r.1 r.2.1 q.1 q.2.1 ∧ UkfEnvIn u r.2.2 q.2.2) ?_)
          fun _ _ h => ⟨⟨h.1.1, h.2.1⟩, h.1.2, h.2.2⟩
        show OptRel False _ ((ukfCorrect eigenLlt junk sc (mc k) r.2 r.1.sys (r.1.meas k) x q z dt (r.1.setMeas k)).map _)
          ((ukfCorrect eigenLlt junk' sc' (mc' k) r'.2 r'.1.sys (r'.1.meas k) x' q' z' dt (r'.1.setMeas k)).map _)
        rw [hr.2]
        exact OptRel.map (ukfCorrect_units (R := u.EnvIn u.NonlinSysIn u.NonlinMeasIn) hT hcl.ops hcl.ops' (hml k) hr.1.1.states
          hr.1.1.states' (hr.1.2 k) o1.2 hx.2 hx.1.2 hz junk junk' dt fun s s' hs => setMeas_in hr.1 k hs)
          fun r q h => ⟨h.1, h.2, rfl⟩
      · intro x q x' q' hx _
        refine OptRel.mono (total (m1 x q hx.1) (R := fun a b => UkfEnvIn u a b ∧
          OptRel False (fun r q => u.StateIn r.1 r.2 q.1 q.2) ((a.1.meas k).fm.makeStationary x q)
            ((b.1.meas k).fm.makeStationary x' q')) ?_)
          fun r q h => ⟨⟨h.1.1, h.2.1⟩, total_state h.1.2 h.2.2⟩
        have hx2 := hx.2
        obtain ⟨⟨y, rfl, rfl⟩, hx3⟩ := hx.2
        obtain ⟨w, rfl, rfl⟩ := hz
        show OptRel False _ ((((mc k).processStationary _ _ _).map _).map _) ((((mc' k).processStationary _ _ _).map _).map _)
        rw [Option.map_map, Option.map_map]
        refine OptRel.map (OptRel.of_units ((hml k).stationary _ _ y w (hr.1.2 k))) (fun s s' hs => ?_)
        have he2 := setMeas_in hr.1 k hs
        exact ⟨⟨he2, hr.2⟩, make_in (he2.2 k).fm hx2⟩

/-- **C99.**  Two UKFs for the same problem, the second in other units: the state is `T x` with `T` lower triangular with a
positive diagonal (a positive conversion factor for each state, or each state also offset by multiples of the earlier ones),
controls and sensors are in any other coordinates, the models are the transformed models and every call is the corresponding
call.  If the first filter's problem is well-formed (C36/C37: positive definite covariances, process noise on every state),
both runs complete, at the same time, with `x' = T x` and `P' = T P Tᵀ`, now and at every retained moment.  `junk` and
`junk'` are the contents of uninitialised memory. -/
theorem C99_ukf_units [TimeOps T] [SaneTime T] (u : Units n m p kd) (hT : Units.LowerPos u.T) (junk junk' : Nat → Nat → ℝ)
    {sc sc' : SysClass T NonlinSysData X} (hsc : SysContract NonlinSysData.Sized sc)
    (hsp : sc.SpreadsNoise NonlinSysData.Sized n m p) (hcl : u.SysClassIn u.NonlinSysIn sc sc')
    {mc mc' : K → MeasClass T NonlinMeasData Y} (hmc : ∀ j, MeasContract NonlinMeasData.Sized (mc j))
    (hml : ∀ k, u.MeasClassIn k (u.NonlinMeasIn k) (mc k) (mc' k))
    (sort : List (FilterInput T DVec DMat K) → List (FilterInput T DVec DMat K)) (hsort : SameSort sort sort)
    (params : Params T) (e e' : Env K NonlinSysData X NonlinMeasData Y × SigmaParams) (he : UkfOk n m p kd e)
    (hee : UkfEnvIn u e e') (x : DVec) (c : DMat) (x' : DVec) (c' : DMat) (hx : EstimatePD n x c) (hxx : u.StateIn x c x' c')
    (t : T) (ops ops' : List (Op T DVec DMat K (Env K NonlinSysData X NonlinMeasData Y × SigmaParams)))
    (hops : ∀ op ∈ ops, op.WellFormed (EstimatePD n) (UkfOk n m p kd) m kd DMat.PD)
    (hrel : List.Forall₂ (u.CallIn (UkfEnvIn u)) ops ops') :
    ∃ f g, (construct (ukfPlant eigenLlt junk sc mc) params e x c t).run (ukfPlant eigenLlt junk sc mc) sort ops = some f ∧
      (construct (ukfPlant eigenLlt junk' sc' mc') params e' x' c' t).run (ukfPlant eigenLlt junk' sc' mc') sort ops' = some g ∧
      f.getStateTime = g.getStateTime ∧ u.StateIn f.getState f.getCovariance g.getState g.getCovariance ∧
      List.Forall₂ (fun s s' => s.timestamp = s'.timestamp ∧ u.StateIn s.x s.covariance s'.x s'.covariance) f.history g.history := by
  have hinv := ukf_inv_pd (K := K) (n := n) (m := m) (p := p) eigenLlt_spec junk hsc hcl.ops hsp hmc (fun k => (hml k).ops) kd
  have h := ukf_rel u hT junk junk' hcl hml hinv
  have hd : ∀ d d', (d.size = m ∨ d.size = 0) → u.DataIn d d' →
      DataRel (ukfPlant eigenLlt junk sc mc) (ukfPlant eigenLlt junk' sc' mc') (Units.VecIn u.U) d d' := by
    intro d d' _ h
    rcases h with ⟨h1, h2⟩ | h
    · refine Or.inl ⟨h1, ?_, h2⟩
      obtain ⟨v, rfl, rfl⟩ := h2
      exact h1
    · exact Or.inr h
  have hop : ∀ op op' : Op T DVec DMat K (Env K NonlinSysData X NonlinMeasData Y × SigmaParams),
      op.WellFormed (EstimatePD n) (UkfOk n m p kd) m kd DMat.PD → u.CallIn (UkfEnvIn u) op op' →
      OpRel (ukfPlant eigenLlt junk sc mc) (ukfPlant eigenLlt junk' sc' mc') True (RS u) (RE u) (Units.VecIn u.U)
        (fun z c z' c' k => (Units.VecIn (u.D k) z z' ∧ Units.CovIn (u.D k) c c') ∧ c.PD) op op' := by
    intro op op' w h
    cases op <;> cases op' <;> simp only [Units.CallIn] at h <;> simp only [OpRel] <;> simp only [Op.WellFormed] at w
    · exact ⟨h.1, w, h.2⟩
    · exact h
    · exact ⟨h.1, hd _ _ w h.2⟩
    · obtain ⟨h0, j, h1, h2, h3⟩ := h
      obtain ⟨k, hk, w⟩ := w
      exact ⟨h0, j, h1, h2, h3, w.2.2⟩
    · exact ⟨h.1, hd _ _ w h.2⟩
    · obtain ⟨h0, j, h1, h2, h3⟩ := h
      obtain ⟨k, hk, w⟩ := w
      exact ⟨h0, j, h1, h2, h3, w.2.2⟩
    · exact h
    · exact h
    · rintro e e' ⟨he, hee⟩
      obtain ⟨r, hr, wr⟩ := w e he
      exact total (OptP.of_eq hr wr) (OptRel.of_units (h e e' hee))
  have hrel' : List.Forall₂ (OpRel (ukfPlant eigenLlt junk sc mc) (ukfPlant eigenLlt junk' sc' mc') True (RS u) (RE u) (Units.VecIn u.U)
        (fun z c z' c' k => (Units.VecIn (u.D k) z z' ∧ Units.CovIn (u.D k) c c') ∧ c.PD)) ops ops' := by
    clear hsort he hee hx hxx
    induction hrel with
    | nil => exact .nil
    | cons h1 _ ih =>
      exact .cons (hop _ _ (hops _ List.mem_cons_self) h1) (ih fun op h => hops op (List.mem_cons_of_mem _ h))
  have hr := h.run hsort
    { params := params
      state := { x := (ukfPlant eigenLlt junk sc mc).emptyV, covariance := (ukfPlant eigenLlt junk sc mc).emptyM, timestamp := TimeOps.zero,
                 prevInput := FilterInput.default (ukfPlant eigenLlt junk sc mc) }
      prevControl := (ukfPlant eigenLlt junk sc mc).emptyV
      prevControlCov := (ukfPlant eigenLlt junk sc mc).emptyM
      env := e, history := [], controlQueue := [], measQueue := [] }
    { params := params
      state := { x := (ukfPlant eigenLlt junk' sc' mc').emptyV, covariance := (ukfPlant eigenLlt junk' sc' mc').emptyM,
                 timestamp := TimeOps.zero, prevInput := FilterInput.default (ukfPlant eigenLlt junk' sc' mc') }
      prevControl := (ukfPlant eigenLlt junk' sc' mc').emptyV
      prevControlCov := (ukfPlant eigenLlt junk' sc' mc').emptyM
      env := e', history := [], controlQueue := [], measQueue := [] } rfl ⟨he, hee⟩ (Or.inr ⟨rfl, rfl⟩) x c x' c' t ⟨hx, hxx⟩ hrel'
  rcases OptRel.elim hr with ⟨_, _, h0⟩ | ⟨f, g, e1, e2, _, _, _, h4⟩
  · exact False.elim (h0 trivial)
  · obtain ⟨h5, h6⟩ := SimRel.forall₂_concat (l := f.history) (l' := g.history) h4
    exact ⟨f, g, e1, e2, h6.1, h6.2.2, h5.imp fun _ _ h => ⟨h.1, h.2.2⟩⟩

/-! ### The hypotheses can be met: a nonlinear model in other units -/

namespace UkfUnitsExample

/-- State and control doubled, the sensor as before. -/
noncomputable def double : Units 1 1 1 (K := Unit) (fun _ => 1) where
  T := !![2]
  U := !![2]
  N := 1
  D := fun _ => 1
  hT := by rw [Matrix.det_fin_one]; norm_num
  hD := fun _ => by simp

theorem double_lower : Units.LowerPos double.T :=
  ⟨fun i j h => absurd h (by fin_cases i; fin_cases j; decide), fun i => by fin_cases i; show (0 : ℝ) < 2; norm_num⟩

/-- `quadClass` for `y = 2 x`, `v = 2 u`: `g = y + dt (y² / 2 + v)`. -/
noncomputable def quad2Class : SysClass ℝ NonlinSysData Unit :=
  SysClass.plain fun s x u dt =>
    if s.stateSize = 1 ∧ s.controlDims = 1 ∧ s.Rp.rows = 1 then
      some { s with der := ⟨vec1 (head x + dt * (head x ^ 2 / 2 + head u)), mat1 (1 + dt * head x)⟩
                    P := mat1 2
                    V := mat1 dt }
    else some s

/-- `squareClass` for `y = 2 x`. -/
noncomputable def square2Class : MeasClass ℝ NonlinMeasData Unit :=
  MeasClass.plain fun s x _ =>
    if s.stateSize = 1 ∧ s.measDims = 1 then some { s with der := ⟨vec1 (head x ^ 2 / 4), mat1 (head x / 2)⟩ } else some s

theorem head_double (x : Fin 1 → ℝ) : head (.of (double.T *ᵥ x)) = 2 * x 0 := by
  rw [head_of]; show (!![(2 : ℝ)] *ᵥ x) 0 = _; simp [mulVec, dotProduct]
theorem head_doubleU (x : Fin 1 → ℝ) : head (.of (double.U *ᵥ x)) = 2 * x 0 := head_double x

theorem sysClassIn : double.SysClassIn double.NonlinSysIn quadClass quad2Class where
  ops := plain_ops _
  ops' := plain_ops _
  update s s' x v dt hs := by
    obtain ⟨M, h1, h2⟩ := hs.Rp
    have c1 : s.stateSize = 1 ∧ s.controlDims = 1 ∧ s.Rp.rows = 1 := ⟨hs.states, hs.controls, by rw [h1]⟩
    have c2 : s'.stateSize = 1 ∧ s'.controlDims = 1 ∧ s'.Rp.rows = 1 := ⟨hs.states', hs.controls', by rw [h2]⟩
    show Units.Both _ (if s.stateSize = 1 ∧ s.controlDims = 1 ∧ s.Rp.rows = 1 then _ else some s)
      (if s'.stateSize = 1 ∧ s'.controlDims = 1 ∧ s'.Rp.rows = 1 then _ else some s')
    rw [if_pos c1, if_pos c2]
    rw [head_double, head_doubleU, head_of, head_of]
    refine ⟨hs.states, hs.states', hs.controls, hs.controls', ⟨⟨_, rfl, ?_⟩, _, _, rfl, rfl, ?_⟩, ⟨_, _, rfl, rfl, ?_⟩,
      hs.Rp, ⟨_, _, rfl, rfl, ?_⟩, hs.Rc, hs.fm⟩
    · rw [DVec.of_inj]; show _ = !![(2 : ℝ)] *ᵥ _
      ext i; fin_cases i; simp [mulVec, dotProduct]; ring
    · show !![_] * !![(2 : ℝ)] = !![(2 : ℝ)] * !![_]
      ext i j; fin_cases i; fin_cases j; simp [Matrix.mul_apply]; ring
    · show !![(2 : ℝ)] * (1 : Matrix (Fin 1) (Fin 1) ℝ) = !![(2 : ℝ)] * !![(1 : ℝ)]
      ext i j; fin_cases i; fin_cases j; simp [Matrix.mul_apply]
    · show !![dt] * !![(2 : ℝ)] = !![(2 : ℝ)] * !![dt]
      ext i j; fin_cases i; fin_cases j; simp [Matrix.mul_apply]; ring
  stationary s s' x d d' hs _ := hs

theorem measClassIn : double.MeasClassIn () (double.NonlinMeasIn ()) squareClass square2Class where
  ops := plain_mops _
  ops' := plain_mops _
  update s s' x dt hs := by
    show Units.Both _ (if s.stateSize = 1 ∧ s.measDims = 1 then _ else some s) (if s'.stateSize = 1 ∧ s'.measDims = 1 then _ else some s')
    rw [if_pos ⟨hs.states, hs.meas⟩, if_pos ⟨hs.states', hs.meas'⟩, head_double, head_of]
    refine ⟨hs.states, hs.states', hs.meas, hs.meas', ⟨⟨_, rfl, ?_⟩, _, _, rfl, rfl, ?_⟩, hs.cov, hs.fm⟩
    · rw [DVec.of_inj]; show _ = (1 : Matrix (Fin 1) (Fin 1) ℝ) *ᵥ _
      rw [one_mulVec]; ext i; fin_cases i; simp; ring
    · show !![_] * !![(2 : ℝ)] = (1 : Matrix (Fin 1) (Fin 1) ℝ) * !![_]
      rw [Matrix.one_mul]; ext i j; fin_cases i; fin_cases j; simp [Matrix.mul_apply]; ring
  stationary s s' x z hs := hs

theorem stationaryIn {n m p : Nat} {kd : Unit → Nat} (u : Units n m p kd) (R : DVec → DVec → Prop) :
    u.StationaryIn R (FilterModel.construct n) (FilterModel.construct n) where
  check := rfl
  is _ _ _ _ _ _ _ _ := rfl
  make _ _ _ _ h := h

theorem envIn (sp : SigmaParams) : UkfEnvIn double (quadEnv, sp) (quadEnv, sp) := by
  refine ⟨⟨⟨rfl, rfl, rfl, rfl, ⟨⟨0, rfl, ?_⟩, UnitsExample.mat_zero _ _⟩, UnitsExample.mat_zero _ _, ⟨1, rfl, ?_⟩, UnitsExample.mat_zero _ _,
    UnitsExample.cov_zero _, stationaryIn _ _⟩, fun _ => ⟨rfl, rfl, rfl, rfl, ⟨⟨0, rfl, ?_⟩, UnitsExample.mat_zero _ _⟩,
    UnitsExample.cov_zero _, stationaryIn _ _⟩⟩, rfl⟩
  · rw [mulVec_zero]; rfl
  · show _ = DMat.of ((1 : Matrix (Fin 1) (Fin 1) ℝ) * 1 * 1ᵀ); simp; rfl
  · rw [mulVec_zero]; rfl

/-- A run of both: one control, a late measurement, a coast. -/
example (junk junk' : Nat → Nat → ℝ) (sp : SigmaParams) (hsp : setSigma 1 1 0.001 0 2 = some sp)
    (sort : List (FilterInput ℝ DVec DMat Unit) → List (FilterInput ℝ DVec DMat Unit)) (hsort : SameSort sort sort) :
    ∃ f g, (construct (ukfPlant eigenLlt junk quadClass fun _ => squareClass) ⟨true, 5, true⟩ (quadEnv, sp) (vec1 3) (mat1 1) 0).run
        (ukfPlant eigenLlt junk quadClass fun _ => squareClass) sort
        [.predictControl (vec1 1) 2, .correct (vec1 3) (mat1 4) 1 (some ()), .predictTime 5] = some f ∧
      (construct (ukfPlant eigenLlt junk' quad2Class fun _ => square2Class) ⟨true, 5, true⟩ (quadEnv, sp) (vec1 6) (mat1 4) 0).run
        (ukfPlant eigenLlt junk' quad2Class fun _ => square2Class) sort
        [.predictControl (vec1 2) 2, .correct (vec1 3) (mat1 4) 1 (some ()), .predictTime 5] = some g ∧
      f.getStateTime = g.getStateTime ∧ double.StateIn f.getState f.getCovariance g.getState g.getCovariance := by
  have hpd : ∀ a : ℝ, 0 < a → (mat1 a).PD := fun a ha => by
    have h : (!![a] : Matrix (Fin 1) (Fin 1) ℝ) = a • 1 := by ext i j; fin_cases i; fin_cases j; simp
    rw [show mat1 a = .of !![a] from rfl, DMat.PD_of, h]
    exact PosDef.one.smul ha
  obtain ⟨f, g, h1, h2, h3, h4, _⟩ := C99_ukf_units (T := ℝ) (kd := fun _ : Unit => 1) double double_lower junk junk' quad_contract
    quad_spreads sysClassIn (fun _ => square_contract) (fun _ => measClassIn) sort hsort ⟨true, 5, true⟩ (quadEnv, sp) (quadEnv, sp)
    ⟨quadEnv_ok, _, _, _, hsp, by norm_num, by norm_num⟩ (envIn sp) (vec1 3) (mat1 1) (vec1 6) (mat1 4)
    ⟨⟨rfl, rfl, rfl⟩, hpd 1 one_pos⟩
    ⟨⟨_, rfl, by rw [DVec.of_inj]; show _ = !![(2 : ℝ)] *ᵥ _; ext i; fin_cases i; simp; norm_num⟩,
      _, rfl, by rw [DMat.of_inj]; show _ = !![(2 : ℝ)] * _ * !![(2 : ℝ)]ᵀ; ext i j; fin_cases i; fin_cases j; simp [Matrix.mul_apply]; norm_num⟩
    0 [.predictControl (vec1 1) 2, .correct (vec1 3) (mat1 4) 1 (some ()), .predictTime 5]
    [.predictControl (vec1 2) 2, .correct (vec1 3) (mat1 4) 1 (some ()), .predictTime 5]
    (by
      intro op hop
      simp only [List.mem_cons, List.not_mem_nil, or_false] at hop
      rcases hop with rfl | rfl | rfl
      · exact Or.inl rfl
      · exact ⟨(), rfl, rfl, ⟨rfl, rfl⟩, hpd 4 (by norm_num)⟩
      · trivial)
    (.cons ⟨rfl, Or.inl ⟨Nat.one_pos, _, rfl, by rw [DVec.of_inj]; show _ = !![(2 : ℝ)] *ᵥ _; ext i; fin_cases i; simp⟩⟩
      (.cons ⟨rfl, (), rfl, rfl, ⟨_, rfl, by rw [DVec.of_inj]; show _ = (1 : Matrix (Fin 1) (Fin 1) ℝ) *ᵥ _; simp⟩,
        _, rfl, by rw [DMat.of_inj]; show _ = (1 : Matrix (Fin 1) (Fin 1) ℝ) * _ * 1ᵀ; simp⟩ (.cons rfl .nil)))
  exact ⟨f, g, h1, h2, h3, h4⟩

/-! ### Renumbering the states is not covered, and changes the estimate -/

/-- Exchange the two states. -/
noncomputable def swap : Units 2 1 1 (K := Unit) (fun _ => 1) where
  T := !![0, 1; 1, 0]
  U := 1
  N := 1
  D := fun _ => 1
  hT := by rw [Matrix.det_fin_two_of]; norm_num
  hD := fun _ => by simp

/-- Entry of a vector. -/
noncomputable def ent (x : DVec) (i : Nat) : ℝ := (x.get? i).getD 0

theorem ent_of (x : Fin 2 → ℝ) (i : Fin 2) : ent (.of x) i = x i := by
  unfold ent DVec.get?
  rw [dif_pos i.isLt]; rfl

/-- `g = (x₀⁴, x₁)`. -/
noncomputable def quartClass : SysClass ℝ NonlinSysData Unit :=
  SysClass.plain fun s x _ _ =>
    if s.stateSize = 2 ∧ s.controlDims = 1 ∧ s.Rp.rows = 1 then
      some { s with der := ⟨.of ![ent x 0 ^ 4, ent x 1], .of !![4 * ent x 0 ^ 3, 0; 0, 1]⟩
                    P := .zero 2 1
                    V := .zero 2 1 }
    else some s

/-- The same model with the states listed in the other order: `g = (x₀, x₁⁴)`. -/
noncomputable def quartClass' : SysClass ℝ NonlinSysData Unit :=
  SysClass.plain fun s x _ _ =>
    if s.stateSize = 2 ∧ s.controlDims = 1 ∧ s.Rp.rows = 1 then
      some { s with der := ⟨.of ![ent x 0, ent x 1 ^ 4], .of !![1, 0; 0, 4 * ent x 1 ^ 3]⟩
                    P := .zero 2 1
                    V := .zero 2 1 }
    else some s

theorem quart_contract : SysContract NonlinSysData.Sized quartClass := by
  apply plain_contract
  intro n m s x u dt hs hx hu
  split
  next h =>
    obtain ⟨h1, h2, h3⟩ := h
    have hn : n = 2 := by rw [← hs.states]; exact h1
    have hm : m = 1 := by rw [← hs.controls]; exact h2
    subst hn hm
    exact ⟨_, rfl, ⟨hs.states, hs.controls, ⟨rfl, rfl, rfl⟩, ⟨rfl, h3.symm⟩, hs.Rp, ⟨rfl, rfl⟩, hs.Rc⟩,
      ⟨rfl, rfl, rfl, rfl, rfl⟩⟩
  next => exact ⟨s, rfl, hs, Sys.SameConfig.refl s⟩

theorem quart_contract' : SysContract NonlinSysData.Sized quartClass' := by
  apply plain_contract
  intro n m s x u dt hs hx hu
  split
  next h =>
    obtain ⟨h1, h2, h3⟩ := h
    have hn : n = 2 := by rw [← hs.states]; exact h1
    have hm : m = 1 := by rw [← hs.controls]; exact h2
    subst hn hm
    exact ⟨_, rfl, ⟨hs.states, hs.controls, ⟨rfl, rfl, rfl⟩, ⟨rfl, h3.symm⟩, hs.Rp, ⟨rfl, rfl⟩, hs.Rc⟩,
      ⟨rfl, rfl, rfl, rfl, rfl⟩⟩
  next => exact ⟨s, rfl, hs, Sys.SameConfig.refl s⟩

/-- Fresh objects for two states, one control, one process noise. -/
noncomputable def quartEnv : Env Unit NonlinSysData Unit NonlinMeasData Unit :=
  { sys := Sys.constructNonlinear 2 1 1 (), meas := fun _ => Meas.constructNonlinear 2 1 () }

theorem quart_sized : quartEnv.sys.Sized NonlinSysData.Sized 2 1 :=
  ⟨rfl, rfl, ⟨rfl, rfl, rfl⟩, ⟨rfl, rfl⟩, ⟨rfl, rfl⟩, ⟨rfl, rfl⟩, ⟨rfl, rfl⟩⟩

theorem swap_class : swap.SysClassIn swap.NonlinSysIn quartClass quartClass' where
  ops := plain_ops _
  ops' := plain_ops _
  update s s' x v dt hs := by
    obtain ⟨M, h1, h2⟩ := hs.Rp
    have c1 : s.stateSize = 2 ∧ s.controlDims = 1 ∧ s.Rp.rows = 1 := ⟨hs.states, hs.controls, by rw [h1]⟩
    have c2 : s'.stateSize = 2 ∧ s'.controlDims = 1 ∧ s'.Rp.rows = 1 := ⟨hs.states', hs.controls', by rw [h2]⟩
    show Units.Both _ (if s.stateSize = 2 ∧ s.controlDims = 1 ∧ s.Rp.rows = 1 then _ else some s)
      (if s'.stateSize = 2 ∧ s'.controlDims = 1 ∧ s'.Rp.rows = 1 then _ else some s')
    rw [if_pos c1, if_pos c2]
    have t0 : ent (.of (swap.T *ᵥ x)) 0 = x 1 := (ent_of _ 0).trans (by show (!![(0 : ℝ), 1; 1, 0] *ᵥ x) 0 = _; simp [mulVec, dotProduct])
    have t1 : ent (.of (swap.T *ᵥ x)) 1 = x 0 := (ent_of _ 1).trans (by show (!![(0 : ℝ), 1; 1, 0] *ᵥ x) 1 = _; simp [mulVec, dotProduct])
    rw [t0, t1, show ent (.of x) 0 = x 0 from ent_of x 0, show ent (.of x) 1 = x 1 from ent_of x 1]
    refine ⟨hs.states, hs.states', hs.controls, hs.controls', ⟨⟨_, rfl, ?_⟩, _, _, rfl, rfl, ?_⟩, UnitsExample.mat_zero _ _,
      hs.Rp, UnitsExample.mat_zero _ _, hs.Rc, hs.fm⟩
    · rw [DVec.of_inj]; show _ = !![(0 : ℝ), 1; 1, 0] *ᵥ _
      ext i; fin_cases i <;> simp [mulVec, dotProduct]
    · show !![1, 0; 0, 4 * x 0 ^ 3] * !![(0 : ℝ), 1; 1, 0] = !![(0 : ℝ), 1; 1, 0] * !![4 * x 0 ^ 3, 0; 0, 1]
      ext i j; fin_cases i <;> fin_cases j <;> simp [Matrix.mul_apply]
  stationary s s' x d d' hs _ := hs

theorem swap_env : swap.EnvIn swap.NonlinSysIn swap.NonlinMeasIn quartEnv quartEnv := by
  refine ⟨⟨rfl, rfl, rfl, rfl, ⟨⟨0, rfl, ?_⟩, UnitsExample.mat_zero _ _⟩, UnitsExample.mat_zero _ _, UnitsExample.cov_zero _, UnitsExample.mat_zero _ _,
    UnitsExample.cov_zero _, stationaryIn _ _⟩, fun _ => ⟨rfl, rfl, rfl, rfl, ⟨⟨0, rfl, ?_⟩, UnitsExample.mat_zero _ _⟩,
    UnitsExample.cov_zero _, stationaryIn _ _⟩⟩
  · rw [mulVec_zero]; rfl
  · rw [mulVec_zero]; rfl

/-- Both states have variance 12.5 and covariance 7.5. -/
noncomputable abbrev P₀ : Matrix (Fin 2) (Fin 2) ℝ := !![12.5, 7.5; 7.5, 12.5]

private theorem chol : lltLower ((((2 : ℕ) : ℝ) + 0) • P₀) = !![5, 0; 3, 4] := by
  refine lltLower_unique ⟨?_, ?_⟩ ?_
  · intro i j; fin_cases i <;> fin_cases j <;> simp
  · intro i; fin_cases i <;> simp
  · ext i j; fin_cases i <;> fin_cases j <;> simp [Matrix.mul_apply, Fin.sum_univ_two] <;> norm_num

private theorem step {sc : SysClass ℝ NonlinSysData Unit} (hsc : SysContract NonlinSysData.Sized sc) (hso : sc.PlainOps)
    (F : (Fin 2 → ℝ) → Fin 2 → ℝ)
    (hF : ∀ q y, SysImage sc 2 1 quartEnv.sys (.of q) (vec1 0) 1 y → y = F q)
    (junk : Nat → Nat → ℝ) (sp : SigmaParams) (hsp : setSigma 2 2 1 0 3 = some sp) (params : Params ℝ)
    (r : Fin 2 → ℝ) (hr : (1 / 4 : ℝ) • (F ![5, 3] + F ![0, 4] + F ![-5, -3] + F ![0, -4]) = r) :
    ∃ f, (construct (ukfPlant eigenLlt junk sc fun _ : Unit => squareClass) params (quartEnv, sp) (.of ![0, 0]) (.of P₀) 0).predictControl
        (ukfPlant eigenLlt junk sc fun _ : Unit => squareClass) (vec1 0) 1 = some f ∧ f.getState = .of r := by
  obtain ⟨lam, e1, e2, e3⟩ := setSigma_eq hsp
  have hlam : lam = 0 := by
    have : ((2 : ℕ) : ℝ) = 2 := rfl
    rw [this] at e1; linarith
  subst hlam
  have hL : eigenLlt (.of ((((2 : ℕ) : ℝ) + 0) • P₀)) = some (.of !![5, 0; 3, 4]) := by rw [eigenLlt_of, chol]
  obtain ⟨s', p, y, W, V, Rp, Rc, e, hs', hc, hy0, hy, _⟩ :=
    ukfPredict_of (d := (3 : ℝ) - 1 ^ 2) hsc hso junk quart_sized hL ![0, 0] (u := vec1 0) rfl (1 : ℝ)
      (fun s => ({ quartEnv with sys := s } : Env Unit NonlinSysData Unit NonlinMeasData Unit))
  obtain ⟨g, h1, h2, _⟩ := with_predict_now (sc := sc) (mc := fun _ : Unit => squareClass)
    (predict := fun sp e x cov u dt => ukfPredict eigenLlt junk sc sp e.sys x cov u dt fun s => { e with sys := s })
    (correct := fun sp e x cov z k dt => ukfCorrect eigenLlt junk sc squareClass sp e.sys (e.meas k) x cov z dt (e.setMeas k))
    (construct (ukfPlant eigenLlt junk sc fun _ : Unit => squareClass) params (quartEnv, sp) (.of ![0, 0]) (.of P₀) 0)
    (vec1 0) Nat.one_pos 1 (show (0 : ℝ) ≤ 1 by norm_num) ⟨rfl, rfl⟩ rfl (by
      have : TimeOps.sub (1 : ℝ) ((construct (ukfPlant eigenLlt junk sc fun _ : Unit => squareClass) params (quartEnv, sp)
        (.of ![0, 0]) (.of P₀) 0).getStateTime) = 1 := sub_zero (1 : ℝ)
      rw [this, e3]
      exact e)
  refine ⟨g, h1, ?_⟩
  rw [h2, DVec.of_inj, ← hr]
  have c0 : (![0, 0] : Fin 2 → ℝ) + colsOf !![5, 0; 3, 4] 0 = ![5, 3] := by
    ext i; fin_cases i <;> simp [colsOf]
  have c1 : (![0, 0] : Fin 2 → ℝ) + colsOf !![5, 0; 3, 4] 1 = ![0, 4] := by
    ext i; fin_cases i <;> simp [colsOf]
  have c2 : (![0, 0] : Fin 2 → ℝ) - colsOf !![5, 0; 3, 4] 0 = ![-5, -3] := by
    ext i; fin_cases i <;> simp [colsOf]
  have c3 : (![0, 0] : Fin 2 → ℝ) - colsOf !![5, 0; 3, 4] 1 = ![0, -4] := by
    ext i; fin_cases i <;> simp [colsOf]
  have h0 := hy 0 (by norm_num)
  have h1 := hy 1 (by norm_num)
  rw [c0, c2] at h0
  rw [c1, c3] at h1
  have y1 := hF _ _ h0.1
  have y3 := hF _ _ h0.2
  have y2 := hF _ _ h1.1
  have y4 := hF _ _ h1.2
  unfold mean
  simp only [Finset.sum_range_succ, Finset.sum_range_zero, wm]
  simp only [zero_add] at y1 y3
  norm_num at y1 y2 y3 y4 ⊢
  rw [y1, y2, y3, y4]

/-- **C99 (renumbering).**  One model, two states with positively correlated errors, written down in the two possible orders;
the same (symmetric) initial estimate.  A UKF with `alpha = 1`, `kappa = 0`, `beta = 3` predicts the first component of
`(x₀⁴, x₁)` as 312.5 if it is listed first and as 168.5 if it is listed last. -/
theorem C99_order_matters (junk : Nat → Nat → ℝ) (sp : SigmaParams) (hsp : setSigma 2 2 1 0 3 = some sp) (params : Params ℝ) :
    swap.SysClassIn swap.NonlinSysIn quartClass quartClass' ∧ swap.EnvIn swap.NonlinSysIn swap.NonlinMeasIn quartEnv quartEnv ∧
    swap.StateIn (.of ![0, 0]) (.of P₀) (.of ![0, 0]) (.of P₀) ∧ P₀.PosDef ∧
    (∃ f, (construct (ukfPlant eigenLlt junk quartClass fun _ : Unit => squareClass) params (quartEnv, sp) (.of ![0, 0]) (.of P₀) 0).predictControl
        (ukfPlant eigenLlt junk quartClass fun _ : Unit => squareClass) (vec1 0) 1 = some f ∧ f.getState = .of ![312.5, 0]) ∧
    (∃ g, (construct (ukfPlant eigenLlt junk quartClass' fun _ : Unit => squareClass) params (quartEnv, sp) (.of ![0, 0]) (.of P₀) 0).predictControl
        (ukfPlant eigenLlt junk quartClass' fun _ : Unit => squareClass) (vec1 0) 1 = some g ∧ g.getState = .of ![0, 168.5]) := by
  refine ⟨swap_class, swap_env, ⟨⟨![0, 0], rfl, ?_⟩, P₀, rfl, ?_⟩, ?_, ?_, ?_⟩
  · rw [DVec.of_inj]; show _ = !![(0 : ℝ), 1; 1, 0] *ᵥ ![0, 0]; ext i; fin_cases i <;> simp
  · rw [DMat.of_inj]; show _ = !![(0 : ℝ), 1; 1, 0] * P₀ * !![(0 : ℝ), 1; 1, 0]ᵀ
    ext i j; fin_cases i <;> fin_cases j <;> simp [Matrix.mul_apply, Fin.sum_univ_two]
  · refine Matrix.PosDef.of_dotProduct_mulVec_pos ?_ fun v hv => ?_
    · ext i j; fin_cases i <;> fin_cases j <;> simp
    · have : star v ⬝ᵥ P₀ *ᵥ v = 5 * v 0 ^ 2 + 5 * v 1 ^ 2 + 7.5 * (v 0 + v 1) ^ 2 := by
        simp [dotProduct, mulVec, Fin.sum_univ_two]; ring
      rw [this]
      have h : v 0 ≠ 0 ∨ v 1 ≠ 0 := by
        by_contra h
        push_neg at h
        exact hv (by ext i; fin_cases i; exacts [h.1, h.2])
      rcases h with h | h
      · have := sq_pos_of_ne_zero (a := v 0) h; positivity
      · have := sq_pos_of_ne_zero (a := v 1) h; positivity
  · refine step quart_contract (plain_ops _) (fun q => ![q 0 ^ 4, q 1]) ?_ junk sp hsp params _ ?_
    · rintro q y ⟨s', ⟨s, h1, h2, h3⟩, h4⟩
      change (if _ then _ else _) = _ at h3
      rw [if_pos ⟨h1.states, h1.controls, by rw [h2.Rp]; rfl⟩] at h3
      injection h3 with h3
      subst h3
      have := DVec.of_inj.mp h4
      rw [← this, show ent (.of q) 0 = q 0 from ent_of q 0, show ent (.of q) 1 = q 1 from ent_of q 1]
    · ext i; fin_cases i <;> simp <;> norm_num
  · refine step quart_contract' (plain_ops _) (fun q => ![q 0, q 1 ^ 4]) ?_ junk sp hsp params _ ?_
    · rintro q y ⟨s', ⟨s, h1, h2, h3⟩, h4⟩
      change (if _ then _ else _) = _ at h3
      rw [if_pos ⟨h1.states, h1.controls, by rw [h2.Rp]; rfl⟩] at h3
      injection h3 with h3
      subst h3
      have := DVec.of_inj.mp h4
      rw [← this, show ent (.of q) 0 = q 0 from ent_of q 0, show ent (.of q) 1 = q 1 from ent_of q 1]
    · ext i; fin_cases i <;> simp <;> norm_num

end UkfUnitsExample

end Props
end StateEstimation
