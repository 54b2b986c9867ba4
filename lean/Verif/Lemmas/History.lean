import Verif.Spec.History
import Verif.Lemmas.KFApi

/-! # The Kalman filter after recorded calls is the Kalman recursion over the recorded events -/

set_option linter.unusedSectionVars false

namespace StateEstimation

open Matrix Kalman

variable {T K X Y : Type} [DecidableEq K] {n m : Nat} {kd : K → Nat}

/-- Kalman recursion -/
noncomputable def kalmanRec (x0 : Fin n → ℝ) (P0 : Matrix (Fin n) (Fin n) ℝ) :
    List (Event n m) → (Fin n → ℝ) × Matrix (Fin n) (Fin n) ℝ
  | [] => (x0, P0)
  | .move A B W V Rp Rc u :: evs =>
    (A *ᵥ (kalmanRec x0 P0 evs).1 + B *ᵥ u, A * (kalmanRec x0 P0 evs).2 * Aᵀ + W * Rp * Wᵀ + V * Rc * Vᵀ)
  | .measure C R z :: evs =>
    (postState (kalmanRec x0 P0 evs).1 (kalmanRec x0 P0 evs).2 C R z, post (kalmanRec x0 P0 evs).2 C R)

theorem kalmanRec_psd {x0 : Fin n → ℝ} {P0 : Matrix (Fin n) (Fin n) ℝ} (h0 : P0.PosSemidef) :
    ∀ {evs : List (Event n m)}, (∀ ev ∈ evs, ev.Ok) → (kalmanRec x0 P0 evs).2.PosSemidef := by
  intro evs
  induction evs with
  | nil => intro _; exact h0
  | cons ev evs ih =>
    intro h
    have h1 := ih (fun e he => h e (List.mem_cons_of_mem _ he))
    have h2 := h ev List.mem_cons_self
    cases ev with
    | move A B W V Rp Rc u => exact propagate_psd h1 h2.1 h2.2
    | measure C R z => exact post_psd h1 C h2

namespace History

/-- what holds of the core after recorded calls -/
structure CoreInv (n m : Nat) (kd : K → Nat) (c : Core T DVec DMat (Env K LinSysData X LinMeasData Y)) (x : Fin n → ℝ)
    (P : Matrix (Fin n) (Fin n) ℝ) (ctl : Fin m → ℝ) : Prop where
  sys : c.env.sys.Sized LinSysData.Sized n m
  meas : ∀ j, (c.env.meas j).Sized LinMeasData.Sized n (kd j)
  quiet : Quiet c.env
  x : c.x = .of x
  cov : c.cov = .of P
  ctl : (c.pc = .of ctl ∧ 0 < m ∧ c.pcc.Is m m) ∨ (c.pc.size = 0 ∧ ctl = 0)

variable [TimeOps T]

theorem CoreInv.tick {c : Core T DVec DMat (Env K LinSysData X LinMeasData Y)} {x P ctl} (h : CoreInv n m kd c x P ctl) (dt : T) :
    CoreInv n m kd (c.tick dt) x P ctl := ⟨h.sys, h.meas, h.quiet, h.x, h.cov, h.ctl⟩

variable {sc : SysClass T LinSysData X} {mc : K → MeasClass T LinMeasData Y}

/-- the selected control leads to a Kalman prediction -/
theorem control_step' (hsc : SysContract LinSysData.Sized sc) (ops : sc.PlainOps)
    {c : Core T DVec DMat (Env K LinSysData X LinMeasData Y)} {x : Fin n → ℝ} {P : Matrix (Fin n) (Fin n) ℝ} {ctl : Fin m → ℝ}
    (h : CoreInv n m kd c x P ctl) (inp : FilterInput T DVec DMat K) (u : Fin m → ℝ)
    (hsel : (inp.data = .of u ∧ 0 < m ∧ inp.covariance.Is m m) ∨ (inp.data.size = 0 ∧ u = ctl)) :
    ∃ p, ∃ (A : Matrix (Fin n) (Fin n) ℝ) (B : Matrix (Fin n) (Fin m) ℝ) (W : Matrix (Fin n) (Fin p) ℝ)
      (V : Matrix (Fin n) (Fin m) ℝ) (Rp : Matrix (Fin p) (Fin p) ℝ) (Rc : Matrix (Fin m) (Fin m) ℝ) (c' : Core T DVec DMat _),
      c.control (kfPlant sc mc) inp = some c' ∧ c'.env.sys.Holds A B W V Rp Rc ∧ c'.ts = c.ts ∧
      CoreInv n m kd c' (A *ᵥ x + B *ᵥ u) (A * P * Aᵀ + W * Rp * Wᵀ + V * Rc * Vᵀ) u ∧
      sc.myUpdate { c.env.sys with Rc := .of Rc } (.of x) (.of u) (TimeOps.sub inp.timestamp c.ts) = some c'.env.sys ∧
      (inp.data.size = 0 → c.pc.size = 0 → DMat.of Rc = c.env.sys.Rc ∧ c'.pc = c.pc) := by
  obtain ⟨R, a, b, hR, hsel', hctl, hnone⟩ : ∃ R a b, R.Is m m ∧
      (if (kfPlant sc mc).vsize inp.data > 0 then (inp.data, inp.covariance, inp.data, inp.covariance)
        else if (kfPlant sc mc).vsize c.pc > 0 then (c.pc, c.pcc, c.pc, c.pcc)
        else ((kfPlant sc mc).zeroV ((kfPlant sc mc).controlSize c.env), (kfPlant sc mc).rc c.env, c.pc, c.pcc))
        = (.of u, R, a, b) ∧ ((a = .of u ∧ 0 < m ∧ b.Is m m) ∨ (a.size = 0 ∧ u = 0)) ∧
      (inp.data.size = 0 → c.pc.size = 0 → R = c.env.sys.Rc ∧ a = c.pc) := by
    rcases hsel with ⟨h1, h2, h3⟩ | ⟨h1, rfl⟩
    · have : (kfPlant sc mc).vsize inp.data > 0 := by rw [h1]; exact h2
      have hz : ¬ inp.data.size = 0 := by have : inp.data.size > 0 := this; omega
      rw [if_pos this, h1]
      exact ⟨_, _, _, h3, rfl, Or.inl ⟨rfl, h2, h3⟩, fun h => absurd (by rw [h1]; exact h) hz⟩
    · have : ¬ (kfPlant sc mc).vsize inp.data > 0 := by show ¬ inp.data.size > 0; omega
      rw [if_neg this]
      rcases h.ctl with ⟨h1, h2, h3⟩ | ⟨h1, rfl⟩
      · have : (kfPlant sc mc).vsize c.pc > 0 := by rw [h1]; exact h2
        have hz : ¬ c.pc.size = 0 := by have : c.pc.size > 0 := this; omega
        rw [if_pos this, h1]
        exact ⟨_, _, _, h3, rfl, Or.inl ⟨rfl, h2, h3⟩, fun _ h => absurd (by rw [h1]; exact h) hz⟩
      · have : ¬ (kfPlant sc mc).vsize c.pc > 0 := by show ¬ c.pc.size > 0; omega
        rw [if_neg this]
        refine ⟨c.env.sys.Rc, c.pc, c.pcc, h.sys.Rc, ?_, Or.inr ⟨h1, rfl⟩, fun _ _ => ⟨rfl, rfl⟩⟩
        have e1 : (kfPlant sc mc).zeroV ((kfPlant sc mc).controlSize c.env) = .of (0 : Fin m → ℝ) := by
          show DVec.zero c.env.sys.controlDims = _
          rw [h.sys.controls]; rfl
        rw [e1]; rfl
  obtain ⟨Rc, rfl⟩ := hR.exists_of
  have hset : (kfPlant sc mc).setRc c.env (.of Rc) = some { c.env with sys := { c.env.sys with Rc := .of Rc } } := by
    show ((c.env.sys.setControlCovariance (.of Rc)).map _) = _
    unfold Sys.setControlCovariance
    rw [if_pos ⟨h.sys.controls.symm, h.sys.controls.symm⟩]; rfl
  have hs1 : ({ c.env.sys with Rc := DMat.of Rc } : Sys LinSysData X).Sized LinSysData.Sized n m :=
    ⟨h.sys.states, h.sys.controls, h.sys.der, h.sys.P, h.sys.Rp, h.sys.V, rfl, rfl⟩
  obtain ⟨s', e1, hs', hc⟩ := hs1.update hsc (x := .of x) (u := .of u) rfl rfl (TimeOps.sub inp.timestamp c.ts)
  obtain ⟨A, hA⟩ := hs'.der.1.exists_of
  obtain ⟨B, hB⟩ := hs'.der.2.exists_of
  obtain ⟨p, W, Rp, V, Rc', hW, hRp, hV, hRc⟩ := hs'.noise
  have : Rc' = Rc := by
    have h1 : s'.Rc = .of Rc := hc.Rc
    have := h1.symm.trans hRc
    simpa [DMat.of] using this.symm
  subst this
  have hpred : (kfPlant sc mc).myPredict { c.env with sys := { c.env.sys with Rc := .of Rc' } } c.x c.cov (.of u)
      (TimeOps.sub inp.timestamp c.ts)
      = some (.of (A *ᵥ x + B *ᵥ u), .of (A * P * Aᵀ + W * Rp * Wᵀ + V * Rc' * Vᵀ), { c.env with sys := s' }) := by
    show kfPredict sc _ c.x c.cov (.of u) _ _ = _
    rw [h.x, h.cov]
    unfold kfPredict
    simp only [Option.bind_eq_bind, e1, Option.bind_some, hA, hB, hW, hRp, hV, hRc, DMat.mulVec_of, ops.add, DVec.add_of,
      propagateCov_of]
  have hst : ((kfPlant sc mc).sysCheck c.env && (kfPlant sc mc).sysIsStationary c.env c.x inp.data) = false := by
    show (c.env.sys.fm.checkStationary && _) = false
    rw [h.quiet.1]; rfl
  refine ⟨p, A, B, W, V, Rp, Rc', ⟨.of (A *ᵥ x + B *ᵥ u), .of (A * P * Aᵀ + W * Rp * Wᵀ + V * Rc' * Vᵀ), c.ts, a, b,
    { c.env with sys := s' }⟩, ?_, ⟨hA, hB, hW, hV, hRp, hRc⟩, rfl,
    ⟨hs', h.meas, ⟨?_, h.quiet.2⟩, rfl, rfl, hctl⟩, ?_, hnone⟩
  · unfold Core.control
    dsimp only
    rw [hsel', hst]
    simp only [Bool.not_false, if_true, hset, hpred]
  · show s'.fm.checkStationary = false
    rw [hc.fm]; exact h.quiet.1
  · unfold Sys.update at e1
    split at e1
    · exact e1
    · cases e1

/-- the selected control leads to a Kalman prediction -/
theorem control_step (hsc : SysContract LinSysData.Sized sc) (ops : sc.PlainOps)
    {c : Core T DVec DMat (Env K LinSysData X LinMeasData Y)} {x : Fin n → ℝ} {P : Matrix (Fin n) (Fin n) ℝ} {ctl : Fin m → ℝ}
    (h : CoreInv n m kd c x P ctl) (inp : FilterInput T DVec DMat K) (u : Fin m → ℝ)
    (hsel : (inp.data = .of u ∧ 0 < m ∧ inp.covariance.Is m m) ∨ (inp.data.size = 0 ∧ u = ctl)) :
    ∃ p, ∃ (A : Matrix (Fin n) (Fin n) ℝ) (B : Matrix (Fin n) (Fin m) ℝ) (W : Matrix (Fin n) (Fin p) ℝ)
      (V : Matrix (Fin n) (Fin m) ℝ) (Rp : Matrix (Fin p) (Fin p) ℝ) (Rc : Matrix (Fin m) (Fin m) ℝ) (c' : Core T DVec DMat _),
      c.control (kfPlant sc mc) inp = some c' ∧ c'.env.sys.Holds A B W V Rp Rc ∧ c'.ts = c.ts ∧
      CoreInv n m kd c' (A *ᵥ x + B *ᵥ u) (A * P * Aᵀ + W * Rp * Wᵀ + V * Rc * Vᵀ) u := by
  obtain ⟨p, A, B, W, V, Rp, Rc, c', h1, h2, h3, h4, _⟩ := control_step' (mc := mc) hsc ops h inp u hsel
  exact ⟨p, A, B, W, V, Rp, Rc, c', h1, h2, h3, h4⟩

/-- a measurement leads to a Kalman correction -/
theorem meas_step' (hmc : ∀ j, MeasContract LinMeasData.Sized (mc j))
    (ops : sc.PlainOps) (mops : ∀ j, (mc j).PlainOps)
    {c : Core T DVec DMat (Env K LinSysData X LinMeasData Y)} {x : Fin n → ℝ} {P : Matrix (Fin n) (Fin n) ℝ} {ctl : Fin m → ℝ}
    (h : CoreInv n m kd c x P ctl) (hP : P.PosSemidef) (j : K) (z : Fin (kd j) → ℝ) (R : Matrix (Fin (kd j)) (Fin (kd j)) ℝ)
    (hR : R.PosDef) (t dt : T) :
    ∃ (C : Matrix (Fin (kd j)) (Fin n) ℝ) (c' : Core T DVec DMat _),
      c.meas (kfPlant sc mc) (measurementInput (.of z) (.of R) t (some j)) dt = some c' ∧ (c'.env.meas j).der.C = .of C ∧
      c'.env.sys = c.env.sys ∧ c'.ts = c.ts ∧ CoreInv n m kd c' (postState x P C R z) (post P C R) ctl ∧
      (mc j).myUpdate ((c.env.meas j).withCov (.of R)) (.of x) dt = some (c'.env.meas j) ∧ c'.pc = c.pc := by
  have hm := h.meas j
  have hset := mkPlant_setMeasCov (sc := sc) (mc := mc)
    (pr := fun e x cov u dt => kfPredict sc e.sys x cov u dt fun s => { e with sys := s })
    (co := fun e x cov z k dt => kfCorrect sc (mc k) e.sys (e.meas k) x cov z dt (e.setMeas k))
    c.env j (.of R) (by rw [hm.meas]; exact ⟨rfl, rfl⟩)
  have hms : ((c.env.meas j).withCov (.of R)).Sized LinMeasData.Sized n (kd j) := ⟨hm.states, hm.meas, hm.der, rfl, rfl⟩
  obtain ⟨ms, e1, hms', hc⟩ := hms.update (hmc j) (x := .of x) rfl dt
  obtain ⟨C, hC⟩ := hms'.der.exists_of
  have hcov : ms.cov = .of R := hc.cov
  have hS := pd_isUnit_det (innov_pd hP C hR)
  have hst : ((kfPlant sc mc).measCheck (c.env.setMeas j ((c.env.meas j).withCov (.of R))) j &&
      (kfPlant sc mc).measIsStationary (c.env.setMeas j ((c.env.meas j).withCov (.of R))) j c.x (.of z)) = false := by
    show (((c.env.setMeas j ((c.env.meas j).withCov (.of R))).meas j).fm.checkStationary && _) = false
    rw [Env.setMeas_meas]
    show ((c.env.meas j).fm.checkStationary && _) = false
    rw [h.quiet.2 j]; rfl
  have hcor : (kfPlant sc mc).myCorrect (c.env.setMeas j ((c.env.meas j).withCov (.of R))) c.x c.cov (.of z) j dt
      = some (.of (postState x P C R z), .of (post P C R), c.env.setMeas j ms) := by
    show kfCorrect sc (mc j) c.env.sys ((c.env.setMeas j ((c.env.meas j).withCov (.of R))).meas j) c.x c.cov (.of z) dt
      ((c.env.setMeas j ((c.env.meas j).withCov (.of R))).setMeas j) = _
    rw [Env.setMeas_meas, h.x, h.cov]
    unfold kfCorrect
    simp only [Option.bind_eq_bind, e1, Option.bind_some, hC, hcov, kalmanGain_of _ _ _ hS, DMat.mulVec_of, (mops j).sub,
      DVec.sub_of, ops.add, DVec.add_of, shrinkCov_of, Env.setMeas_setMeas]
    rfl
  refine ⟨C, { c with x := .of (postState x P C R z), cov := .of (post P C R), env := c.env.setMeas j ms }, ?_, ?_, rfl, rfl,
    ⟨h.sys, fun i => ?_, ⟨h.quiet.1, fun i => ?_⟩, rfl, rfl, h.ctl⟩, ?_, rfl⟩
  · unfold Core.meas measurementInput
    have hset' : (kfPlant sc mc).setMeasCov c.env j (.of R) = some (c.env.setMeas j ((c.env.meas j).withCov (.of R))) := hset
    simp only [hset', hst, Bool.not_false, if_true, hcor]
  · show ((c.env.setMeas j ms).meas j).der.C = _
    rw [Env.setMeas_meas]; exact hC
  · show ((c.env.setMeas j ms).meas i).Sized _ _ _
    by_cases hi : i = j
    · subst hi; rw [Env.setMeas_meas]; exact hms'
    · show ((if i = j then ms else c.env.meas i)).Sized _ _ _
      rw [if_neg hi]; exact h.meas i
  · show ((c.env.setMeas j ms).meas i).fm.checkStationary = false
    by_cases hi : i = j
    · subst hi; rw [Env.setMeas_meas, hc.fm]; exact h.quiet.2 i
    · show ((if i = j then ms else c.env.meas i)).fm.checkStationary = false
      rw [if_neg hi]; exact h.quiet.2 i
  · show _ = some ((c.env.setMeas j ms).meas j)
    rw [Env.setMeas_meas]
    unfold Meas.update at e1
    split at e1
    · exact e1
    · cases e1

/-- a measurement leads to a Kalman correction -/
theorem meas_step (hmc : ∀ j, MeasContract LinMeasData.Sized (mc j))
    (ops : sc.PlainOps) (mops : ∀ j, (mc j).PlainOps)
    {c : Core T DVec DMat (Env K LinSysData X LinMeasData Y)} {x : Fin n → ℝ} {P : Matrix (Fin n) (Fin n) ℝ} {ctl : Fin m → ℝ}
    (h : CoreInv n m kd c x P ctl) (hP : P.PosSemidef) (j : K) (z : Fin (kd j) → ℝ) (R : Matrix (Fin (kd j)) (Fin (kd j)) ℝ)
    (hR : R.PosDef) (t dt : T) :
    ∃ (C : Matrix (Fin (kd j)) (Fin n) ℝ) (c' : Core T DVec DMat _),
      c.meas (kfPlant sc mc) (measurementInput (.of z) (.of R) t (some j)) dt = some c' ∧ (c'.env.meas j).der.C = .of C ∧
      c'.env.sys = c.env.sys ∧ c'.ts = c.ts ∧ CoreInv n m kd c' (postState x P C R z) (post P C R) ctl := by
  obtain ⟨C, c', h1, h2, h3, h4, h5, _⟩ := meas_step' (sc := sc) hmc ops mops h hP j z R hR t dt
  exact ⟨C, c', h1, h2, h3, h4, h5⟩

/-- a correction does not touch the system model -/
theorem meas_sys {c c' : Core T DVec DMat (Env K LinSysData X LinMeasData Y)} {z : DVec} {R : DMat} {t dt : T} {j : K}
    (h : c.meas (kfPlant sc mc) (measurementInput z R t (some j)) dt = some c') (hq : Quiet c.env) :
    c'.env.sys = c.env.sys := by
  unfold Core.meas measurementInput at h
  dsimp only at h
  cases h1 : (kfPlant sc mc).setMeasCov c.env j R with
  | none => rw [h1] at h; cases h
  | some e =>
    rw [h1] at h
    dsimp only at h
    have h1' : (((c.env.meas j).setCovariance R).map (c.env.setMeas j)) = some e := h1
    obtain ⟨ms, hms, rfl⟩ := Option.map_eq_some_iff.mp h1'
    have hfm : ms.fm = (c.env.meas j).fm := by
      unfold Meas.setCovariance at hms
      split at hms
      · injection hms with hms; subst hms; rfl
      · cases hms
    have hst : ((kfPlant sc mc).measCheck (c.env.setMeas j ms) j &&
        (kfPlant sc mc).measIsStationary (c.env.setMeas j ms) j c.x z) = false := by
      show (((c.env.setMeas j ms).meas j).fm.checkStationary && _) = false
      rw [Env.setMeas_meas, hfm, hq.2 j]; rfl
    rw [hst] at h
    simp only [Bool.not_false, if_true] at h
    cases h2 : (kfPlant sc mc).myCorrect (c.env.setMeas j ms) c.x c.cov z j dt with
    | none => rw [h2] at h; cases h
    | some r =>
      rw [h2] at h
      injection h with h
      subst h
      have h2' : kfCorrect sc (mc j) c.env.sys ((c.env.setMeas j ms).meas j) c.x c.cov z dt
        ((c.env.setMeas j ms).setMeas j) = some r := h2
      unfold kfCorrect at h2'
      simp only [Option.bind_eq_bind, Option.bind_eq_some_iff] at h2'
      obtain ⟨_, _, _, _, _, _, _, _, _, _, _, _, _, _, h3⟩ := h2'
      injection h3 with h3
      subst h3
      rfl

theorem of_inj {a b : Nat} {A B : Matrix (Fin a) (Fin b) ℝ} (h : DMat.of A = DMat.of B) : A = B := by
  simpa [DMat.of] using h

theorem holds_unique {s : Sys LinSysData X} {p p' : Nat} {A A' : Matrix (Fin n) (Fin n) ℝ} {B B' : Matrix (Fin n) (Fin m) ℝ}
    {W : Matrix (Fin n) (Fin p) ℝ} {W' : Matrix (Fin n) (Fin p') ℝ} {V V' : Matrix (Fin n) (Fin m) ℝ}
    {Rp : Matrix (Fin p) (Fin p) ℝ} {Rp' : Matrix (Fin p') (Fin p') ℝ} {Rc Rc' : Matrix (Fin m) (Fin m) ℝ}
    (h : s.Holds A B W V Rp Rc) (h' : s.Holds A' B' W' V' Rp' Rc') :
    A = A' ∧ B = B' ∧ V = V' ∧ Rc = Rc' ∧ p = p' ∧ HEq W W' ∧ HEq Rp Rp' := by
  have hp : p = p' := by
    have := congrArg DMat.rows (h.Rp.symm.trans h'.Rp); simpa [DMat.of] using this
  subst hp
  exact ⟨of_inj (h.A.symm.trans h'.A), of_inj (h.B.symm.trans h'.B), of_inj (h.V.symm.trans h'.V),
    of_inj (h.Rc.symm.trans h'.Rc), rfl, heq_of_eq (of_inj (h.W.symm.trans h'.W)), heq_of_eq (of_inj (h.Rp.symm.trans h'.Rp))⟩

end History

open History

variable [LinearOrder T] [ExactTime T] {sc : SysClass T LinSysData X} {mc : K → MeasClass T LinMeasData Y}

private theorem map_core {f : Filter T DVec DMat K (Env K LinSysData X LinMeasData Y)} {P} {inp : FilterInput T DVec DMat K}
    {c} (h : Core.apply P f.core inp = some c) {g} (hg : (Filter.applyInput P f inp).map Filter.pruned = some g) : g.core = c := by
  have := Filter.applyInput_core P f inp
  rw [hg, h] at this
  exact Option.some.inj this

theorem Recorded.inv (hsc : SysContract LinSysData.Sized sc) (hmc : ∀ j, MeasContract LinMeasData.Sized (mc j))
    (ops : sc.PlainOps) (mops : ∀ j, (mc j).PlainOps) {x0 : Fin n → ℝ} {P0 : Matrix (Fin n) (Fin n) ℝ} (h0 : P0.PosSemidef)
    {f ctl evs} (h : Recorded sc mc n m kd x0 P0 f ctl evs) (hok : ∀ ev ∈ evs, ev.Ok) :
    CoreInv n m kd f.core (kalmanRec x0 P0 evs).1 (kalmanRec x0 P0 evs).2 ctl := by
  induction h with
  | start params e t hs hm hq => exact ⟨hs, hm, hq, rfl, rfl, Or.inr ⟨rfl, rfl⟩⟩
  | @predict f ctl evs g u t p A B W V Rp Rc _ hm ht hg hh ih =>
    have I := ih (fun e he => hok e (List.mem_cons_of_mem _ he))
    obtain ⟨p', A', B', W', V', Rp', Rc', c', e1, e2, e3, e4⟩ := control_step (mc := mc) hsc ops I
      (controlInput (kfPlant sc mc) f (.of u) t) u (Or.inl ⟨rfl, hm, I.sys.Rc⟩)
    rw [Filter.predictControl_inorder _ _ _ _ ht] at hg
    have happ : Core.apply (kfPlant sc mc) f.core (controlInput (kfPlant sc mc) f (.of u) t)
        = some (c'.tick (TimeOps.sub t f.core.ts)) := by
      exact (congrArg (Option.map fun x => x.tick (TimeOps.sub t f.core.ts)) e1)
    have hc := map_core happ hg
    have hh' : c'.env.sys.Holds A B W V Rp Rc := by
      have : g.env = c'.env := congrArg Core.env hc
      rw [← this]; exact hh
    obtain ⟨rfl, rfl, rfl, rfl, rfl, hW, hRp⟩ := holds_unique e2 hh'
    cases hW; cases hRp
    rw [hc]; exact e4.tick _
  | @predictTime f ctl evs g t p A B W V Rp Rc _ ht hg hh ih =>
    have I := ih (fun e he => hok e (List.mem_cons_of_mem _ he))
    obtain ⟨p', A', B', W', V', Rp', Rc', c', e1, e2, e3, e4⟩ := control_step (mc := mc) hsc ops I
      ⟨(kfPlant sc mc).emptyV, (kfPlant sc mc).rc f.env, t, true, none⟩ ctl (Or.inr ⟨rfl, rfl⟩)
    rw [Filter.predictTime_future _ _ _ ht] at hg
    have happ : Core.apply (kfPlant sc mc) f.core ⟨(kfPlant sc mc).emptyV, (kfPlant sc mc).rc f.env, t, true, none⟩
        = some (c'.tick (TimeOps.sub t f.core.ts)) := by
      unfold Core.apply
      rw [if_pos rfl, e1]; rfl
    have hc := map_core happ hg
    have hh' : c'.env.sys.Holds A B W V Rp Rc := by
      have : g.env = c'.env := congrArg Core.env hc
      rw [← this]; exact hh
    obtain ⟨rfl, rfl, rfl, rfl, rfl, hW, hRp⟩ := holds_unique e2 hh'
    cases hW; cases hRp
    rw [hc]; exact e4.tick _
  | @correct f ctl evs g j z R C _ hg hC ih =>
    have hok' := fun e he => hok e (List.mem_cons_of_mem _ he)
    have I := ih hok'
    obtain ⟨C', c', e1, e2, e3, e4, e5⟩ := meas_step (sc := sc) hmc ops mops I (kalmanRec_psd h0 hok') j z R
      (hok _ List.mem_cons_self) f.getStateTime (TimeOps.sub f.getStateTime f.core.ts)
    rw [Filter.correct_inorder _ _ _ _ _ _ (le_refl _)] at hg
    have hlt : TimeOps.lt TimeOps.zero (TimeOps.sub f.getStateTime f.core.ts) = false := by
      rw [Bool.eq_false_iff]
      intro h
      rw [LawfulTime.lt_iff, LawfulTime.sub_pos_iff] at h
      exact lt_irrefl _ h
    have happ : Core.apply (kfPlant sc mc) f.core (measurementInput (.of z) (.of R) f.getStateTime (some j)) = some c' := by
      unfold Core.apply
      have : (measurementInput (T := T) (DVec.of z) (DMat.of R) f.getStateTime (some j)).isControl = false := rfl
      have ht : (measurementInput (T := T) (DVec.of z) (DMat.of R) f.getStateTime (some j)).timestamp = f.getStateTime := rfl
      simp only [this, ht, hlt, Bool.false_eq_true, if_false]
      exact e1
    have hc := map_core happ hg
    have : C' = C := by
      have h1 : g.env = c'.env := congrArg Core.env hc
      rw [h1, e2] at hC
      exact of_inj hC
    subst this
    rw [hc]; exact e5
  | @correctLater f ctl evs g j z R t C p A B W V Rp Rc _ ht hg hC hh ih =>
    have hok1 := fun e he => hok e (List.mem_cons_of_mem _ he)
    have hok' := fun e he => hok1 e (List.mem_cons_of_mem _ he)
    have I := ih hok'
    have hsel : ((f.core.advInput t : FilterInput T DVec DMat K).data = .of ctl ∧ 0 < m ∧
        (f.core.advInput t : FilterInput T DVec DMat K).covariance.Is m m) ∨
        ((f.core.advInput t : FilterInput T DVec DMat K).data.size = 0 ∧ ctl = ctl) := by
      rcases I.ctl with h | h
      · exact Or.inl h
      · exact Or.inr ⟨h.1, rfl⟩
    obtain ⟨p', A', B', W', V', Rp', Rc', c', e1, e2, e3, e4⟩ := control_step (mc := mc) hsc ops I
      (f.core.advInput t) ctl hsel
    rw [Filter.correct_inorder _ _ _ _ _ _ (le_of_lt ht)] at hg
    have hlt : TimeOps.lt TimeOps.zero (TimeOps.sub t f.core.ts) = true := by
      rw [LawfulTime.lt_iff, LawfulTime.sub_pos_iff]; exact ht
    have happ : Core.apply (kfPlant sc mc) f.core (measurementInput (.of z) (.of R) t (some j))
        = (c'.tick (TimeOps.sub t f.core.ts)).meas (kfPlant sc mc) (measurementInput (.of z) (.of R) t (some j))
          (TimeOps.sub t f.core.ts) := by
      unfold Core.apply
      have h1 : (measurementInput (T := T) (DVec.of z) (DMat.of R) t (some j)).isControl = false := rfl
      have h2 : (measurementInput (T := T) (DVec.of z) (DMat.of R) t (some j)).timestamp = t := rfl
      simp only [h1, h2, hlt, Bool.false_eq_true, if_false, if_true, e1, Option.map_some, Option.bind_some]
    have hsys : g.env.sys = c'.env.sys := by
      have hcore := Filter.applyInput_core (kfPlant sc mc) f (measurementInput (.of z) (.of R) t (some j))
      rw [hg, happ] at hcore
      exact meas_sys (c := c'.tick (TimeOps.sub t f.core.ts)) (c' := g.core) hcore.symm (e4.tick (TimeOps.sub t f.core.ts)).quiet
    have hh' : c'.env.sys.Holds A B W V Rp Rc := by rw [← hsys]; exact hh
    obtain ⟨hA, hB, hV, hRc, hp, hW, hRp⟩ := holds_unique e2 hh'
    subst hA hB hV hRc hp
    cases hW; cases hRp
    have hmv : (Event.move A' B' W' V' Rp' Rc' ctl).Ok := hok _ (List.mem_cons_of_mem _ List.mem_cons_self)
    obtain ⟨C', c'', f1, f2, f3, f4, f5⟩ := meas_step (sc := sc) hmc ops mops (e4.tick (TimeOps.sub t f.core.ts))
      (propagate_psd (kalmanRec_psd h0 hok') hmv.1 hmv.2) j z R (hok _ List.mem_cons_self) t (TimeOps.sub t f.core.ts)
    have hc := map_core (happ.trans f1) hg
    have h1 : g.env = c''.env := congrArg Core.env hc
    have : C' = C := by
      rw [h1, f2] at hC
      exact of_inj hC
    subst this
    rw [hc]; exact f5

/-! ### The calls succeed -/

theorem Recorded.can_predict (hsc : SysContract LinSysData.Sized sc) (hmc : ∀ j, MeasContract LinMeasData.Sized (mc j))
    (ops : sc.PlainOps) (mops : ∀ j, (mc j).PlainOps) {x0 : Fin n → ℝ} {P0 : Matrix (Fin n) (Fin n) ℝ} (h0 : P0.PosSemidef)
    {f ctl evs} (h : Recorded sc mc n m kd x0 P0 f ctl evs) (hok : ∀ ev ∈ evs, ev.Ok) (hm : 0 < m) (u : Fin m → ℝ) (t : T)
    (ht : f.getStateTime ≤ t) :
    ∃ g p, ∃ (A : Matrix (Fin n) (Fin n) ℝ) (B : Matrix (Fin n) (Fin m) ℝ) (W : Matrix (Fin n) (Fin p) ℝ)
      (V : Matrix (Fin n) (Fin m) ℝ) (Rp : Matrix (Fin p) (Fin p) ℝ) (Rc : Matrix (Fin m) (Fin m) ℝ),
      Recorded sc mc n m kd x0 P0 g u (.move A B W V Rp Rc u :: evs) ∧ g.getStateTime = t ∧
      g.env.sys.Rp = f.env.sys.Rp ∧ g.env.sys.Rc = f.env.sys.Rc ∧ g.env.sys.Holds A B W V Rp Rc := by
  have I := h.inv hsc hmc ops mops h0 hok
  obtain ⟨g, p, A, B, W, V, Rp, Rc, x', e1, e2, e3, e4, e5, e6, e7, e8, e9, e10, e11, e12, e13⟩ :=
    kf_predict_now (mc := mc) hsc f I.sys I.x I.cov u hm t ht
      (by have := I.quiet.1; change f.env.sys.fm.checkStationary = _ at this; rw [this]; rfl)
  obtain ⟨s', u1, u2, u3⟩ := hsc.update f.env.sys (.of (kalmanRec x0 P0 evs).1) (.of u) (TimeOps.sub t f.getStateTime) I.sys rfl rfl
  rw [u1] at e2
  injection e2 with e2
  have hh : g.env.sys.Holds A B W V Rp Rc := by
    refine ⟨by rw [e3], by rw [e3], e4, e5, ?_, ?_⟩
    · rw [← e2, u3.Rp]; exact e6
    · rw [← e2, u3.Rc]; exact e7
  exact ⟨g, p, A, B, W, V, Rp, Rc, .predict u t h hm ht e1 hh, e11, by rw [← e2, u3.Rp], by rw [← e2, u3.Rc], hh⟩

theorem Recorded.can_correct (hsc : SysContract LinSysData.Sized sc) (hmc : ∀ j, MeasContract LinMeasData.Sized (mc j))
    (ops : sc.PlainOps) (mops : ∀ j, (mc j).PlainOps) {x0 : Fin n → ℝ} {P0 : Matrix (Fin n) (Fin n) ℝ} (h0 : P0.PosSemidef)
    {f ctl evs} (h : Recorded sc mc n m kd x0 P0 f ctl evs) (hok : ∀ ev ∈ evs, ev.Ok) (j : K) (z : Fin (kd j) → ℝ)
    (R : Matrix (Fin (kd j)) (Fin (kd j)) ℝ) (hR : R.PosDef) :
    ∃ g, ∃ C : Matrix (Fin (kd j)) (Fin n) ℝ, Recorded sc mc n m kd x0 P0 g ctl (.measure C R z :: evs) ∧
      g.getStateTime = f.getStateTime := by
  have I := h.inv hsc hmc ops mops h0 hok
  have hms : ((f.env.meas j).withCov (.of R)).Sized LinMeasData.Sized n (kd j) :=
    ⟨(I.meas j).states, (I.meas j).meas, (I.meas j).der, rfl, rfl⟩
  obtain ⟨ms, u1, u2, u3⟩ := (hmc j).update _ (.of (kalmanRec x0 P0 evs).1) (TimeOps.sub f.getStateTime f.getStateTime) hms rfl
  obtain ⟨C, hC⟩ := u2.der.exists_of
  obtain ⟨g, dz, x', e1, e2, e3, e4, e5, e6, e7, e8, e9, e10⟩ :=
    kf_correct_now hsc hmc f j I.sys (I.meas j) I.x I.cov z R u1 hC
      (pd_isUnit_det (innov_pd (kalmanRec_psd h0 hok) C hR)) 
      (by have := I.quiet.2 j; change (f.env.meas j).fm.checkStationary = _ at this; rw [this]; rfl)
  exact ⟨g, C, .correct j z R h e1 (by rw [e7, Env.setMeas_meas]; exact hC), e6⟩

/-- As `can_correct`, for a class whose measurement matrix is always `C`. -/
theorem Recorded.can_correct_const (hsc : SysContract LinSysData.Sized sc) (hmc : ∀ j, MeasContract LinMeasData.Sized (mc j))
    (ops : sc.PlainOps) (mops : ∀ j, (mc j).PlainOps) {x0 : Fin n → ℝ} {P0 : Matrix (Fin n) (Fin n) ℝ} (h0 : P0.PosSemidef)
    {f ctl evs} (h : Recorded sc mc n m kd x0 P0 f ctl evs) (hok : ∀ ev ∈ evs, ev.Ok) (j : K) (z : Fin (kd j) → ℝ)
    (R : Matrix (Fin (kd j)) (Fin (kd j)) ℝ) (hR : R.PosDef) (C : Matrix (Fin (kd j)) (Fin n) ℝ)
    (hC : ∀ s x dt s', Meas.Sized LinMeasData.Sized n (kd j) s → (mc j).myUpdate s x dt = some s' → s'.der.C = .of C) :
    ∃ g, Recorded sc mc n m kd x0 P0 g ctl (.measure C R z :: evs) ∧ g.getStateTime = f.getStateTime ∧
      g.env.sys = f.env.sys := by
  have I := h.inv hsc hmc ops mops h0 hok
  have hms : ((f.env.meas j).withCov (.of R)).Sized LinMeasData.Sized n (kd j) :=
    ⟨(I.meas j).states, (I.meas j).meas, (I.meas j).der, rfl, rfl⟩
  obtain ⟨ms, u1, u2, u3⟩ := (hmc j).update _ (.of (kalmanRec x0 P0 evs).1) (TimeOps.sub f.getStateTime f.getStateTime) hms rfl
  have hC := hC _ _ _ _ hms u1
  obtain ⟨g, dz, x', e1, e2, e3, e4, e5, e6, e7, e8, e9, e10⟩ :=
    kf_correct_now hsc hmc f j I.sys (I.meas j) I.x I.cov z R u1 hC
      (pd_isUnit_det (innov_pd (kalmanRec_psd h0 hok) C hR)) 
      (by have := I.quiet.2 j; change (f.env.meas j).fm.checkStationary = _ at this; rw [this]; rfl)
  exact ⟨g, .correct j z R h e1 (by rw [e7, Env.setMeas_meas]; exact hC), e6, by rw [e7]; rfl⟩

/-- As `can_predict`, when the matrices the model will hold are known. -/
theorem Recorded.can_predict_const (hsc : SysContract LinSysData.Sized sc) (hmc : ∀ j, MeasContract LinMeasData.Sized (mc j))
    (ops : sc.PlainOps) (mops : ∀ j, (mc j).PlainOps) {x0 : Fin n → ℝ} {P0 : Matrix (Fin n) (Fin n) ℝ} (h0 : P0.PosSemidef)
    {f ctl evs} (h : Recorded sc mc n m kd x0 P0 f ctl evs) (hok : ∀ ev ∈ evs, ev.Ok) (hm : 0 < m) (u : Fin m → ℝ) (t : T)
    (ht : f.getStateTime ≤ t) {p : Nat} {A : Matrix (Fin n) (Fin n) ℝ} {B : Matrix (Fin n) (Fin m) ℝ} {W : Matrix (Fin n) (Fin p) ℝ}
    {V : Matrix (Fin n) (Fin m) ℝ} {Rp : Matrix (Fin p) (Fin p) ℝ} {Rc : Matrix (Fin m) (Fin m) ℝ}
    (hH : ∀ x s', sc.myUpdate f.env.sys x (.of u) (TimeOps.sub t f.getStateTime) = some s' → s'.Holds A B W V Rp Rc) :
    ∃ g, Recorded sc mc n m kd x0 P0 g u (.move A B W V Rp Rc u :: evs) ∧ g.getStateTime = t ∧
      g.env.sys.Holds A B W V Rp Rc := by
  have I := h.inv hsc hmc ops mops h0 hok
  obtain ⟨g, p', A', B', W', V', Rp', Rc', x', e1, e2, e3, e4, e5, e6, e7, e8, e9, e10, e11, e12, e13⟩ :=
    kf_predict_now (mc := mc) hsc f I.sys I.x I.cov u hm t ht
      (by have := I.quiet.1; change f.env.sys.fm.checkStationary = _ at this; rw [this]; rfl)
  exact ⟨g, .predict u t h hm ht e1 (hH _ _ e2), e11, hH _ _ e2⟩

/-- `correct(z, R, t, j)` for a later `t`, without a control in use, when the matrices the models will hold are known. -/
theorem Recorded.can_correct_later (hsc : SysContract LinSysData.Sized sc) (hmc : ∀ j, MeasContract LinMeasData.Sized (mc j))
    (ops : sc.PlainOps) (mops : ∀ j, (mc j).PlainOps) {x0 : Fin n → ℝ} {P0 : Matrix (Fin n) (Fin n) ℝ} (h0 : P0.PosSemidef)
    {f ctl evs} (h : Recorded sc mc n m kd x0 P0 f ctl evs) (hok : ∀ ev ∈ evs, ev.Ok) (hpc : f.prevControl.size = 0)
    (j : K) (z : Fin (kd j) → ℝ) (R : Matrix (Fin (kd j)) (Fin (kd j)) ℝ) (hR : R.PosDef) (t : T) (ht : f.getStateTime < t)
    {p : Nat} {A : Matrix (Fin n) (Fin n) ℝ} {B : Matrix (Fin n) (Fin m) ℝ} {W : Matrix (Fin n) (Fin p) ℝ}
    {V : Matrix (Fin n) (Fin m) ℝ} {Rp : Matrix (Fin p) (Fin p) ℝ} {Rc : Matrix (Fin m) (Fin m) ℝ}
    {C : Matrix (Fin (kd j)) (Fin n) ℝ} (hRp : Rp.PosSemidef) (hRc : Rc.PosSemidef)
    (hH : ∀ (x : Fin n → ℝ) s', sc.myUpdate f.env.sys (.of x) (.of ctl) (TimeOps.sub t f.getStateTime) = some s' → s'.Holds A B W V Rp Rc)
    (hC : ∀ s x dt s', Meas.Sized LinMeasData.Sized n (kd j) s → (mc j).myUpdate s x dt = some s' → s'.der.C = .of C) :
    ∃ g, f.correct (kfPlant sc mc) (.of z) (.of R) t (some j) = some g ∧
      Recorded sc mc n m kd x0 P0 g ctl (.measure C R z :: .move A B W V Rp Rc ctl :: evs) ∧ g.getStateTime = t ∧
      g.env.sys.Holds A B W V Rp Rc ∧ g.prevControl.size = 0 := by
  have I := h.inv hsc hmc ops mops h0 hok
  have hpc' : f.core.pc.size = 0 := hpc
  obtain ⟨p', A', B', W', V', Rp', Rc', c', e1, e2, e3, e4, e5, e6⟩ := control_step' (mc := mc) hsc ops I
    (f.core.advInput t) ctl (Or.inr ⟨hpc', rfl⟩)
  obtain ⟨q1, q2⟩ := e6 hpc' hpc'
  rw [show ({ f.core.env.sys with Rc := DMat.of Rc' } : Sys LinSysData X) = f.env.sys by rw [q1]; rfl] at e5
  have hh := hH _ _ e5
  obtain ⟨hA, hB, hV, hRc', hp, hW, hRp'⟩ := holds_unique e2 hh
  subst hA hB hV hRc' hp
  cases hW; cases hRp'
  obtain ⟨C', c'', f1, f2, f3, f4, f5, f6, f7⟩ := meas_step' (sc := sc) hmc ops mops (e4.tick (TimeOps.sub t f.core.ts))
    (propagate_psd (kalmanRec_psd h0 hok) hRp hRc) j z R hR t (TimeOps.sub t f.core.ts)
  have hsz : ((c'.env.meas j).withCov (.of R)).Sized LinMeasData.Sized n (kd j) :=
    ⟨(e4.meas j).states, (e4.meas j).meas, (e4.meas j).der, rfl, rfl⟩
  have hC' := hC _ _ _ _ hsz f6
  have : C' = C := of_inj (f2.symm.trans hC')
  subst this
  have hlt : TimeOps.lt TimeOps.zero (TimeOps.sub t f.core.ts) = true := by
    rw [LawfulTime.lt_iff, LawfulTime.sub_pos_iff]; exact ht
  have happ : Core.apply (kfPlant sc mc) f.core (measurementInput (.of z) (.of R) t (some j)) = some c'' := by
    unfold Core.apply
    have h1 : (measurementInput (T := T) (DVec.of z) (DMat.of R) t (some j)).isControl = false := rfl
    have h2 : (measurementInput (T := T) (DVec.of z) (DMat.of R) t (some j)).timestamp = t := rfl
    simp only [h1, h2, hlt, Bool.false_eq_true, if_false, if_true, e1, Option.map_some, Option.bind_some]
    exact f1
  have hcore := Filter.applyInput_core (kfPlant sc mc) f (measurementInput (.of z) (.of R) t (some j))
  rw [happ] at hcore
  obtain ⟨g, hg, hgc⟩ := Option.map_eq_some_iff.mp hcore
  have hcor : f.correct (kfPlant sc mc) (.of z) (.of R) t (some j) = some g := by
    rw [Filter.correct_inorder _ _ _ _ _ _ (le_of_lt ht)]; exact hg
  have henv : g.env = c''.env := congrArg Core.env hgc
  have hsys : g.env.sys.Holds A' B' W' V' Rp' Rc' := by rw [henv, f3]; exact hh
  refine ⟨g, hcor, .correctLater j z R t h ht hcor (by rw [henv]; exact f2) hsys, ?_, hsys, ?_⟩
  · have : g.getStateTime = c''.ts := congrArg Core.ts hgc
    rw [this, f4]
    show TimeOps.add c'.ts (TimeOps.sub t f.core.ts) = t
    rw [e3]
    exact ExactTime.add_sub_cancel _ _
  · have : g.prevControl = c''.pc := congrArg Core.pc hgc
    rw [this, f7]
    show c'.pc.size = 0
    rw [q2]; exact hpc'

end StateEstimation
