import Verif.Props.OutOfOrder
import Verif.Props.Sharing
import Verif.Lemmas.SharingVS
import Verif.Lemmas.SixDStateless
import Verif.Props.SixDFilter

/-!
# C106: late data on the filters of the library

C09 and C10 speak about "memoryless" models.  Here: all six filter classes, with model classes that compute their matrices
from their configuration and the arguments of `update`, are memoryless; in particular `SixDRates` with its sensors is.
-/

set_option linter.unusedSectionVars false

namespace StateEstimation
namespace Props

open Filter

variable {T K X Y : Type} [LinearOrder T] [ExactTime T] [DecidableEq K]

/-- Rewind mode, right after `initialize(x, c, t0)` (on a filter whose remembered control, if any, came with the control
covariance the model still has): what arrives within the history window and after `t0`, with distinct time stamps, gives the
same state, covariance and time in any arrival order as in time order (which then does not abort either).
First: controls.  Second: any mixture of measurements, predictions without a new control, and repetitions of the control in
use. -/
structure ArrivalOrderFree {V M E : Type} (P : Plant T V M K E)
    (sort : List (FilterInput T V M K) → List (FilterInput T V M K)) (f0 : Filter T V M K E) : Prop where
  controls : ∀ (x : V) (c : M) (t0 : T) (arrival ordered : List (V × T)), arrival.Perm ordered →
    ordered.Pairwise (fun a b => a.2 < b.2) →
    (∀ a ∈ ordered, P.vsize a.1 > 0 ∧ t0 < a.2 ∧ TimeOps.sub a.2 f0.params.historyWindow ≤ t0) →
    ∀ g, (f0.init x c t0).run P sort (arrival.map fun a => .predictControl a.1 a.2) = some g →
    ∃ g', (f0.init x c t0).run P sort (ordered.map fun a => .predictControl a.1 a.2) = some g' ∧
      g.getState = g'.getState ∧ g.getCovariance = g'.getCovariance ∧ g.getStateTime = g'.getStateTime
  mixture : (P.vsize f0.prevControl > 0 → f0.prevControlCov = P.rc f0.env) →
    ∀ (x : V) (c : M) (t0 : T) (arrival ordered : List (Op T V M K E)), arrival.Perm ordered →
    ordered.Pairwise (fun a b => callTime t0 a < callTime t0 b) →
    (∀ op ∈ ordered, (∃ z R t m, op = .correct z R t m) ∨
      ∃ u t, op = .predictControl u t ∧ (P.vsize u = 0 ∨ u = f0.prevControl)) →
    (∀ op ∈ ordered, t0 < callTime t0 op ∧ TimeOps.sub (callTime t0 op) f0.params.historyWindow ≤ t0) →
    ∀ g, (f0.init x c t0).run P sort arrival = some g →
    ∃ g', (f0.init x c t0).run P sort ordered = some g' ∧
      g.getState = g'.getState ∧ g.getCovariance = g'.getCovariance ∧ g.getStateTime = g'.getStateTime

theorem Memoryless.arrivalOrderFree {V M E : Type} {P : Plant T V M K E} {eqv : E → E → Prop} (hM : Memoryless P eqv) (sort)
    (f0 : Filter T V M K E) (hr : f0.params.rewindHistory = true) : ArrivalOrderFree P sort f0 where
  controls x c t0 arrival ordered hp hs hu g hg :=
    C09_out_of_order_controls P eqv hM sort f0 hr x c t0 arrival ordered hp hs hu g hg
  mixture hpcc x c t0 arrival ordered hp hs hk ht g hg :=
    C10_out_of_order_mixture_partial P eqv hM sort f0 hr hpcc x c t0 arrival ordered hp hs hk ht g hg

/-- model objects that calls cannot tell apart -/
theorem memoryless_of_sim {V M E : Type} {P : Plant T V M K E} {eqv : E → E → Prop} (hrefl : ∀ e, eqv e e)
    (hsymm : ∀ e e', eqv e e' → eqv e' e) (htrans : ∀ e e' e'', eqv e e' → eqv e' e'' → eqv e e'')
    (h : ∀ e0, PlantSim P P False (fun _ _ => True) (fun a b => eqv e0 a ∧ eqv e0 b) (fun _ => True)
      (fun c => c = P.rc e0) (fun _ _ _ => True)) : Memoryless P eqv where
  refl := hrefl
  symm := hsymm
  trans := htrans
  rc e e' he := ((h e).rc e e' ⟨hrefl e, he⟩).1
  controlSize e e' he := (h e).controlSize e e' ⟨hrefl e, he⟩
  setRc e e' he := (h e).setRc e e' (P.rc e) ⟨hrefl e, he⟩ rfl
  sysIsStationary e e' x u he := by
    by_cases hM : Nonempty M
    · exact (h e).sysSt e e' x hM.some u ⟨hrefl e, he⟩ trivial
    · exact absurd ⟨P.emptyM⟩ hM
  sysProcess e e' x c u he := by
    refine OptRel.mono ((h e).sysStationary e e' x c u ⟨hrefl e, he⟩ trivial fun _ => trivial) fun a b hab => ⟨hab.1.1, hab.1.2, ?_⟩
    exact OptRel.to_eq (OptRel.mono hab.2 fun _ _ k => k.1)
  setMeasCov e e' m R he := by
    have := (h e).setMeasCov e e' m P.emptyV R ⟨hrefl e, he⟩ trivial
    rcases OptRel.elim this with ⟨h1, h2, _⟩ | ⟨a, b, h1, h2, _⟩ <;> rw [h1, h2]
    rfl
  meas e e' m R a a' he ha ha' := by
    have key := fun z => (h e).setMeasCov e e' m z R ⟨hrefl e, he⟩ trivial
    simp only [ha, ha', OptRel] at key
    refine ⟨fun x z => (key z).2.1 x P.emptyM trivial, fun x c z dt => ?_, fun x c z => ?_⟩
    · exact OptRel.mono ((key z).2.2.1 x c dt trivial) fun r q k => ⟨k.1, k.2.1, k.2.2.2.1, k.2.2.2.2⟩
    · refine OptRel.mono ((key z).2.2.2 x c trivial) fun r q k => ⟨k.1.1, k.1.2, ?_⟩
      exact OptRel.to_eq (OptRel.mono k.2 fun _ _ k => k.1)
  predict e e' x c u dt he :=
    OptRel.mono ((h e).predict e e' x c u dt ⟨hrefl e, he⟩ trivial trivial) fun r q k => ⟨k.1, k.2.1, k.2.2.2.1, k.2.2.2.2⟩

section filters

variable {Gm Gs : Type}

/-- same configuration -/
def SameSetup {DS XS DM XM : Type} (cfgS : Sys DS XS → Gs) (cfg : K → Meas DM XM → Gm) (e e' : Env K DS XS DM XM) : Prop :=
  cfgS e'.sys = cfgS e.sys ∧ ∀ k, cfg k (e'.meas k) = cfg k (e.meas k)

private theorem rel_eq {DS XS DM XM : Type} (cfgS : Sys DS XS → Gs) (cfg : K → Meas DM XM → Gm) (e0 : Env K DS XS DM XM) :
    EnvLike (fun s s' => cfgS s = cfgS e0.sys ∧ cfgS s' = cfgS e0.sys) cfg e0.meas
      = fun a b => SameSetup cfgS cfg e0 a ∧ SameSetup cfgS cfg e0 b := by
  funext a b
  apply propext
  constructor
  · rintro ⟨⟨h1, h2⟩, h3⟩
    exact ⟨⟨h1, fun k => (h3 k).1⟩, h2, fun k => (h3 k).2⟩
  · rintro ⟨⟨h1, h3⟩, h2, h4⟩
    exact ⟨⟨h1, h2⟩, fun k => ⟨h3 k, h4 k⟩⟩

private theorem setup_refl {DS XS DM XM : Type} (cfgS : Sys DS XS → Gs) (cfg : K → Meas DM XM → Gm) (e : Env K DS XS DM XM) :
    SameSetup cfgS cfg e e := ⟨rfl, fun _ => rfl⟩
private theorem setup_symm {DS XS DM XM : Type} (cfgS : Sys DS XS → Gs) (cfg : K → Meas DM XM → Gm) (e e' : Env K DS XS DM XM)
    (h : SameSetup cfgS cfg e e') : SameSetup cfgS cfg e' e := ⟨h.1.symm, fun k => (h.2 k).symm⟩
private theorem setup_trans {DS XS DM XM : Type} (cfgS : Sys DS XS → Gs) (cfg : K → Meas DM XM → Gm)
    (e e' e'' : Env K DS XS DM XM) (h : SameSetup cfgS cfg e e') (h' : SameSetup cfgS cfg e' e'') : SameSetup cfgS cfg e e'' :=
  ⟨h'.1.trans h.1, fun k => (h'.2 k).trans (h.2 k)⟩

theorem kf_memoryless {sc : SysClass T LinSysData X} {mc : K → MeasClass T LinMeasData Y}
    (cfgS : Sys LinSysData X → Gs) (hsc : sc.Stateless cfgS) (cfg : K → Meas LinMeasData Y → Gm)
    (hmc : ∀ k, (mc k).Stateless (cfg k)) : Memoryless (kfPlant sc mc) (SameSetup cfgS cfg) :=
  memoryless_of_sim (setup_refl _ _) (setup_symm _ _) (setup_trans _ _) fun e0 => by
    have := kf_sim (m0 := e0.meas) sc mc (sysRel_cfg hsc e0.sys) cfg hmc
    rw [rel_eq] at this
    exact this

theorem kfvs_memoryless {sc : SysClass T LinSysData X} {mc : K → MeasClass T LinMeasData Y}
    (cfgS : Sys LinSysData X → Gs) (hsc : sc.Stateless cfgS) (cfg : K → Meas LinMeasData Y → Gm)
    (hmc : ∀ k, (mc k).Stateless (cfg k)) : Memoryless (kfvsPlant sc mc) (SameSetup cfgS cfg) :=
  memoryless_of_sim (setup_refl _ _) (setup_symm _ _) (setup_trans _ _) fun e0 => by
    have := kfvs_sim (m0 := e0.meas) sc mc (sysRel_cfg hsc e0.sys) cfg hmc
    rw [rel_eq] at this
    exact this

theorem ekf_memoryless {sc : SysClass T NonlinSysData X} {mc : K → MeasClass T NonlinMeasData Y}
    (cfgS : Sys NonlinSysData X → Gs) (hsc : sc.Stateless cfgS) (cfg : K → Meas NonlinMeasData Y → Gm)
    (hmc : ∀ k, (mc k).Stateless (cfg k)) : Memoryless (ekfPlant sc mc) (SameSetup cfgS cfg) :=
  memoryless_of_sim (setup_refl _ _) (setup_symm _ _) (setup_trans _ _) fun e0 => by
    have := ekf_sim (n0 := e0.meas) sc mc (sysRel_cfg hsc e0.sys) cfg hmc
    rw [rel_eq] at this
    exact this

theorem ekfvs_memoryless {sc : SysClass T NonlinSysData X} {mc : K → MeasClass T NonlinMeasData Y}
    (cfgS : Sys NonlinSysData X → Gs) (hsc : sc.Stateless cfgS) (cfg : K → Meas NonlinMeasData Y → Gm)
    (hmc : ∀ k, (mc k).Stateless (cfg k)) : Memoryless (ekfvsPlant sc mc) (SameSetup cfgS cfg) :=
  memoryless_of_sim (setup_refl _ _) (setup_symm _ _) (setup_trans _ _) fun e0 => by
    have := ekfvs_sim (n0 := e0.meas) sc mc (sysRel_cfg hsc e0.sys) cfg hmc
    rw [rel_eq] at this
    exact this

private theorem relO_eq {O DS XS DM XM : Type} (cfgS : Sys DS XS → Gs) (cfg : K → Meas DM XM → Gm) (e0 : Env K DS XS DM XM × O)
    {P : Plant T DVec DMat K (Env K DS XS DM XM × O)}
    (h : PlantSim P P False (fun _ _ => True)
      (fun e e' => EnvLike (fun s s' => cfgS s = cfgS e0.1.sys ∧ cfgS s' = cfgS e0.1.sys) cfg e0.1.meas e.1 e'.1 ∧ e.2 = e'.2)
      (fun _ => True) (fun c => c = P.rc e0) (fun _ _ _ => True))
    (hO : ∀ e x c u dt r, P.myPredict e x c u dt = some r → r.2.2.2 = e.2)
    (hO2 : ∀ e x c z k dt r, P.myCorrect e x c z k dt = some r → r.2.2.2 = e.2)
    (hO3 : ∀ e R r, P.setRc e R = some r → r.2 = e.2)
    (hO4 : ∀ e x u r, P.sysProcess e x u = some r → r.2 = e.2)
    (hO5 : ∀ e k R r, P.setMeasCov e k R = some r → r.2 = e.2)
    (hO6 : ∀ e k x z r, P.measProcess e k x z = some r → r.2 = e.2) :
    PlantSim P P False (fun _ _ => True) (fun a b => (SameSetup cfgS cfg e0.1 a.1 ∧ a.2 = e0.2) ∧ SameSetup cfgS cfg e0.1 b.1 ∧ b.2 = e0.2)
      (fun _ => True) (fun c => c = P.rc e0) (fun _ _ _ => True) := by
  rw [rel_eq] at h
  have fwd : ∀ {e e' : Env K DS XS DM XM × O}, ((SameSetup cfgS cfg e0.1 e.1 ∧ e.2 = e0.2) ∧ SameSetup cfgS cfg e0.1 e'.1 ∧ e'.2 = e0.2) →
      (SameSetup cfgS cfg e0.1 e.1 ∧ SameSetup cfgS cfg e0.1 e'.1) ∧ e.2 = e'.2 :=
    fun he => ⟨⟨he.1.1, he.2.1⟩, he.1.2.trans he.2.2.symm⟩
  have upg : ∀ {α β : Type} {R S : α → β → Prop} {a : Option α} {b : Option β}, OptRel False R a b →
      (∀ x y, a = some x → b = some y → R x y → S x y) → OptRel False S a b := by
    intro α β R S a b hab hRS
    rcases OptRel.elim hab with ⟨rfl, rfl, _⟩ | ⟨x, y, rfl, rfl, k⟩
    · exact not_false
    · exact hRS x y rfl rfl k
  exact
  { vsize := rfl
    emptyV := rfl
    zeroV := rfl
    empty := h.empty
    controlSize := fun e e' he => h.controlSize e e' (fwd he)
    rc := fun e e' he => h.rc e e' (fwd he)
    zero := fun _ _ _ => trivial
    setRc := fun e e' c he hc => upg (h.setRc e e' c (fwd he) hc) fun a b ha hb k =>
      ⟨⟨k.1.1, (hO3 _ _ _ ha).trans he.1.2⟩, k.1.2, (hO3 _ _ _ hb).trans he.2.2⟩
    sysSt := fun e e' x c d he hs => h.sysSt e e' x c d (fwd he) hs
    predict := fun e e' x c u dt he hs hu => upg (h.predict e e' x c u dt (fwd he) hs hu) fun a b ha hb k =>
      ⟨k.1, k.2.1, trivial, ⟨k.2.2.2.1.1, (hO _ _ _ _ _ _ ha).trans he.1.2⟩, k.2.2.2.1.2, (hO _ _ _ _ _ _ hb).trans he.2.2⟩
    sysStationary := fun e e' x c d he hs hu => upg (h.sysStationary e e' x c d (fwd he) hs hu) fun a b ha hb k =>
      ⟨⟨⟨k.1.1.1, (hO4 _ _ _ _ ha).trans he.1.2⟩, k.1.1.2, (hO4 _ _ _ _ hb).trans he.2.2⟩, k.2⟩
    setMeasCov := fun e e' m z c he hz => upg (h.setMeasCov e e' m z c (fwd he) hz) fun a b ha hb k => by
      have ea : a.2 = e0.2 := (hO5 _ _ _ _ ha).trans he.1.2
      have eb : b.2 = e0.2 := (hO5 _ _ _ _ hb).trans he.2.2
      refine ⟨⟨⟨k.1.1.1, ea⟩, k.1.1.2, eb⟩, k.2.1, fun x p dt hs => ?_, fun x p hs => ?_⟩
      · exact upg (k.2.2.1 x p dt hs) fun r q hr hq j =>
          ⟨j.1, j.2.1, trivial, ⟨j.2.2.2.1.1, (hO2 _ _ _ _ _ _ _ hr).trans ea⟩, j.2.2.2.1.2, (hO2 _ _ _ _ _ _ _ hq).trans eb⟩
      · exact upg (k.2.2.2 x p hs) fun r q hr hq j =>
          ⟨⟨⟨j.1.1.1, (hO6 _ _ _ _ _ hr).trans ea⟩, j.1.1.2, (hO6 _ _ _ _ _ hq).trans eb⟩, j.2⟩ }

private theorem own_kept {α E O : Type} {a : Option α} {f : α → E} {o : O} {g : α → E × O} (hg : ∀ x, g x = (f x, o)) {r}
    (h : a.map g = some r) : r.2 = o := by
  obtain ⟨x, _, rfl⟩ := Option.map_eq_some_iff.mp h
  rw [hg]

theorem ukf_memoryless (llt : DMat → Option DMat) (junk : Nat → Nat → ℝ) {sc : SysClass T NonlinSysData X}
    {mc : K → MeasClass T NonlinMeasData Y} (cfgS : Sys NonlinSysData X → Gs) (hsc : sc.Stateless cfgS)
    (cfg : K → Meas NonlinMeasData Y → Gm) (hmc : ∀ k, (mc k).Stateless (cfg k)) :
    Memoryless (ukfPlant llt junk sc mc) (fun e e' => SameSetup cfgS cfg e.1 e'.1 ∧ e'.2 = e.2) := by
  refine memoryless_of_sim (fun e => ⟨setup_refl _ _ _, rfl⟩) (fun e e' h => ⟨setup_symm _ _ _ _ h.1, h.2.symm⟩)
    (fun e e' e'' h h' => ⟨setup_trans _ _ _ _ _ h.1 h'.1, h'.2.trans h.2⟩) fun e0 => ?_
  refine relO_eq cfgS cfg e0 (ukf_sim (n0 := e0.1.meas) llt junk sc mc (sysRel_cfg hsc e0.1.sys) cfg hmc) ?_ ?_ ?_ ?_ ?_ ?_
  all_goals
    intros
    rename_i h
    obtain ⟨x, _, rfl⟩ := Option.map_eq_some_iff.mp h
    rfl

theorem ukfvs_memoryless (llt : DMat → Option DMat) (junk : Nat → Nat → ℝ) {sc : SysClass T NonlinSysData X}
    {mc : K → MeasClass T NonlinMeasData Y} (cfgS : Sys NonlinSysData X → Gs) (hsc : sc.Stateless cfgS)
    (cfg : K → Meas NonlinMeasData Y → Gm) (hmc : ∀ k, (mc k).Stateless (cfg k)) :
    Memoryless (ukfvsPlant llt junk sc mc) (fun e e' => SameSetup cfgS cfg e.1 e'.1 ∧ e'.2 = e.2) := by
  refine memoryless_of_sim (fun e => ⟨setup_refl _ _ _, rfl⟩) (fun e e' h => ⟨setup_symm _ _ _ _ h.1, h.2.symm⟩)
    (fun e e' e'' h h' => ⟨setup_trans _ _ _ _ _ h.1 h'.1, h'.2.trans h.2⟩) fun e0 => ?_
  refine relO_eq cfgS cfg e0 (ukfvs_sim (n0 := e0.1.meas) llt junk sc mc (sysRel_cfg hsc e0.1.sys) cfg hmc) ?_ ?_ ?_ ?_ ?_ ?_
  all_goals
    intros
    rename_i h
    obtain ⟨x, _, rfl⟩ := Option.map_eq_some_iff.mp h
    rfl

/-! ### The six filters -/

variable (sort : List (FilterInput T DVec DMat K) → List (FilterInput T DVec DMat K))

/-- **C106 (Kalman filter).** -/
theorem C106_kf {sc : SysClass T LinSysData X} {mc : K → MeasClass T LinMeasData Y} (cfgS : Sys LinSysData X → Gs)
    (hsc : sc.Stateless cfgS) (cfg : K → Meas LinMeasData Y → Gm) (hmc : ∀ k, (mc k).Stateless (cfg k))
    (f0 : Filter T DVec DMat K (Env K LinSysData X LinMeasData Y)) (hr : f0.params.rewindHistory = true) :
    ArrivalOrderFree (kfPlant sc mc) sort f0 := (kf_memoryless cfgS hsc cfg hmc).arrivalOrderFree sort f0 hr

/-- **C106 (Kalman filter with variable states).** -/
theorem C106_kf_vs {sc : SysClass T LinSysData X} {mc : K → MeasClass T LinMeasData Y} (cfgS : Sys LinSysData X → Gs)
    (hsc : sc.Stateless cfgS) (cfg : K → Meas LinMeasData Y → Gm) (hmc : ∀ k, (mc k).Stateless (cfg k))
    (f0 : Filter T DVec DMat K (Env K LinSysData X LinMeasData Y)) (hr : f0.params.rewindHistory = true) :
    ArrivalOrderFree (kfvsPlant sc mc) sort f0 := (kfvs_memoryless cfgS hsc cfg hmc).arrivalOrderFree sort f0 hr

/-- **C106 (EKF).** -/
theorem C106_ekf {sc : SysClass T NonlinSysData X} {mc : K → MeasClass T NonlinMeasData Y} (cfgS : Sys NonlinSysData X → Gs)
    (hsc : sc.Stateless cfgS) (cfg : K → Meas NonlinMeasData Y → Gm) (hmc : ∀ k, (mc k).Stateless (cfg k))
    (f0 : Filter T DVec DMat K (Env K NonlinSysData X NonlinMeasData Y)) (hr : f0.params.rewindHistory = true) :
    ArrivalOrderFree (ekfPlant sc mc) sort f0 := (ekf_memoryless cfgS hsc cfg hmc).arrivalOrderFree sort f0 hr

/-- **C106 (EKF with variable states).** -/
theorem C106_ekf_vs {sc : SysClass T NonlinSysData X} {mc : K → MeasClass T NonlinMeasData Y} (cfgS : Sys NonlinSysData X → Gs)
    (hsc : sc.Stateless cfgS) (cfg : K → Meas NonlinMeasData Y → Gm) (hmc : ∀ k, (mc k).Stateless (cfg k))
    (f0 : Filter T DVec DMat K (Env K NonlinSysData X NonlinMeasData Y)) (hr : f0.params.rewindHistory = true) :
    ArrivalOrderFree (ekfvsPlant sc mc) sort f0 := (ekfvs_memoryless cfgS hsc cfg hmc).arrivalOrderFree sort f0 hr

/-- **C106 (UKF)**, for every factorisation routine and whatever is in uninitialised memory. -/
theorem C106_ukf (llt : DMat → Option DMat) (junk : Nat → Nat → ℝ) {sc : SysClass T NonlinSysData X}
    {mc : K → MeasClass T NonlinMeasData Y} (cfgS : Sys NonlinSysData X → Gs) (hsc : sc.Stateless cfgS)
    (cfg : K → Meas NonlinMeasData Y → Gm) (hmc : ∀ k, (mc k).Stateless (cfg k))
    (f0 : Filter T DVec DMat K (Env K NonlinSysData X NonlinMeasData Y × SigmaParams)) (hr : f0.params.rewindHistory = true) :
    ArrivalOrderFree (ukfPlant llt junk sc mc) sort f0 :=
  (ukf_memoryless llt junk cfgS hsc cfg hmc).arrivalOrderFree sort f0 hr

/-- **C106 (UKF with variable states).** -/
theorem C106_ukf_vs (llt : DMat → Option DMat) (junk : Nat → Nat → ℝ) {sc : SysClass T NonlinSysData X}
    {mc : K → MeasClass T NonlinMeasData Y} (cfgS : Sys NonlinSysData X → Gs) (hsc : sc.Stateless cfgS)
    (cfg : K → Meas NonlinMeasData Y → Gm) (hmc : ∀ k, (mc k).Stateless (cfg k))
    (f0 : Filter T DVec DMat K (Env K NonlinSysData X NonlinMeasData Y × SigmaParams)) (hr : f0.params.rewindHistory = true) :
    ArrivalOrderFree (ukfvsPlant llt junk sc mc) sort f0 :=
  (ukfvs_memoryless llt junk cfgS hsc cfg hmc).arrivalOrderFree sort f0 hr

end filters

/-! ### Six-D rates with odometry and IMU -/

/-- What can be configured in the two sensors of `sixDSensors`. -/
noncomputable def sixDCfg (b : Bool) :=
  if b then tfConfig SixDRatesImu.Shape 6 else tfConfig SixDRatesOdom.Shape 4

theorem sixDSensors_stateless (b : Bool) : (sixDSensors b).Stateless (sixDCfg b) := by
  cases b
  · exact SixDRatesOdom.stateless
  · exact SixDRatesImu.stateless

/-- A call that hands the filter a reading, or asks it for a prediction without a new control. -/
def SixDCall (op : Op ℝ DVec DMat Bool (Env Bool NonlinSysData SixDRates.Flags NonlinMeasData TfData)) : Prop :=
  (∃ z R t b, op = .correct z R t (some b) ∧ z.size = sixDDims b ∧ R.Is (sixDDims b) (sixDDims b) ∧ R.PD) ∨
    ∃ t, op = .predictControl (.zero 0) t

/-- **C106 (six-D rates).**  An EKF on the six-D rates model with the odometry and the IMU sensor, in rewind mode, as
constructed with a well-formed estimate: odometry readings, IMU readings and predictions with distinct time stamps after the
start and within the history window give, in whatever order they arrive, the state, covariance and time they give in time
order; no assertion trips in either. -/
theorem C106_six_d {odom imu : TfMeas} (ho : SixDRatesOdom.construct true = some odom)
    (hi : SixDRatesImu.construct true = some imu)
    (sort : List (FilterInput ℝ DVec DMat Bool) → List (FilterInput ℝ DVec DMat Bool)) (hsort : ∀ l, (sort l).Perm l)
    (params : Params ℝ) (hr : params.rewindHistory = true) (x : DVec) (c : DMat) (t0 : ℝ) (hx : SixDEstimate x c)
    (arrival ordered : List (Op ℝ DVec DMat Bool (Env Bool NonlinSysData SixDRates.Flags NonlinMeasData TfData)))
    (hp : arrival.Perm ordered) (hs : ordered.Pairwise fun a b => callTime t0 a < callTime t0 b)
    (hc : ∀ op ∈ ordered, SixDCall op)
    (ht : ∀ op ∈ ordered, t0 < callTime t0 op ∧ callTime t0 op - params.historyWindow ≤ t0) :
    ∃ g g', (construct (ekfPlant SixDRates.cls sixDSensors) params (sixDEnv odom imu) x c t0).run
        (ekfPlant SixDRates.cls sixDSensors) sort arrival = some g ∧
      (construct (ekfPlant SixDRates.cls sixDSensors) params (sixDEnv odom imu) x c t0).run
        (ekfPlant SixDRates.cls sixDSensors) sort ordered = some g' ∧
      g.getState = g'.getState ∧ g.getCovariance = g'.getCovariance ∧ g.getStateTime = g'.getStateTime := by
  obtain ⟨g, hg, _⟩ := C69_gravity sixDSensors_contract sixDDims sort hsort params (sixDEnv odom imu) (sixDEnv_ok ho hi) x c t0
    hx arrival (fun op hop => by
      rcases hc op (hp.subset hop) with ⟨z, R, t, b, rfl, h1, h2, h3⟩ | ⟨t, rfl⟩
      · exact ⟨b, rfl, h1, h2, h3⟩
      · exact Or.inl rfl)
  have hA := C106_ekf sort SixDRates.config SixDRates.stateless sixDCfg sixDSensors_stateless
    (construct (ekfPlant SixDRates.cls sixDSensors) params (sixDEnv odom imu) x c t0) hr
  obtain ⟨g', h1, h2⟩ := hA.mixture (fun h => absurd h (Nat.lt_irrefl 0)) x c t0 arrival ordered hp hs (fun op hop => by
      rcases hc op hop with ⟨z, R, t, b, rfl, _⟩ | ⟨t, rfl⟩
      · exact Or.inl ⟨_, _, _, _, rfl⟩
      · exact Or.inr ⟨_, _, rfl, Or.inl rfl⟩) ht g hg
  exact ⟨g, g', hg, h1, h2⟩


/-- Non-vacuity: an IMU reading of time 2 arrives first, then a prediction to time 3, then odometry of time 1. -/
example (sort : List (FilterInput ℝ DVec DMat Bool) → List (FilterInput ℝ DVec DMat Bool)) (hsort : ∀ l, (sort l).Perm l) :
    ∃ odom imu g g', SixDRatesOdom.construct true = some odom ∧ SixDRatesImu.construct true = some imu ∧
      (construct (ekfPlant SixDRates.cls sixDSensors) { rewindHistory := true, historyWindow := 5, allowPast := false }
        (sixDEnv odom imu) (.of levelState) (.identity 18) 0).run (ekfPlant SixDRates.cls sixDSensors) sort
        [.correct (.zero 6) (.identity 6) 2 true, .predictControl (.zero 0) 3, .correct (.zero 4) (.identity 4) 1 false]
        = some g ∧
      (construct (ekfPlant SixDRates.cls sixDSensors) { rewindHistory := true, historyWindow := 5, allowPast := false }
        (sixDEnv odom imu) (.of levelState) (.identity 18) 0).run (ekfPlant SixDRates.cls sixDSensors) sort
        [.correct (.zero 4) (.identity 4) 1 false, .correct (.zero 6) (.identity 6) 2 true, .predictControl (.zero 0) 3]
        = some g' ∧
      g.getState = g'.getState ∧ g.getCovariance = g'.getCovariance := by
  obtain ⟨odom, _, ho, _⟩ := odom_state []
  obtain ⟨imu, _, hi, _⟩ := imu_state []
  obtain ⟨g, g', h1, h2, h3, h4, _⟩ := C106_six_d ho hi sort hsort { rewindHistory := true, historyWindow := 5, allowPast := false }
    rfl (.of levelState) (.identity 18) 0 level_estimate
    [.correct (.zero 6) (.identity 6) 2 true, .predictControl (.zero 0) 3, .correct (.zero 4) (.identity 4) 1 false]
    [.correct (.zero 4) (.identity 4) 1 false, .correct (.zero 6) (.identity 6) 2 true, .predictControl (.zero 0) 3]
    ((List.Perm.swap _ _ _).trans ((List.Perm.cons _ (List.Perm.swap _ _ _)).trans (List.Perm.swap _ _ _)) |>.trans
      (List.Perm.cons _ (List.Perm.swap _ _ _)))
    (by
      simp only [List.pairwise_cons, List.mem_cons, List.not_mem_nil, or_false, forall_eq_or_imp, forall_eq, callTime]
      norm_num)
    (by
      intro op hop
      simp only [List.mem_cons, List.not_mem_nil, or_false] at hop
      rcases hop with rfl | rfl | rfl
      · exact Or.inl ⟨_, _, _, _, rfl, rfl, ⟨rfl, rfl⟩, Examples.identity_pd 4⟩
      · exact Or.inl ⟨_, _, _, _, rfl, rfl, ⟨rfl, rfl⟩, Examples.identity_pd 6⟩
      · exact Or.inr ⟨_, rfl⟩)
    (by
      intro op hop
      simp only [List.mem_cons, List.not_mem_nil, or_false] at hop
      rcases hop with rfl | rfl | rfl <;> simp only [callTime] <;> norm_num)
  exact ⟨odom, imu, g, g', ho, hi, h1, h2, h3, h4⟩

/-- The classes the other theorems are about: every class with default operations that computes its matrices from its
configuration and the arguments of `update`. -/
example (F : X → DVec → DVec → T → Option (LinSysData × DMat × DMat)) (H : K → Y → DVec → T → Option LinMeasData)
    (sort : List (FilterInput T DVec DMat K) → List (FilterInput T DVec DMat K))
    (f0 : Filter T DVec DMat K (Env K LinSysData X LinMeasData Y)) (hr : f0.params.rewindHistory = true) :
    ArrivalOrderFree (kfPlant
      (SysClass.plain fun s x u dt => (F s.ext x u dt).map fun d => { s with der := d.1, P := d.2.1, V := d.2.2 })
      (fun k => MeasClass.plain fun m x dt => (H k m.ext x dt).map fun d => { m with der := d })) sort f0 :=
  C106_kf sort sysConfig (stateless_sys F) (fun _ => measConfig) (fun k => stateless_meas (H k)) f0 hr

end Props
end StateEstimation
