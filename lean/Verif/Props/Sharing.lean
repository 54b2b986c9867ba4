import Verif.Lemmas.Sharing
import Verif.Examples.Toy

/-!
# C93: several filters can use the same model objects

Filters keep pointers to models that belong to the user.  `Independent` (Spec/Sharing.lean) says that filters using the same
objects behave as if each had its own copies, for every interleaving of their calls.
-/

set_option linter.unusedSectionVars false

namespace StateEstimation
namespace Props

open Filter

variable {ι T K X Y : Type} [DecidableEq ι] [DecidableEq K] [TimeOps T] [SaneTime T]

/-- Freshly constructed filters. -/
def Fleet.start {V M E C : Type} (P : Plant T V M K E) (params : ι → Params T) (env : ι → E) (x : ι → V) (c : ι → M) (t : ι → T)
    (shared : C) : Fleet ι T V M K E C := ⟨fun i => construct P (params i) (env i) (x i) (c i) (t i), shared⟩

private theorem start_RF {V M E : Type} {P : Plant T V M K E} {RE : E → E → Prop} {U R Z}
    (h : PlantSim P P False (fun _ _ => True) RE U R Z) (params : Params T) (e : E) (he : RE e e) (x : V) (c : M) (t : T) :
    h.sim.RF (construct P params e x c t) (construct P params e x c t) := by
  refine SimRel.RF.init (R := h.sim) rfl ⟨rfl, rfl, he, fun hv => ?_⟩ ⟨rfl, rfl, trivial⟩ t
  exact absurd hv (by show ¬ P.vsize P.emptyV > 0; rw [h.empty]; exact Nat.lt_irrefl 0)

private theorem opSame {V M E : Type} {P : Plant T V M K E} {RE : E → E → Prop} {op : Op T V M K E} (h1 : op.NamesSensor)
    (ok : (E → Option E) → Prop) (h2 : op.ChangesOnly ok) (hok : ∀ g, ok g → ∀ e e', RE e e' → OptRel False RE (g e) (g e')) :
    OpSame P False (fun _ _ => True) RE (fun _ => True) (fun _ _ _ => True) op op := by
  cases op with
  | init x c t => exact ⟨rfl, rfl, rfl, trivial⟩
  | predictTime t => exact rfl
  | predictControl u t => exact ⟨rfl, rfl, fun _ => trivial⟩
  | correct z c t m => exact ⟨rfl, rfl, rfl, rfl, _, (Option.some_get h1).symm, trivial⟩
  | enqueueControl u t => exact ⟨rfl, rfl, fun _ => trivial⟩
  | enqueueMeasurement z c t m => exact ⟨rfl, rfl, rfl, rfl, _, (Option.some_get h1).symm, trivial⟩
  | processQueues => trivial
  | clearControlQueue => trivial
  | clearMeasurementQueue => trivial
  | revertToState t => exact rfl
  | setParams p => exact rfl
  | userModel g => exact hok g h2

/-- A change to the system model of this filter. -/
def OwnSystem {DS XS DM XM : Type} (g : Env K DS XS DM XM → Option (Env K DS XS DM XM)) : Prop :=
  ∃ h : Sys DS XS → Option (Sys DS XS), g = fun e => (h e.sys).map fun s => { e with sys := s }

/-- A change to the system model or the sigma point parameters of this filter. -/
def OwnSystemOrSigma {DS XS DM XM : Type}
    (g : Env K DS XS DM XM × SigmaParams → Option (Env K DS XS DM XM × SigmaParams)) : Prop :=
  ∃ h : Sys DS XS × SigmaParams → Option (Sys DS XS × SigmaParams),
    g = fun e => (h (e.1.sys, e.2)).map fun s => ({ e.1 with sys := s.1 }, s.2)

section sensors

variable {Gm : Type} (sort : List (FilterInput T DVec DMat K) → List (FilterInput T DVec DMat K))
  (hsort : ∀ l, (sort l).Perm l) (params : ι → Params T) (x : ι → DVec) (c : ι → DMat) (t : ι → T)
include hsort

/-- **C93 (Kalman filters sharing sensors).**  Filters with system models of their own and common measurement models do not
notice each other, whatever the interleaving of their calls, in every mode, and whatever the user does to the system models
in between. -/
theorem C93_share_sensors_kf (sc : SysClass T LinSysData X) (mc : K → MeasClass T LinMeasData Y)
    (cfg : K → Meas LinMeasData Y → Gm) (hmc : ∀ k, (mc k).Stateless (cfg k))
    (sys : ι → Sys LinSysData X) (meas : K → Meas LinMeasData Y)
    (calls : List (ι × Op T DVec DMat K (Env K LinSysData X LinMeasData Y)))
    (hcalls : ∀ c ∈ calls, c.2.NamesSensor ∧ c.2.ChangesOnly OwnSystem) :
    Independent (kfPlant sc mc) shareSensors sort
      (Fleet.start (kfPlant sc mc) params (fun i => ⟨sys i, meas⟩) x c t meas) calls := by
  have h := kf_sim (m0 := meas) sc mc (sysRel_eq sc) cfg hmc
  refine fleet_run (kfPlant sc mc) shareSensors h (fun m => ∀ k, cfg k (m k) = cfg k (meas k))
    (fun e e' he k => (he.2 k).1) (fun e e' m he hm => ⟨he.1, fun k => ⟨hm k, (he.2 k).2⟩⟩) sort hsort calls
    (fun c hc => opSame (hcalls c hc).1 OwnSystem (hcalls c hc).2 ?_) _ _
    (fun i => start_RF h _ _ ⟨rfl, fun k => ⟨rfl, rfl⟩⟩ _ _ _) (fun k => rfl)
  rintro g ⟨h, rfl⟩ e e' he
  dsimp only
  rw [he.1]
  cases h e'.sys with
  | none => exact not_false
  | some s => exact ⟨rfl, he.2⟩

/-- **C93 (EKFs sharing sensors).** -/
theorem C93_share_sensors_ekf (sc : SysClass T NonlinSysData X) (mc : K → MeasClass T NonlinMeasData Y)
    (cfg : K → Meas NonlinMeasData Y → Gm) (hmc : ∀ k, (mc k).Stateless (cfg k))
    (sys : ι → Sys NonlinSysData X) (meas : K → Meas NonlinMeasData Y)
    (calls : List (ι × Op T DVec DMat K (Env K NonlinSysData X NonlinMeasData Y)))
    (hcalls : ∀ c ∈ calls, c.2.NamesSensor ∧ c.2.ChangesOnly OwnSystem) :
    Independent (ekfPlant sc mc) shareSensors sort
      (Fleet.start (ekfPlant sc mc) params (fun i => ⟨sys i, meas⟩) x c t meas) calls := by
  have h := ekf_sim (n0 := meas) sc mc (sysRel_eq sc) cfg hmc
  refine fleet_run (ekfPlant sc mc) shareSensors h (fun m => ∀ k, cfg k (m k) = cfg k (meas k))
    (fun e e' he k => (he.2 k).1) (fun e e' m he hm => ⟨he.1, fun k => ⟨hm k, (he.2 k).2⟩⟩) sort hsort calls
    (fun c hc => opSame (hcalls c hc).1 OwnSystem (hcalls c hc).2 ?_) _ _
    (fun i => start_RF h _ _ ⟨rfl, fun k => ⟨rfl, rfl⟩⟩ _ _ _) (fun k => rfl)
  rintro g ⟨h, rfl⟩ e e' he
  dsimp only
  rw [he.1]
  cases h e'.sys with
  | none => exact not_false
  | some s => exact ⟨rfl, he.2⟩

/-- **C93 (UKFs sharing sensors)**, with sigma point parameters of their own; for every factorisation routine and whatever is
in uninitialised memory. -/
theorem C93_share_sensors_ukf (llt : DMat → Option DMat) (junk : Nat → Nat → ℝ) (sc : SysClass T NonlinSysData X)
    (mc : K → MeasClass T NonlinMeasData Y) (cfg : K → Meas NonlinMeasData Y → Gm) (hmc : ∀ k, (mc k).Stateless (cfg k))
    (sys : ι → Sys NonlinSysData X) (sp : ι → SigmaParams) (meas : K → Meas NonlinMeasData Y)
    (calls : List (ι × Op T DVec DMat K (Env K NonlinSysData X NonlinMeasData Y × SigmaParams)))
    (hcalls : ∀ c ∈ calls, c.2.NamesSensor ∧ c.2.ChangesOnly OwnSystemOrSigma) :
    Independent (ukfPlant llt junk sc mc) shareSensors.withOwn sort
      (Fleet.start (ukfPlant llt junk sc mc) params (fun i => (⟨sys i, meas⟩, sp i)) x c t meas) calls := by
  have h := ukf_sim (n0 := meas) llt junk sc mc (sysRel_eq sc) cfg hmc
  refine fleet_run (ukfPlant llt junk sc mc) shareSensors.withOwn h (fun m => ∀ k, cfg k (m k) = cfg k (meas k))
    (fun e e' he k => (he.1.2 k).1) (fun e e' m he hm => ⟨⟨he.1.1, fun k => ⟨hm k, (he.1.2 k).2⟩⟩, he.2⟩) sort hsort calls
    (fun c hc => opSame (hcalls c hc).1 OwnSystemOrSigma (hcalls c hc).2 ?_) _ _
    (fun i => start_RF h _ _ ⟨⟨rfl, fun k => ⟨rfl, rfl⟩⟩, rfl⟩ _ _ _) (fun k => rfl)
  rintro g ⟨h, rfl⟩ ⟨e, o⟩ ⟨e', _⟩ ⟨he, rfl⟩
  dsimp only
  rw [he.1]
  cases h (e'.sys, o) with
  | none => exact not_false
  | some s => exact ⟨⟨rfl, he.2⟩, rfl⟩

end sensors

section all

variable {Gm Gs : Type} (sort : List (FilterInput T DVec DMat K) → List (FilterInput T DVec DMat K))
  (hsort : ∀ l, (sort l).Perm l) (params : ι → Params T) (x : ι → DVec) (c : ι → DMat) (t : ι → T)
include hsort

/-- **C93 (Kalman filters sharing everything, partial).**  Filters that share the system model as well do not notice each
other either, as long as the user does not change the models between the calls.  Missing: `setControlCovariance` between the
calls, see `C93_refuted`. -/
theorem C93_share_all_kf_partial (sc : SysClass T LinSysData X) (mc : K → MeasClass T LinMeasData Y)
    (cfgS : Sys LinSysData X → Gs) (hsc : sc.Stateless cfgS) (cfg : K → Meas LinMeasData Y → Gm)
    (hmc : ∀ k, (mc k).Stateless (cfg k)) (e0 : Env K LinSysData X LinMeasData Y)
    (calls : List (ι × Op T DVec DMat K (Env K LinSysData X LinMeasData Y)))
    (hcalls : ∀ c ∈ calls, c.2.NamesSensor ∧ c.2.LeavesModels) :
    Independent (kfPlant sc mc) shareAll sort (Fleet.start (kfPlant sc mc) params (fun _ => e0) x c t e0) calls := by
  have h := kf_sim (m0 := e0.meas) sc mc (sysRel_cfg hsc e0.sys) cfg hmc
  refine fleet_run (kfPlant sc mc) shareAll h
    (fun e => cfgS e.sys = cfgS e0.sys ∧ ∀ k, cfg k (e.meas k) = cfg k (e0.meas k))
    (fun e e' he => ⟨he.1.1, fun k => (he.2 k).1⟩) (fun e e' m he hm => ⟨⟨hm.1, he.1.2⟩, fun k => ⟨hm.2 k, (he.2 k).2⟩⟩)
    sort hsort calls (fun c hc => opSame (hcalls c hc).1 (fun _ => False) ?_ (fun g hg => hg.elim)) _ _
    (fun i => start_RF h _ _ ⟨⟨rfl, rfl⟩, fun k => ⟨rfl, rfl⟩⟩ _ _ _) ⟨rfl, fun k => rfl⟩
  have := (hcalls c hc).2
  revert this
  cases c.2 <;> exact id

/-- **C93 (EKFs sharing everything, partial).** -/
theorem C93_share_all_ekf_partial (sc : SysClass T NonlinSysData X) (mc : K → MeasClass T NonlinMeasData Y)
    (cfgS : Sys NonlinSysData X → Gs) (hsc : sc.Stateless cfgS) (cfg : K → Meas NonlinMeasData Y → Gm)
    (hmc : ∀ k, (mc k).Stateless (cfg k)) (e0 : Env K NonlinSysData X NonlinMeasData Y)
    (calls : List (ι × Op T DVec DMat K (Env K NonlinSysData X NonlinMeasData Y)))
    (hcalls : ∀ c ∈ calls, c.2.NamesSensor ∧ c.2.LeavesModels) :
    Independent (ekfPlant sc mc) shareAll sort (Fleet.start (ekfPlant sc mc) params (fun _ => e0) x c t e0) calls := by
  have h := ekf_sim (n0 := e0.meas) sc mc (sysRel_cfg hsc e0.sys) cfg hmc
  refine fleet_run (ekfPlant sc mc) shareAll h
    (fun e => cfgS e.sys = cfgS e0.sys ∧ ∀ k, cfg k (e.meas k) = cfg k (e0.meas k))
    (fun e e' he => ⟨he.1.1, fun k => (he.2 k).1⟩) (fun e e' m he hm => ⟨⟨hm.1, he.1.2⟩, fun k => ⟨hm.2 k, (he.2 k).2⟩⟩)
    sort hsort calls (fun c hc => opSame (hcalls c hc).1 (fun _ => False) ?_ (fun g hg => hg.elim)) _ _
    (fun i => start_RF h _ _ ⟨⟨rfl, rfl⟩, fun k => ⟨rfl, rfl⟩⟩ _ _ _) ⟨rfl, fun k => rfl⟩
  have := (hcalls c hc).2
  revert this
  cases c.2 <;> exact id

/-- **C93 (UKFs sharing everything, partial)**, with sigma point parameters of their own. -/
theorem C93_share_all_ukf_partial (llt : DMat → Option DMat) (junk : Nat → Nat → ℝ) (sc : SysClass T NonlinSysData X)
    (mc : K → MeasClass T NonlinMeasData Y) (cfgS : Sys NonlinSysData X → Gs) (hsc : sc.Stateless cfgS)
    (cfg : K → Meas NonlinMeasData Y → Gm) (hmc : ∀ k, (mc k).Stateless (cfg k))
    (e0 : Env K NonlinSysData X NonlinMeasData Y) (sp : ι → SigmaParams)
    (calls : List (ι × Op T DVec DMat K (Env K NonlinSysData X NonlinMeasData Y × SigmaParams)))
    (hcalls : ∀ c ∈ calls, c.2.NamesSensor ∧ c.2.LeavesModels) :
    Independent (ukfPlant llt junk sc mc) shareAll.withOwn sort
      (Fleet.start (ukfPlant llt junk sc mc) params (fun i => (e0, sp i)) x c t e0) calls := by
  have h := ukf_sim (n0 := e0.meas) llt junk sc mc (sysRel_cfg hsc e0.sys) cfg hmc
  refine fleet_run (ukfPlant llt junk sc mc) shareAll.withOwn h
    (fun e => cfgS e.sys = cfgS e0.sys ∧ ∀ k, cfg k (e.meas k) = cfg k (e0.meas k))
    (fun e e' he => ⟨he.1.1.1, fun k => (he.1.2 k).1⟩)
    (fun e e' m he hm => ⟨⟨⟨hm.1, he.1.1.2⟩, fun k => ⟨hm.2 k, (he.1.2 k).2⟩⟩, he.2⟩)
    sort hsort calls (fun c hc => opSame (hcalls c hc).1 (fun _ => False) ?_ (fun g hg => hg.elim)) _ _
    (fun i => start_RF h _ _ ⟨⟨⟨rfl, rfl⟩, fun k => ⟨rfl, rfl⟩⟩, rfl⟩ _ _ _) ⟨rfl, fun k => rfl⟩
  have := (hcalls c hc).2
  revert this
  cases c.2 <;> exact id

end all

/-! ### Classes meeting the hypotheses -/

/-- What the user configures in a measurement model: everything but the covariance and the cached results. -/
def measConfig {D X : Type} (m : Meas D X) := (m.fm, m.measDims, m.activeMeasurements, m.measurementUsage, m.ext)

/-- What the user configures in a system model: everything but the cached results. -/
def sysConfig {D X : Type} (s : Sys D X) :=
  (s.fm, s.controlDims, s.activeControls, s.controlUsage, s.Rp, s.Rc, s.ext)

/-- Every measurement model class with default operations whose `myUpdate` computes its matrices from the configuration, the
state and the time step. -/
theorem stateless_meas {D X : Type} (F : X → DVec → T → Option D) :
    (MeasClass.plain fun (m : Meas D X) x dt => (F m.ext x dt).map fun d => { m with der := d }).Stateless measConfig where
  seen := by
    intro m m' h
    simp only [measConfig, Prod.mk.injEq] at h
    exact ⟨h.1, h.2.1, h.2.2.1⟩
  setCov := fun m R => rfl
  update := by
    intro m m' x dt h hc
    have he : m.ext = m'.ext := by simp only [measConfig, Prod.mk.injEq] at h; exact h.2.2.2.2
    simp only [MeasClass.plain]
    rw [show F m.ext x dt = F m'.ext x dt by rw [he]]
    cases F m'.ext x dt with
    | none => trivial
    | some d => exact ⟨rfl, rfl, hc.symm, rfl, h.symm⟩
  sub := fun _ _ _ => rfl
  wsum := fun _ _ _ => rfl
  stationary := fun m m' x z h => ⟨rfl, h.symm⟩

/-- Every system model class with default operations whose `myUpdate` computes its matrices from the configuration, the
state, the control and the time step. -/
theorem stateless_sys {D X : Type} (F : X → DVec → DVec → T → Option (D × DMat × DMat)) :
    (SysClass.plain fun (s : Sys D X) x u dt => (F s.ext x u dt).map fun d =>
      { s with der := d.1, P := d.2.1, V := d.2.2 }).Stateless sysConfig where
  seen := by
    intro m m' h
    simp only [sysConfig, Prod.mk.injEq] at h
    exact ⟨h.1, h.2.1, h.2.2.2.2.2.1, h.2.2.2.2.1, h.2.2.1⟩
  update := by
    intro m m' x u dt h
    have he : m.ext = m'.ext := by simp only [sysConfig, Prod.mk.injEq] at h; exact h.2.2.2.2.2.2
    simp only [SysClass.plain]
    rw [show F m.ext x u dt = F m'.ext x u dt by rw [he]]
    cases F m'.ext x u dt with
    | none => trivial
    | some d => exact ⟨rfl, rfl, rfl, rfl, h.symm⟩
  add := fun _ _ _ => rfl
  sub := fun _ _ _ => rfl
  wsum := fun _ _ _ => rfl
  stationary := fun m m' x z h => ⟨rfl, h.symm⟩

/-! ### Sharing a system model and changing it -/

/-- Filter `true` is told a control; then the user sets the control covariance of the common system model to 9 and tells
filter `false` a control, but filter `true` predicts in between. -/
def crossTalk : List (Bool × Op ℤ (List ℤ) ℤ Unit ℤ) :=
  [(true, .predictControl [1] 1), (false, .userModel fun _ => some 9), (true, .predictTime 2), (false, .predictControl [1] 1)]

/-- **C93 (refuted for a common system model).**  `predict(t)` on one filter puts the control covariance of its own last
control back into the common system model, and the next control of the other filter is applied with it: variance 6 instead
of the 14 the filter reports when it is used alone. -/
theorem C93_refuted :
    let fl : Fleet Bool ℤ (List ℤ) ℤ Unit ℤ ℤ := Fleet.start toy (fun _ => ⟨false, 100, false⟩) (fun _ => 1) (fun _ => [0])
      (fun _ => 5) (fun _ => 0) 1
    ¬ Independent toy shareAll insSort fl crossTalk ∧
    (fl.run toy shareAll insSort crossTalk).map (fun g => (g.filters false).getCovariance) = some 6 ∧
    ((fl.filters false).run toy insSort (callsOn false crossTalk)).map getCovariance = some 14 := by
  have h1 : ((Fleet.start toy (fun _ : Bool => ⟨false, 100, false⟩) (fun _ => 1) (fun _ => [0]) (fun _ => 5) (fun _ => 0)
      (1 : ℤ)).run toy shareAll insSort crossTalk).map (fun g => (g.filters false).getCovariance) = some 6 := by
    decide +kernel
  have h2 : (((Fleet.start toy (fun _ : Bool => ⟨false, 100, false⟩) (fun _ => 1) (fun _ => [0]) (fun _ => 5) (fun _ => 0)
      (1 : ℤ)).filters false).run toy insSort (callsOn false crossTalk)).map getCovariance = some 14 := by
    decide +kernel
  refine ⟨fun hI => ?_, h1, h2⟩
  unfold Independent at hI
  obtain ⟨g, hg, hgc⟩ := Option.map_eq_some_iff.mp h1
  rw [hg] at hI
  obtain ⟨a, ha, hs⟩ := hI false
  rw [ha, Option.map_some, Option.some.injEq] at h2
  have := hs.2.1
  rw [h2] at this
  rw [hgc] at this
  exact absurd this (by decide)

end Props
end StateEstimation
