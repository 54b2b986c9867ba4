import Verif.Props.Sharing
import Verif.Lemmas.SharingVS

/-!
# C93 for the filters with variable states
-/

set_option linter.unusedSectionVars false

namespace StateEstimation
namespace Props

open Filter

variable {ι T K X Y : Type} [DecidableEq ι] [DecidableEq K] [TimeOps T] [SaneTime T]

private theorem start_RF {V M E : Type} {P : Plant T V M K E} {RE : E → E → Prop} {U R Z}
    (h : PlantSim P P False (fun _ _ => True) RE U R Z) (params : Params T) (e : E) (he : RE e e) (x : V) (c : M) (t : T) :
    h.sim.RF (construct P params e x c t) (construct P params e x c t) := by
  refine SimRel.RF.init (R := h.sim) rfl ⟨rfl, rfl, he, fun hv => ?_⟩ ⟨rfl, rfl, trivial⟩ t
  exact absurd hv (by show ¬ P.vsize P.emptyV > 0; rw [h.empty]; exact Nat.lt_irrefl 0)

private theorem opSame {V M E : Type} {P : Plant T V M K E} {RE : E → E → Prop} {op : Op T V M K E} (h1 : op.NamesSensor)
    (ok : (E → Option E) → Prop) (h2 : op.ChangesOnly ok) (hok : ∀ g, ok g → ∀ e e', RE e e' → OptRel False RE (g e) (g e')) :
    OpSame P False (fun _ _ => True) RE (fun _ => True) (fun _ _ _ => True) op op := by
  cases op with
  | init x c t => exact ⟨rfl, rfl, rfl, trivial⟩
  | predictTime t => exact rfl
  | predictControl u t => exact ⟨rfl, rfl, fun _ => trivial⟩
  | correct z c t m => exact ⟨rfl, rfl, rfl, rfl, _, (Option.some_get h1).symm, trivial⟩
  | enqueueControl u t => exact ⟨rfl, rfl, fun _ => trivial⟩
  | enqueueMeasurement z c t m => exact ⟨rfl, rfl, rfl, rfl, _, (Option.some_get h1).symm, trivial⟩
  | processQueues => trivial
  | clearControlQueue => trivial
  | clearMeasurementQueue => trivial
  | revertToState t => exact rfl
  | setParams p => exact rfl
  | userModel g => exact hok g h2

section sensors

variable {Gm : Type} (sort : List (FilterInput T DVec DMat K) → List (FilterInput T DVec DMat K))
  (hsort : ∀ l, (sort l).Perm l) (params : ι → Params T) (x : ι → DVec) (c : ι → DMat) (t : ι → T)
include hsort

/-- **C93 (Kalman filters with variable states sharing sensors).**  Filters with system models of their own and common measurement models do not
notice each other, whatever the interleaving of their calls, in every mode, and whatever the user does to the system models
in between. -/
theorem C93_share_sensors_kf_vs (sc : SysClass T LinSysData X) (mc : K → MeasClass T LinMeasData Y)
    (cfg : K → Meas LinMeasData Y → Gm) (hmc : ∀ k, (mc k).Stateless (cfg k))
    (sys : ι → Sys LinSysData X) (meas : K → Meas LinMeasData Y)
    (calls : List (ι × Op T DVec DMat K (Env K LinSysData X LinMeasData Y)))
    (hcalls : ∀ c ∈ calls, c.2.NamesSensor ∧ c.2.ChangesOnly OwnSystem) :
    Independent (kfvsPlant sc mc) shareSensors sort
      (Fleet.start (kfvsPlant sc mc) params (fun i => ⟨sys i, meas⟩) x c t meas) calls := by
  have h := kfvs_sim (m0 := meas) sc mc (sysRel_eq sc) cfg hmc
  refine fleet_run (kfvsPlant sc mc) shareSensors h (fun m => ∀ k, cfg k (m k) = cfg k (meas k))
    (fun e e' he k => (he.2 k).1) (fun e e' m he hm => ⟨he.1, fun k => ⟨hm k, (he.2 k).2⟩⟩) sort hsort calls
    (fun c hc => opSame (hcalls c hc).1 OwnSystem (hcalls c hc).2 ?_) _ _
    (fun i => start_RF h _ _ ⟨rfl, fun k => ⟨rfl, rfl⟩⟩ _ _ _) (fun k => rfl)
  rintro g ⟨h, rfl⟩ e e' he
  dsimp only
  rw [he.1]
  cases h e'.sys with
  | none => exact not_false
  | some s => exact ⟨rfl, he.2⟩

/-- **C93 (EKFs with variable states sharing sensors).** -/
theorem C93_share_sensors_ekf_vs (sc : SysClass T NonlinSysData X) (mc : K → MeasClass T NonlinMeasData Y)
    (cfg : K → Meas NonlinMeasData Y → Gm) (hmc : ∀ k, (mc k).Stateless (cfg k))
    (sys : ι → Sys NonlinSysData X) (meas : K → Meas NonlinMeasData Y)
    (calls : List (ι × Op T DVec DMat K (Env K NonlinSysData X NonlinMeasData Y)))
    (hcalls : ∀ c ∈ calls, c.2.NamesSensor ∧ c.2.ChangesOnly OwnSystem) :
    Independent (ekfvsPlant sc mc) shareSensors sort
      (Fleet.start (ekfvsPlant sc mc) params (fun i => ⟨sys i, meas⟩) x c t meas) calls := by
  have h := ekfvs_sim (n0 := meas) sc mc (sysRel_eq sc) cfg hmc
  refine fleet_run (ekfvsPlant sc mc) shareSensors h (fun m => ∀ k, cfg k (m k) = cfg k (meas k))
    (fun e e' he k => (he.2 k).1) (fun e e' m he hm => ⟨he.1, fun k => ⟨hm k, (he.2 k).2⟩⟩) sort hsort calls
    (fun c hc => opSame (hcalls c hc).1 OwnSystem (hcalls c hc).2 ?_) _ _
    (fun i => start_RF h _ _ ⟨rfl, fun k => ⟨rfl, rfl⟩⟩ _ _ _) (fun k => rfl)
  rintro g ⟨h, rfl⟩ e e' he
  dsimp only
  rw [he.1]
  cases h e'.sys with
  | none => exact not_false
  | some s => exact ⟨rfl, he.2⟩

/-- **C93 (UKFs with variable states sharing sensors)**, with sigma point parameters of their own; for every factorisation routine and whatever is
in uninitialised memory. -/
theorem C93_share_sensors_ukf_vs (llt : DMat → Option DMat) (junk : Nat → Nat → ℝ) (sc : SysClass T NonlinSysData X)
    (mc : K → MeasClass T NonlinMeasData Y) (cfg : K → Meas NonlinMeasData Y → Gm) (hmc : ∀ k, (mc k).Stateless (cfg k))
    (sys : ι → Sys NonlinSysData X) (sp : ι → SigmaParams) (meas : K → Meas NonlinMeasData Y)
    (calls : List (ι × Op T DVec DMat K (Env K NonlinSysData X NonlinMeasData Y × SigmaParams)))
    (hcalls : ∀ c ∈ calls, c.2.NamesSensor ∧ c.2.ChangesOnly OwnSystemOrSigma) :
    Independent (ukfvsPlant llt junk sc mc) shareSensors.withOwn sort
      (Fleet.start (ukfvsPlant llt junk sc mc) params (fun i => (⟨sys i, meas⟩, sp i)) x c t meas) calls := by
  have h := ukfvs_sim (n0 := meas) llt junk sc mc (sysRel_eq sc) cfg hmc
  refine fleet_run (ukfvsPlant llt junk sc mc) shareSensors.withOwn h (fun m => ∀ k, cfg k (m k) = cfg k (meas k))
    (fun e e' he k => (he.1.2 k).1) (fun e e' m he hm => ⟨⟨he.1.1, fun k => ⟨hm k, (he.1.2 k).2⟩⟩, he.2⟩) sort hsort calls
    (fun c hc => opSame (hcalls c hc).1 OwnSystemOrSigma (hcalls c hc).2 ?_) _ _
    (fun i => start_RF h _ _ ⟨⟨rfl, fun k => ⟨rfl, rfl⟩⟩, rfl⟩ _ _ _) (fun k => rfl)
  rintro g ⟨h, rfl⟩ ⟨e, o⟩ ⟨e', _⟩ ⟨he, rfl⟩
  dsimp only
  rw [he.1]
  cases h (e'.sys, o) with
  | none => exact not_false
  | some s => exact ⟨⟨rfl, he.2⟩, rfl⟩

end sensors

section all

variable {Gm Gs : Type} (sort : List (FilterInput T DVec DMat K) → List (FilterInput T DVec DMat K))
  (hsort : ∀ l, (sort l).Perm l) (params : ι → Params T) (x : ι → DVec) (c : ι → DMat) (t : ι → T)
include hsort

/-- **C93 (Kalman filters with variable states sharing everything, partial).**  Filters that share the system model as well do not notice each
other either, as long as the user does not change the models between the calls.  Missing: `setControlCovariance` between the
calls, see `C93_refuted`. -/
theorem C93_share_all_kf_vs_partial (sc : SysClass T LinSysData X) (mc : K → MeasClass T LinMeasData Y)
    (cfgS : Sys LinSysData X → Gs) (hsc : sc.Stateless cfgS) (cfg : K → Meas LinMeasData Y → Gm)
    (hmc : ∀ k, (mc k).Stateless (cfg k)) (e0 : Env K LinSysData X LinMeasData Y)
    (calls : List (ι × Op T DVec DMat K (Env K LinSysData X LinMeasData Y)))
    (hcalls : ∀ c ∈ calls, c.2.NamesSensor ∧ c.2.LeavesModels) :
    Independent (kfvsPlant sc mc) shareAll sort (Fleet.start (kfvsPlant sc mc) params (fun _ => e0) x c t e0) calls := by
  have h := kfvs_sim (m0 := e0.meas) sc mc (sysRel_cfg hsc e0.sys) cfg hmc
  refine fleet_run (kfvsPlant sc mc) shareAll h
    (fun e => cfgS e.sys = cfgS e0.sys ∧ ∀ k, cfg k (e.meas k) = cfg k (e0.meas k))
    (fun e e' he => ⟨he.1.1, fun k => (he.2 k).1⟩) (fun e e' m he hm => ⟨⟨hm.1, he.1.2⟩, fun k => ⟨hm.2 k, (he.2 k).2⟩⟩)
    sort hsort calls (fun c hc => opSame (hcalls c hc).1 (fun _ => False) ?_ (fun g hg => hg.elim)) _ _
    (fun i => start_RF h _ _ ⟨⟨rfl, rfl⟩, fun k => ⟨rfl, rfl⟩⟩ _ _ _) ⟨rfl, fun k => rfl⟩
  have := (hcalls c hc).2
  revert this
  cases c.2 <;> exact id

/-- **C93 (EKFs with variable states sharing everything, partial).** -/
theorem C93_share_all_ekf_vs_partial (sc : SysClass T NonlinSysData X) (mc : K → MeasClass T NonlinMeasData Y)
    (cfgS : Sys NonlinSysData X → Gs) (hsc : sc.Stateless cfgS) (cfg : K → Meas NonlinMeasData Y → Gm)
    (hmc : ∀ k, (mc k).Stateless (cfg k)) (e0 : Env K NonlinSysData X NonlinMeasData Y)
    (calls : List (ι × Op T DVec DMat K (Env K NonlinSysData X NonlinMeasData Y)))
    (hcalls : ∀ c ∈ calls, c.2.NamesSensor ∧ c.2.LeavesModels) :
    Independent (ekfvsPlant sc mc) shareAll sort (Fleet.start (ekfvsPlant sc mc) params (fun _ => e0) x c t e0) calls := by
  have h := ekfvs_sim (n0 := e0.meas) sc mc (sysRel_cfg hsc e0.sys) cfg hmc
  refine fleet_run (ekfvsPlant sc mc) shareAll h
    (fun e => cfgS e.sys = cfgS e0.sys ∧ ∀ k, cfg k (e.meas k) = cfg k (e0.meas k))
    (fun e e' he => ⟨he.1.1, fun k => (he.2 k).1⟩) (fun e e' m he hm => ⟨⟨hm.1, he.1.2⟩, fun k => ⟨hm.2 k, (he.2 k).2⟩⟩)
    sort hsort calls (fun c hc => opSame (hcalls c hc).1 (fun _ => False) ?_ (fun g hg => hg.elim)) _ _
    (fun i => start_RF h _ _ ⟨⟨rfl, rfl⟩, fun k => ⟨rfl, rfl⟩⟩ _ _ _) ⟨rfl, fun k => rfl⟩
  have := (hcalls c hc).2
  revert this
  cases c.2 <;> exact id

/-- **C93 (UKFs with variable states sharing everything, partial)**, with sigma point parameters of their own. -/
theorem C93_share_all_ukf_vs_partial (llt : DMat → Option DMat) (junk : Nat → Nat → ℝ) (sc : SysClass T NonlinSysData X)
    (mc : K → MeasClass T NonlinMeasData Y) (cfgS : Sys NonlinSysData X → Gs) (hsc : sc.Stateless cfgS)
    (cfg : K → Meas NonlinMeasData Y → Gm) (hmc : ∀ k, (mc k).Stateless (cfg k))
    (e0 : Env K NonlinSysData X NonlinMeasData Y) (sp : ι → SigmaParams)
    (calls : List (ι × Op T DVec DMat K (Env K NonlinSysData X NonlinMeasData Y × SigmaParams)))
    (hcalls : ∀ c ∈ calls, c.2.NamesSensor ∧ c.2.LeavesModels) :
    Independent (ukfvsPlant llt junk sc mc) shareAll.withOwn sort
      (Fleet.start (ukfvsPlant llt junk sc mc) params (fun i => (e0, sp i)) x c t e0) calls := by
  have h := ukfvs_sim (n0 := e0.meas) llt junk sc mc (sysRel_cfg hsc e0.sys) cfg hmc
  refine fleet_run (ukfvsPlant llt junk sc mc) shareAll.withOwn h
    (fun e => cfgS e.sys = cfgS e0.sys ∧ ∀ k, cfg k (e.meas k) = cfg k (e0.meas k))
    (fun e e' he => ⟨he.1.1.1, fun k => (he.1.2 k).1⟩)
    (fun e e' m he hm => ⟨⟨⟨hm.1, he.1.1.2⟩, fun k => ⟨hm.2 k, (he.1.2 k).2⟩⟩, he.2⟩)
    sort hsort calls (fun c hc => opSame (hcalls c hc).1 (fun _ => False) ?_ (fun g hg => hg.elim)) _ _
    (fun i => start_RF h _ _ ⟨⟨⟨rfl, rfl⟩, fun k => ⟨rfl, rfl⟩⟩, rfl⟩ _ _ _) ⟨rfl, fun k => rfl⟩
  have := (hcalls c hc).2
  revert this
  cases c.2 <;> exact id

end all

/-- Non-vacuity: two filters with system models of their own and a common set of sensors with default operations. -/
example (F : X → DVec → DVec → T → Option (NonlinSysData × DMat × DMat)) (H : K → Y → DVec → T → Option NonlinMeasData)
    (sort : List (FilterInput T DVec DMat K) → List (FilterInput T DVec DMat K)) (hsort : ∀ l, (sort l).Perm l)
    (params : Bool → Params T) (x : Bool → DVec) (c : Bool → DMat) (t : Bool → T) (sys : Bool → Sys NonlinSysData X)
    (meas : K → Meas NonlinMeasData Y) (k : K) (z : DVec) (R : DMat) (s : T) :=
  C93_share_sensors_ekf_vs (ι := Bool) sort hsort params x c t
    (SysClass.plain fun s x u dt => (F s.ext x u dt).map fun d => { s with der := d.1, P := d.2.1, V := d.2.2 })
    (fun k => MeasClass.plain fun m x dt => (H k m.ext x dt).map fun d => { m with der := d })
    (fun _ => measConfig) (fun k => stateless_meas (H k)) sys meas
    [(true, .predictTime s), (false, .correct z R s (some k)), (true, .correct z R s (some k)),
      (true, .userModel fun e => (some { e.sys with activeControls := [] }).map fun s => { e with sys := s })]
    (by
      intro c hc
      simp only [List.mem_cons, List.not_mem_nil, or_false] at hc
      rcases hc with rfl | rfl | rfl | rfl
      · exact ⟨trivial, trivial⟩
      · exact ⟨rfl, trivial⟩
      · exact ⟨rfl, trivial⟩
      · exact ⟨trivial, fun s => some { s with activeControls := [] }, rfl⟩)

end Props
end StateEstimation
