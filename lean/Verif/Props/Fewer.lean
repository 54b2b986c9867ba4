import Verif.Spec.Fewer
import Verif.Spec.Asking
import Verif.Props.LateBest
import Verif.Props.Monotone
import Verif.Props.Asking
import Verif.Examples.Quad

/-!
# C125: leaving out measurements never makes the Kalman filter more certain
-/

set_option linter.unusedSectionVars false

namespace StateEstimation
namespace Props

open Matrix Kalman Filter

variable {T K X Y : Type} [LinearOrder T] [ExactTime T] [DecidableEq K] {n m p : Nat} {kd : K → Nat}

private theorem prop_mono {P P' A : Matrix (Fin n) (Fin n) ℝ} (h : (P' - P).PosSemidef) (N N2 : Matrix (Fin n) (Fin n) ℝ) :
    ((A * P' * Aᵀ + N + N2) - (A * P * Aᵀ + N + N2)).PosSemidef := by
  have e : (A * P' * Aᵀ + N + N2) - (A * P * Aᵀ + N + N2) = A * (P' - P) * Aᵀ := by
    simp only [Matrix.mul_sub, Matrix.sub_mul]; abel
  rw [e]; exact psd_conj h A

private theorem le_trans' {P Q R : Matrix (Fin n) (Fin n) ℝ} (h : (Q - P).PosSemidef) (h' : (R - Q).PosSemidef) :
    (R - P).PosSemidef := by
  have := h'.add h
  rwa [sub_add_sub_cancel] at this

private theorem le_refl' (P : Matrix (Fin n) (Fin n) ℝ) : (P - P).PosSemidef := by rw [sub_self]; exact .zero

theorem rec_fewer {x0 x0' : Fin n → ℝ} {P0 P0' : Matrix (Fin n) (Fin n) ℝ} (h0 : P0.PosSemidef) (h01 : (P0' - P0).PosSemidef)
    {evs' evs : List (Event n m)} (h : Fewer evs' evs) (hok : ∀ ev ∈ evs, ev.Ok) :
    ((kalmanRec x0' P0' evs').2 - (kalmanRec x0 P0 evs).2).PosSemidef := by
  induction h with
  | start => exact h01
  | move u' u _ ih => exact prop_mono (ih fun ev h => hok ev (List.mem_cons_of_mem _ h)) _ _
  | both z' z _ ih =>
    have hk : ∀ ev ∈ _, Event.Ok ev := fun ev h => hok ev (List.mem_cons_of_mem _ h)
    exact post_mono (kalmanRec_psd h0 hk) (ih hk) (hok _ List.mem_cons_self) (le_refl' _)
  | leaveOut z _ ih =>
    have hk : ∀ ev ∈ _, Event.Ok ev := fun ev h => hok ev (List.mem_cons_of_mem _ h)
    exact le_trans' (post_le (kalmanRec_psd h0 hk) _ (hok _ List.mem_cons_self)) (ih hk)

theorem Fewer.ok {evs' evs : List (Event n m)} (h : Fewer evs' evs) (hok : ∀ ev ∈ evs, ev.Ok) : ∀ ev ∈ evs', ev.Ok := by
  induction h with
  | start => exact hok
  | move u' u _ ih =>
    intro ev hev
    rcases List.mem_cons.mp hev with rfl | hev
    · exact hok (.move _ _ _ _ _ _ u) List.mem_cons_self
    · exact ih (fun ev h => hok ev (List.mem_cons_of_mem _ h)) ev hev
  | both z' z _ ih =>
    intro ev hev
    rcases List.mem_cons.mp hev with rfl | hev
    · exact hok (.measure _ _ z) List.mem_cons_self
    · exact ih (fun ev h => hok ev (List.mem_cons_of_mem _ h)) ev hev
  | leaveOut z _ ih => exact ih (fun ev h => hok ev (List.mem_cons_of_mem _ h))

/-- **C125 (any in-order use).**  Two Kalman filters on the same models; the second starts with a belief at most as certain as
that of the first, and has been told the same motions but only some of the measurements.  (The controls and the measured values
may differ.)  Then in every direction the variance the first reports is at most that of the second. -/
theorem C125_fewer {sc : SysClass T LinSysData X} {mc : K → MeasClass T LinMeasData Y}
    (hsc : SysContract LinSysData.Sized sc) (hmc : ∀ j, MeasContract LinMeasData.Sized (mc j))
    (ops : sc.PlainOps) (mops : ∀ j, (mc j).PlainOps) {x0 x0' : Fin n → ℝ} {P0 P0' : Matrix (Fin n) (Fin n) ℝ}
    (h0 : P0.PosSemidef) (h01 : (P0' - P0).PosSemidef) {f ctl evs f' ctl' evs'}
    (h : Recorded sc mc n m kd x0 P0 f ctl evs) (h' : Recorded sc mc n m kd x0' P0' f' ctl' evs')
    (hF : Fewer evs' evs) (hok : ∀ ev ∈ evs, ev.Ok) :
    ∃ P P' : Matrix (Fin n) (Fin n) ℝ, f.getCovariance = .of P ∧ f'.getCovariance = .of P' ∧ P.PosSemidef ∧ (P' - P).PosSemidef := by
  have h0' : P0'.PosSemidef := by have := h0.add h01; rwa [add_sub_cancel] at this
  exact ⟨_, _, (h.inv hsc hmc ops mops h0 hok).cov, (h'.inv hsc hmc ops mops h0' (Fewer.ok hF hok)).cov, kalmanRec_psd h0 hok,
    rec_fewer h0 h01 hF hok⟩

/-! ### In terms of the calls -/

section calls

variable (L : LinearUse T K n m p kd)

/-- covariance after `d` -/
private noncomputable def prop (d : T) (P : Matrix (Fin n) (Fin n) ℝ) : Matrix (Fin n) (Fin n) ℝ :=
  L.A d * P * (L.A d)ᵀ + L.W d * L.Rp * (L.W d)ᵀ + L.V d * L.Rc * (L.V d)ᵀ

/-- the belief at `t'`, carried on to `t`, is at most as certain -/
private def Behind (t : T) (P : Matrix (Fin n) (Fin n) ℝ) (t' : T) (P' : Matrix (Fin n) (Fin n) ℝ) : Prop :=
  (t' = t ∧ (P' - P).PosSemidef) ∨ (t' < t ∧ (prop L (TimeOps.sub t t') P' - P).PosSemidef)

variable {L}

private theorem prop_prop (hL : L.Flows) {a b c : T} (h1 : a < b) (h2 : b < c) (P : Matrix (Fin n) (Fin n) ℝ) :
    prop L (TimeOps.sub c b) (prop L (TimeOps.sub b a) P) = prop L (TimeOps.sub c a) P := by
  have e := hL.noise a b c h1 h2
  dsimp only at e
  unfold prop
  rw [add_assoc (L.A (TimeOps.sub c a) * P * _), e, hL.state a b c h1 h2, Matrix.transpose_mul]
  simp only [Matrix.mul_add, Matrix.add_mul, Matrix.mul_assoc]
  abel

private theorem Behind.step (hL : L.Flows) {t t' s : T} {P P'} (h : Behind L t P t' P') (hs : t < s) :
    t' < s ∧ (prop L (TimeOps.sub s t') P' - prop L (TimeOps.sub s t) P).PosSemidef := by
  rcases h with ⟨rfl, h⟩ | ⟨h1, h⟩
  · exact ⟨hs, prop_mono h _ _⟩
  · refine ⟨h1.trans hs, ?_⟩
    rw [← prop_prop hL h1 hs]
    exact prop_mono h _ _

private theorem story_behind (hL : L.Flows) (hRp : L.Rp.PosSemidef) (hRc : L.Rc.PosSemidef) {x0 : Fin n → ℝ}
    {P0 : Matrix (Fin n) (Fin n) ℝ} {x0' : Fin n → ℝ} {P0' : Matrix (Fin n) (Fin n) ℝ}
    {rs' rs : List (TimedReading T kd)} (hsub : rs'.Sublist rs) :
    ∀ (t t' : T) (evs evs' : List (Event n m)), (kalmanRec x0 P0 evs).2.PosSemidef →
      Behind L t (kalmanRec x0 P0 evs).2 t' (kalmanRec x0' P0' evs').2 →
      (∀ r ∈ rs, t < r.t ∧ r.R.PosDef) → rs.Pairwise (fun a b => a.t < b.t) →
      Behind L (lastTime t rs) (kalmanRec x0 P0 (L.story t rs evs)).2 (lastTime t' rs') (kalmanRec x0' P0' (L.story t' rs' evs')).2 := by
  induction hsub with
  | slnil => intro t t' evs evs' _ h _ _; exact h
  | @cons rs' rs r _ ih =>
    intro t t' evs evs' hP h hr hs
    obtain ⟨hr1, hs⟩ := List.pairwise_cons.mp hs
    obtain ⟨h1, h2⟩ := h.step hL (hr r List.mem_cons_self).1
    have hp : (prop L (TimeOps.sub r.t t) (kalmanRec x0 P0 evs).2).PosSemidef := propagate_psd hP hRp hRc
    refine ih r.t t' _ evs' (post_psd hp _ (hr r List.mem_cons_self).2) (Or.inr ⟨h1, ?_⟩)
      (fun a ha => ⟨hr1 a ha, (hr a (List.mem_cons_of_mem _ ha)).2⟩) hs
    exact le_trans' (post_le hp _ (hr r List.mem_cons_self).2) h2
  | @cons_cons rs' rs r _ ih =>
    intro t t' evs evs' hP h hr hs
    obtain ⟨hr1, hs⟩ := List.pairwise_cons.mp hs
    obtain ⟨h1, h2⟩ := h.step hL (hr r List.mem_cons_self).1
    have hp : (prop L (TimeOps.sub r.t t) (kalmanRec x0 P0 evs).2).PosSemidef := propagate_psd hP hRp hRc
    refine ih r.t r.t _ _ (post_psd hp _ (hr r List.mem_cons_self).2) (Or.inl ⟨rfl, ?_⟩)
      (fun a ha => ⟨hr1 a ha, (hr a (List.mem_cons_of_mem _ ha)).2⟩) hs
    exact post_mono hp h2 (hr r List.mem_cons_self).2 (le_refl' _)

variable (L)

/-- in-order readings, then `predict(t)` -/
private theorem told_then_asked (hRp : L.Rp.PosSemidef) (hRc : L.Rc.PosSemidef)
    (sort : List (FilterInput T DVec DMat K) → List (FilterInput T DVec DMat K)) (params : Params T) (x0 : Fin n → ℝ)
    (P0 : Matrix (Fin n) (Fin n) ℝ) (h0 : P0.PosSemidef) (t0 : T) (rs : List (TimedReading T kd))
    (hs : rs.Pairwise fun a b => a.t < b.t) (t1 : T) (ht : ∀ r ∈ rs, t0 < r.t ∧ r.R.PosDef ∧ r.t < t1) (h1 : t0 < t1) :
    ∃ g1 g, (construct (kfPlant L.sysClass L.measClass) params L.env (.of x0) (.of P0) t0).run (kfPlant L.sysClass L.measClass)
        sort (rs.map TimedReading.call) = some g1 ∧ g1.getStateTime = lastTime t0 rs ∧ lastTime t0 rs < t1 ∧
      g1.predictTime (kfPlant L.sysClass L.measClass) t1 = some g ∧ g.getStateTime = t1 ∧
      (kalmanRec x0 P0 (L.story t0 rs [])).2.PosSemidef ∧
      g.getCovariance = .of (prop L (TimeOps.sub t1 (lastTime t0 rs)) (kalmanRec x0 P0 (L.story t0 rs [])).2) := by
  have hok := LinearUse.env_ok L hRp hRc (Q := EstimatePSD n)
  obtain ⟨g1, k1, k2, k3, k4, k5, k6, k7⟩ := story_recorded L h0 hRp hRc sort rs
    (construct (kfPlant L.sysClass L.measClass) params L.env (.of x0) (.of P0) t0) []
    (.start params L.env t0 hok.sys hok.meas ⟨rfl, fun _ => rfl⟩) (by intro ev h; cases h) rfl rfl rfl
    (fun r hr => ⟨(ht r hr).1, (ht r hr).2.1⟩) hs
  change Recorded L.sysClass L.measClass n m kd x0 P0 g1 0 (L.story t0 rs []) at k2
  change ∀ ev ∈ L.story t0 rs [], ev.Ok at k3
  change g1.getStateTime = lastTime t0 rs at k7
  have hlast : ∀ (l : List (TimedReading T kd)) (t : T), t < t1 → (∀ r ∈ l, r.t < t1) → lastTime t l < t1 := by
    intro l
    induction l with
    | nil => intro t h _; exact h
    | cons r l ih => intro t h hl; exact ih r.t (hl r List.mem_cons_self) (fun a ha => hl a (List.mem_cons_of_mem _ ha))
  have hlt := hlast rs t0 h1 (fun r hr => (ht r hr).2.2)
  have hI := k2.inv L.contract L.mcontract (Examples.plain_ops _) (fun j => Examples.plain_mops _) h0 k3
  obtain ⟨p', A', B', W', V', Rp', Rc', c', e1, e2, e3, e4, e5, e6⟩ := History.control_step' (mc := L.measClass) L.contract
    (Examples.plain_ops _) hI ⟨.empty, (kfPlant L.sysClass L.measClass).rc g1.env, t1, true, none⟩ 0 (Or.inr ⟨rfl, rfl⟩)
  obtain ⟨q1, _⟩ := e6 rfl k4
  rw [show ({ g1.core.env.sys with Rc := DMat.of Rc' } : Sys LinSysData Unit) = g1.env.sys by rw [q1]; rfl] at e5
  have hsh : g1.env.sys.stateSize = n ∧ g1.env.sys.controlDims = m ∧ g1.env.sys.Rp.rows = p :=
    ⟨hI.sys.states, hI.sys.controls, by rw [k5]⟩
  have e5' : c'.env.sys.Holds (L.A (TimeOps.sub t1 g1.core.ts)) (L.B (TimeOps.sub t1 g1.core.ts))
      (L.W (TimeOps.sub t1 g1.core.ts)) (L.V (TimeOps.sub t1 g1.core.ts)) L.Rp L.Rc := by
    simp only [LinearUse.sysClass, SysClass.plain, if_pos hsh] at e5
    rw [← Option.some.inj e5]
    exact ⟨rfl, rfl, rfl, rfl, k5, k6⟩
  obtain ⟨hA, hB, hV, hRc', hp, hW, hRp'⟩ := History.holds_unique e2 e5'
  subst hA hB hV hRc' hp
  cases hW; cases hRp'
  have happ : Core.apply (kfPlant L.sysClass L.measClass) g1.core
      ⟨.empty, (kfPlant L.sysClass L.measClass).rc g1.env, t1, true, none⟩ = some (c'.tick (TimeOps.sub t1 g1.core.ts)) := by
    exact (congrArg (Option.map fun x => Core.tick x (TimeOps.sub t1 g1.core.ts)) e1)
  have hcore := Filter.applyInput_core (kfPlant L.sysClass L.measClass) g1
    ⟨.empty, (kfPlant L.sysClass L.measClass).rc g1.env, t1, true, none⟩
  rw [happ] at hcore
  obtain ⟨g, hg, hgc⟩ := Option.map_eq_some_iff.mp hcore
  have hlt' : g1.state.timestamp < t1 := by
    have : g1.state.timestamp = lastTime t0 rs := k7
    rw [this]; exact hlt
  refine ⟨g1, g, k1, k7, hlt, ?_, ?_, kalmanRec_psd h0 k3, ?_⟩
  · rw [Filter.predictTime_future _ g1 t1 hlt']; exact hg
  · have : g.getStateTime = (c'.tick (TimeOps.sub t1 g1.core.ts)).ts := congrArg Core.ts hgc
    rw [this]
    show TimeOps.add c'.ts (TimeOps.sub t1 g1.core.ts) = t1
    rw [e3]
    exact ExactTime.add_sub_cancel _ _
  · have : g.getCovariance = c'.cov := congrArg Core.cov hgc
    rw [this, e4.cov]
    have : g1.core.ts = lastTime t0 rs := k7
    rw [this]
    rfl

/-- **C125 (in order, any mode).**  Linear models in continuous time (`Flows`), readings in time order, then `predict(t1)`.
Whichever of the readings are left out, no variance reported for `t1` gets smaller. -/
theorem C125_in_order (hL : L.Flows) (hRp : L.Rp.PosSemidef) (hRc : L.Rc.PosSemidef)
    (sort : List (FilterInput T DVec DMat K) → List (FilterInput T DVec DMat K)) (params : Params T) (x0 : Fin n → ℝ)
    (P0 : Matrix (Fin n) (Fin n) ℝ) (h0 : P0.PosSemidef) (t0 t1 : T) (h1 : t0 < t1)
    (readings fewer : List (TimedReading T kd)) (hsub : fewer.Sublist readings)
    (hs : readings.Pairwise fun a b => a.t < b.t) (ht : ∀ r ∈ readings, t0 < r.t ∧ r.R.PosDef ∧ r.t < t1) :
    ∃ g g' P P',
      (construct (kfPlant L.sysClass L.measClass) params L.env (.of x0) (.of P0) t0).run (kfPlant L.sysClass L.measClass) sort
        (readings.map TimedReading.call ++ [.predictTime t1]) = some g ∧
      (construct (kfPlant L.sysClass L.measClass) params L.env (.of x0) (.of P0) t0).run (kfPlant L.sysClass L.measClass) sort
        (fewer.map TimedReading.call ++ [.predictTime t1]) = some g' ∧
      g.getStateTime = t1 ∧ g'.getStateTime = t1 ∧
      g.getCovariance = .of P ∧ g'.getCovariance = .of P' ∧ P.PosSemidef ∧ (P' - P : Matrix (Fin n) (Fin n) ℝ).PosSemidef := by
  obtain ⟨g1, g, a1, a2, a3, a4, a5, a6, a7⟩ := told_then_asked L hRp hRc sort params x0 P0 h0 t0 readings hs t1 ht h1
  obtain ⟨g1', g', b1, b2, b3, b4, b5, b6, b7⟩ := told_then_asked L hRp hRc sort params x0 P0 h0 t0 fewer (hs.sublist hsub) t1
    (fun r hr => ht r (hsub.subset hr)) h1
  have hb := story_behind hL hRp hRc (x0 := x0) (P0 := P0) (x0' := x0) (P0' := P0) hsub t0 t0 [] [] h0
    (Or.inl ⟨rfl, le_refl' _⟩) (fun r hr => ⟨(ht r hr).1, (ht r hr).2.1⟩) hs
  refine ⟨g, g', _, _, ?_, ?_, a5, b5, a7, b7, propagate_psd a6 hRp hRc, (hb.step hL a3).2⟩
  · rw [Filter.run_append, a1]; exact by simp only [Option.bind_some, Filter.run, Filter.step, a4]
  · rw [Filter.run_append, b1]; exact by simp only [Option.bind_some, Filter.run, Filter.step, b4]

/-- readings in any order, then `predict(t1)`: the covariance for the readings in order -/
private theorem late_then_asked (hRp : L.Rp.PosSemidef) (hRc : L.Rc.PosSemidef)
    (sort : List (FilterInput T DVec DMat K) → List (FilterInput T DVec DMat K)) (hsort : ∀ l, (sort l).Perm l)
    (params : Params T) (hr : params.rewindHistory = true) (x0 : Fin n → ℝ)
    (P0 : Matrix (Fin n) (Fin n) ℝ) (h0 : P0.PosSemidef) (t0 t1 : T) (h1 : t0 < t1)
    (hw : TimeOps.sub t1 params.historyWindow ≤ t0) (arrival rs : List (TimedReading T kd)) (hp : arrival.Perm rs)
    (hs : rs.Pairwise fun a b => a.t < b.t)
    (ht : ∀ r ∈ rs, t0 < r.t ∧ r.R.PosDef ∧ r.t < t1) (hwin : ∀ r ∈ rs, TimeOps.sub r.t params.historyWindow ≤ t0) :
    ∃ G, (construct (kfPlant L.sysClass L.measClass) params L.env (.of x0) (.of P0) t0).run (kfPlant L.sysClass L.measClass)
        sort (arrival.map TimedReading.call ++ [.predictTime t1]) = some G ∧ G.getStateTime = t1 ∧
      lastTime t0 rs < t1 ∧ (kalmanRec x0 P0 (L.story t0 rs [])).2.PosSemidef ∧
      G.getCovariance = .of (prop L (TimeOps.sub t1 (lastTime t0 rs)) (kalmanRec x0 P0 (L.story t0 rs [])).2) := by
  obtain ⟨g1, g, a1, a2, a3, a4, a5, a6, a7⟩ := told_then_asked L hRp hRc sort params x0 P0 h0 t0 rs hs t1 ht h1
  have hok := LinearUse.env_ok L hRp hRc (Q := EstimatePSD n)
  have hwf : ∀ r ∈ arrival, (r.call : Op T DVec DMat K (Env K LinSysData Unit LinMeasData Unit)).WellFormed (EstimatePSD n)
      (Env.Ok LinSysData.Sized LinMeasData.Sized NoisePSD (EstimatePSD n) n m kd) m kd DMat.PD := by
    intro r hrr
    exact ⟨r.j, rfl, rfl, ⟨rfl, rfl⟩, ⟨rfl, (ht r (hp.subset hrr)).2.1⟩⟩
  obtain ⟨G, hG, _⟩ := C26_C29_kf L.contract L.mcontract kd sort hsort params L.env hok (.of x0) (.of P0) t0
    ⟨⟨rfl, rfl, rfl⟩, ⟨rfl, h0⟩⟩ (arrival.map TimedReading.call ++ [.predictTime t1]) (by
      intro op hop
      rcases List.mem_append.mp hop with hop | hop
      · obtain ⟨r, hr1, rfl⟩ := List.mem_map.mp hop
        exact hwf r hr1
      · rw [List.mem_singleton.mp hop]; trivial)
  have hAF := C106_kf sort (late_cfgS n m p) L.stateless (fun j => late_cfgM n (kd j)) L.mstateless
    (construct (kfPlant L.sysClass L.measClass) params L.env (.of x0) (.of P0) t0) hr
  have hG' := hG
  rw [Filter.run_append] at hG'
  obtain ⟨ga, hga, hga2⟩ := Option.bind_eq_some_iff.mp hG'
  -- the readings alone
  obtain ⟨g', j1, _, _, j4⟩ := hAF.mixture
    (fun h => absurd h (Nat.lt_irrefl 0)) (.of x0) (.of P0) t0 (arrival.map TimedReading.call) (rs.map TimedReading.call)
    (hp.map _) (List.pairwise_map.mpr hs)
    (by
      intro op hop
      obtain ⟨r, _, rfl⟩ := List.mem_map.mp hop
      exact Or.inl ⟨_, _, _, _, rfl⟩)
    (by
      intro op hop
      obtain ⟨r, hr1, rfl⟩ := List.mem_map.mp hop
      exact ⟨(ht r hr1).1, hwin r hr1⟩) ga hga
  have : g' = g1 := Option.some.inj (j1.symm.trans a1)
  subst this
  -- in order, `predict(t)` is `predict` with an empty control
  have swap : ∀ f : Filter T DVec DMat K (Env K LinSysData Unit LinMeasData Unit), f.getStateTime < t1 →
      f.run (kfPlant L.sysClass L.measClass) sort [.predictControl .empty t1]
        = f.run (kfPlant L.sysClass L.measClass) sort [.predictTime t1] := by
    intro f hf
    have e : f.predictControl (kfPlant L.sysClass L.measClass) .empty t1 = f.predictTime (kfPlant L.sysClass L.measClass) t1 := by
      rw [Filter.predictTime_future _ f t1 hf, Filter.predictControl_inorder _ f _ t1 hf.le]
      rfl
    simp only [Filter.run, Filter.step, e]
  have hG3 : (construct (kfPlant L.sysClass L.measClass) params L.env (.of x0) (.of P0) t0).run (kfPlant L.sysClass L.measClass)
      sort (arrival.map TimedReading.call ++ [.predictControl .empty t1]) = some G := by
    rw [Filter.run_append, hga]
    show ga.run _ _ _ = _
    rw [swap ga (by rw [j4, a2]; exact a3)]
    exact hga2
  let ask : Op T DVec DMat K (Env K LinSysData Unit LinMeasData Unit) := .predictControl .empty t1
  obtain ⟨g'', j1', _, j3, j4'⟩ := hAF.mixture
    (fun h => absurd h (Nat.lt_irrefl 0)) (.of x0) (.of P0) t0 (arrival.map TimedReading.call ++ [ask])
    (rs.map TimedReading.call ++ [ask])
    ((hp.map _).append_right _) (by
      refine List.pairwise_append.mpr ⟨List.pairwise_map.mpr hs, List.pairwise_singleton _ _, ?_⟩
      intro a ha b hb
      obtain ⟨r, hr1, rfl⟩ := List.mem_map.mp ha
      rw [List.mem_singleton.mp hb]
      exact (ht r hr1).2.2)
    (by
      intro op hop
      rcases List.mem_append.mp hop with hop | hop
      · obtain ⟨r, _, rfl⟩ := List.mem_map.mp hop
        exact Or.inl ⟨_, _, _, _, rfl⟩
      · rw [List.mem_singleton.mp hop]; exact Or.inr ⟨_, _, rfl, Or.inl rfl⟩)
    (by
      intro op hop
      rcases List.mem_append.mp hop with hop | hop
      · obtain ⟨r, hr1, rfl⟩ := List.mem_map.mp hop
        exact ⟨(ht r hr1).1, hwin r hr1⟩
      · rw [List.mem_singleton.mp hop]; exact ⟨h1, hw⟩) G (show Filter.run _ _ (construct (kfPlant L.sysClass L.measClass) params L.env (.of x0) (.of P0) t0) _ = _ from hG3)
  have : g'' = g := by
    have e : (construct (kfPlant L.sysClass L.measClass) params L.env (.of x0) (.of P0) t0).run (kfPlant L.sysClass L.measClass)
        sort (rs.map TimedReading.call ++ [.predictControl .empty t1]) = some g := by
      rw [Filter.run_append, a1]
      show g'.run _ _ _ = _
      rw [swap g' (by rw [a2]; exact a3)]
      simp only [Filter.run, Filter.step, a4]
    exact Option.some.inj (j1'.symm.trans e)
  subst this
  exact ⟨G, hG, j4'.trans a5, a3, a6, j3.trans a7⟩

/-- **C125 (rewind mode, any arrival order).**  Linear models in continuous time (`Flows`), a filter in rewind mode.  Readings
with distinct times after the start arrive in any order; then `predict(t1)`, all within the history window.  Whichever readings
are left out, and in whatever order the others arrive then, no variance reported for `t1` gets smaller. -/
theorem C125_late (hL : L.Flows) (hRp : L.Rp.PosSemidef) (hRc : L.Rc.PosSemidef)
    (sort : List (FilterInput T DVec DMat K) → List (FilterInput T DVec DMat K)) (hsort : ∀ l, (sort l).Perm l)
    (params : Params T) (hr : params.rewindHistory = true) (x0 : Fin n → ℝ)
    (P0 : Matrix (Fin n) (Fin n) ℝ) (h0 : P0.PosSemidef) (t0 t1 : T) (h1 : t0 < t1)
    (hw : TimeOps.sub t1 params.historyWindow ≤ t0) (readings fewer arrival arrival' : List (TimedReading T kd))
    (hsub : fewer.Sublist readings) (hp : arrival.Perm readings) (hp' : arrival'.Perm fewer)
    (hs : readings.Pairwise fun a b => a.t < b.t) (ht : ∀ r ∈ readings, t0 < r.t ∧ r.R.PosDef ∧ r.t < t1)
    (hwin : ∀ r ∈ readings, TimeOps.sub r.t params.historyWindow ≤ t0) :
    ∃ g g' P P',
      (construct (kfPlant L.sysClass L.measClass) params L.env (.of x0) (.of P0) t0).run (kfPlant L.sysClass L.measClass) sort
        (arrival.map TimedReading.call ++ [.predictTime t1]) = some g ∧
      (construct (kfPlant L.sysClass L.measClass) params L.env (.of x0) (.of P0) t0).run (kfPlant L.sysClass L.measClass) sort
        (arrival'.map TimedReading.call ++ [.predictTime t1]) = some g' ∧
      g.getStateTime = t1 ∧ g'.getStateTime = t1 ∧
      g.getCovariance = .of P ∧ g'.getCovariance = .of P' ∧ P.PosSemidef ∧ (P' - P : Matrix (Fin n) (Fin n) ℝ).PosSemidef := by
  obtain ⟨g, a1, a2, a3, a4, a5⟩ := late_then_asked L hRp hRc sort hsort params hr x0 P0 h0 t0 t1 h1 hw arrival readings hp hs ht hwin
  obtain ⟨g', b1, b2, b3, b4, b5⟩ := late_then_asked L hRp hRc sort hsort params hr x0 P0 h0 t0 t1 h1 hw arrival' fewer hp'
    (hs.sublist hsub) (fun r hr => ht r (hsub.subset hr)) (fun r hr => hwin r (hsub.subset hr))
  have hb := story_behind hL hRp hRc (x0 := x0) (P0 := P0) (x0' := x0) (P0' := P0) hsub t0 t0 [] [] h0
    (Or.inl ⟨rfl, le_refl' _⟩) (fun r hr => ⟨(ht r hr).1, (ht r hr).2.1⟩) hs
  exact ⟨g, g', _, _, a1, b1, a2, b2, a5, b5, propagate_psd a4 hRp hRc, (hb.step hL a3).2⟩

end calls

/-! ### Cases that meet the hypotheses -/

/-- Reading 1 at time 1, 5 at time 2, 2 at time 4; the second is left out; the others arrive newest first. -/
example (sort : List (FilterInput ℝ DVec DMat Unit) → List (FilterInput ℝ DVec DMat Unit)) (hsort : ∀ l, (sort l).Perm l) :
    ∃ g g' P P',
      (construct (kfPlant pushedLine.sysClass pushedLine.measClass) ⟨true, 10, false⟩ pushedLine.env (.of ![0, 0]) (.identity 2) 0).run
        (kfPlant pushedLine.sysClass pushedLine.measClass) sort
        ([⟨2, (), ![5], 1⟩, ⟨1, (), ![1], 1⟩, (⟨4, (), ![2], 1⟩ : TimedReading ℝ fun _ : Unit => 1)].map TimedReading.call
          ++ [.predictTime 5]) = some g ∧
      (construct (kfPlant pushedLine.sysClass pushedLine.measClass) ⟨true, 10, false⟩ pushedLine.env (.of ![0, 0]) (.identity 2) 0).run
        (kfPlant pushedLine.sysClass pushedLine.measClass) sort
        ([⟨4, (), ![2], 1⟩, (⟨1, (), ![1], 1⟩ : TimedReading ℝ fun _ : Unit => 1)].map TimedReading.call
          ++ [.predictTime 5]) = some g' ∧
      g.getStateTime = 5 ∧ g'.getStateTime = 5 ∧
      g.getCovariance = .of P ∧ g'.getCovariance = .of P' ∧ P.PosSemidef ∧ (P' - P : Matrix (Fin 2) (Fin 2) ℝ).PosSemidef := by
  refine C125_late pushedLine pushedLine_flows PosSemidef.one PosSemidef.zero sort hsort ⟨true, 10, false⟩ rfl ![0, 0] 1
    PosSemidef.one 0 5 (by norm_num) (by show (5 : ℝ) - 10 ≤ 0; norm_num)
    [⟨1, (), ![1], 1⟩, ⟨2, (), ![5], 1⟩, ⟨4, (), ![2], 1⟩] [⟨1, (), ![1], 1⟩, ⟨4, (), ![2], 1⟩] _ _
    (.cons_cons _ (.cons _ (.cons_cons _ .slnil))) (.swap _ _ _) (.swap _ _ _) ?_ ?_ ?_
  · simp only [List.pairwise_cons, List.mem_cons, List.not_mem_nil, or_false, List.Pairwise.nil, and_true]
    refine ⟨?_, ?_, fun _ h => h.elim⟩
    · rintro a (rfl | rfl) <;> norm_num
    · rintro a rfl; norm_num
  · intro r hr
    simp only [List.mem_cons, List.not_mem_nil, or_false] at hr
    rcases hr with rfl | rfl | rfl <;> exact ⟨by norm_num, PosDef.one, by norm_num⟩
  · intro r hr
    simp only [List.mem_cons, List.not_mem_nil, or_false] at hr
    rcases hr with rfl | rfl | rfl
    · show (1 : ℝ) - 10 ≤ 0; norm_num
    · show (2 : ℝ) - 10 ≤ 0; norm_num
    · show (4 : ℝ) - 10 ≤ 0; norm_num

/-! ### Where it does not hold -/

/-- A value that does not move, with noise 1 in every prediction however short: not a model in continuous time. -/
noncomputable def perCall : LinearUse ℝ Unit 1 0 1 (fun _ => 1) where
  A _ := 1
  B _ := 0
  W _ := 1
  V _ := 0
  Rp := 1
  Rc := 0
  C _ := 1

/-- **C125 needs models in continuous time.**  With noise per call, a measurement makes the estimate worse: a value known
exactly at time 0 is measured at time 1 with variance 9; for time 2 the filter then says 19/10.  Without the measurement it
says 1. -/
theorem C125_noise_per_call (sort : List (FilterInput ℝ DVec DMat Unit) → List (FilterInput ℝ DVec DMat Unit))
    (params : Params ℝ) (z : ℝ) :
    ∃ g g', (construct (kfPlant perCall.sysClass perCall.measClass) params perCall.env (.of ![0]) (.of !![0]) 0).run
        (kfPlant perCall.sysClass perCall.measClass) sort [.correct (.of ![z]) (.of !![9]) 1 (some ()), .predictTime 2] = some g ∧
      (construct (kfPlant perCall.sysClass perCall.measClass) params perCall.env (.of ![0]) (.of !![0]) 0).run
        (kfPlant perCall.sysClass perCall.measClass) sort [.predictTime 2] = some g' ∧
      g.getCovariance = .of !![19 / 10] ∧ g'.getCovariance = .of !![1] := by
  have hz : (!![0] : Matrix (Fin 1) (Fin 1) ℝ) = 0 := by ext i j; fin_cases i; fin_cases j; rfl
  rw [hz]
  have hR : (!![9] : Matrix (Fin 1) (Fin 1) ℝ).PosDef := by
    have : (!![9] : Matrix (Fin 1) (Fin 1) ℝ) = (9 : ℝ) • 1 := by ext i j; fin_cases i; fin_cases j; simp
    rw [this]; exact PosDef.one.smul (by norm_num)
  obtain ⟨g1, g, a1, a2, a3, a4, a5, a6, a7⟩ := told_then_asked perCall PosSemidef.one PosSemidef.zero sort params ![0] 0 PosSemidef.zero 0
    [⟨1, (), ![z], !![9]⟩] (List.pairwise_singleton _ _) 2
    (fun r hr => by rw [List.mem_singleton.mp hr]; exact ⟨by norm_num, hR, by norm_num⟩) (by norm_num)
  obtain ⟨g1', g', b1, b2, b3, b4, b5, b6, b7⟩ := told_then_asked perCall PosSemidef.one PosSemidef.zero sort params ![0] 0 PosSemidef.zero 0
    [] .nil 2 (fun r hr => by cases hr) (by norm_num)
  refine ⟨g, g', ?_, ?_, ?_, ?_⟩
  · have := congrArg (fun o => Option.bind o fun f => f.run (kfPlant perCall.sysClass perCall.measClass) sort [.predictTime 2]) a1
    rw [← Filter.run_append] at this
    refine this.trans ?_
    simp only [Option.bind_some, Filter.run, Filter.step, a4]
  · cases b1
    simp only [Filter.run, Filter.step, b4]
  · rw [a7]
    have e1 : perCall.V = fun _ => 0 := rfl
    have e2 : perCall.W = fun _ => 1 := rfl
    have e3 : perCall.Rp = 1 := rfl
    have e4 : perCall.A = fun _ => 1 := rfl
    have e5 : perCall.C = fun _ => 1 := rfl
    simp only [prop, LinearUse.story, kalmanRec, e1, e2, e3, e4, e5, Matrix.one_mul, Matrix.mul_one, Matrix.zero_mul,
      Matrix.transpose_one, add_zero, Matrix.mul_zero, zero_add]
    unfold Kalman.post Kalman.gain Kalman.innov
    simp only [Matrix.one_mul, Matrix.mul_one, Matrix.transpose_one]
    rw [DMat.of_inj]
    have : (1 + !![9] : Matrix (Fin 1) (Fin 1) ℝ)⁻¹ = !![1 / 10] := by
      apply Matrix.inv_eq_right_inv
      ext i j; fin_cases i; fin_cases j; simp [Matrix.mul_apply]; norm_num
    rw [this]
    ext i j; fin_cases i; fin_cases j; simp; norm_num
  · rw [b7]
    have e1 : perCall.V = fun _ => 0 := rfl
    have e2 : perCall.W = fun _ => 1 := rfl
    have e3 : perCall.Rp = 1 := rfl
    have e4 : perCall.A = fun _ => 1 := rfl
    simp only [prop, LinearUse.story, kalmanRec, e1, e2, e3, e4, Matrix.one_mul, Matrix.mul_one, Matrix.zero_mul,
      Matrix.transpose_one, add_zero, zero_add]
    rw [DMat.of_inj]
    ext i j; fin_cases i; fin_cases j; simp

/-- one correction of the quadratic example -/
private theorem square_step (f : Filter ℝ DVec DMat Unit (Env Unit NonlinSysData Unit NonlinMeasData Unit))
    (hs : f.env.sys.Sized NonlinSysData.Sized 1 1) (hm : (f.env.meas ()).Sized NonlinMeasData.Sized 1 1)
    (hst : (f.env.meas ()).fm.checkStationary = false) (a c z r : ℝ) (hx : f.getState = .of ![a])
    (hc : f.getCovariance = .of !![c]) (hd : 4 * a ^ 2 * c + r ≠ 0) :
    ∃ g, f.correct (ekfPlant Examples.quadClass fun _ => Examples.squareClass) (.of ![z]) (.of !![r]) f.getStateTime (some ())
        = some g ∧
      g.getState = .of ![a + 2 * a * c / (4 * a ^ 2 * c + r) * (z - a ^ 2)] ∧
      g.getCovariance = .of !![c - 4 * a ^ 2 * c ^ 2 / (4 * a ^ 2 * c + r)] ∧ g.getStateTime = f.getStateTime ∧
      g.env.sys.Sized NonlinSysData.Sized 1 1 ∧ (g.env.meas ()).Sized NonlinMeasData.Sized 1 1 ∧
      (g.env.meas ()).fm.checkStationary = false := by
  have hinn : innov !![c] !![2 * a] !![r] = !![4 * a ^ 2 * c + r] := by
    unfold Kalman.innov
    ext i j; fin_cases i; fin_cases j; simp [Matrix.vecMul, dotProduct]; ring
  have hinv : (!![4 * a ^ 2 * c + r] : Matrix (Fin 1) (Fin 1) ℝ)⁻¹ = !![1 / (4 * a ^ 2 * c + r)] := by
    apply Matrix.inv_eq_right_inv
    ext i j; fin_cases i; fin_cases j; simp [Matrix.mul_apply]; field_simp
  have hgain : gain !![c] !![2 * a] !![r] = !![2 * a * c / (4 * a ^ 2 * c + r)] := by
    unfold Kalman.gain
    rw [hinn, hinv, show (!![2 * a] : Matrix (Fin 1) (Fin 1) ℝ)ᵀ = !![2 * a] by ext i j; fin_cases i; fin_cases j; rfl]
    ext i j; fin_cases i; fin_cases j; simp; ring
  have hsh : ((f.env.meas ()).withCov (.of !![r])).stateSize = 1 ∧ ((f.env.meas ()).withCov (.of !![r])).measDims = 1 :=
    ⟨hm.states, hm.meas⟩
  have hup : Examples.squareClass.myUpdate ((f.env.meas ()).withCov (.of !![r])) (.of ![a])
      (TimeOps.sub f.getStateTime f.getStateTime)
      = some { (f.env.meas ()).withCov (.of !![r]) with der := ⟨Examples.vec1 (a ^ 2), Examples.mat1 (2 * a)⟩ } := by
    unfold Examples.squareClass MeasClass.plain
    dsimp only
    rw [if_pos hsh, Examples.head_of]
    rfl
  obtain ⟨g, dz, x', e1, e2, e3, e4, e5, e6, e7, e8, e9, e10⟩ := ekf_correct_now Examples.quad_contract
    (fun _ => Examples.square_contract) f () hs hm hx hc ![z] !![r] hup rfl
    (by rw [hinn]; simpa using hd) (by rw [hst]; rfl)
  have hdz : dz = ![z - a ^ 2] := by
    have : some (DVec.of (![z] - ![a ^ 2])) = some (.of dz) := e2
    have := DVec.of_inj.mp (Option.some.inj this)
    rw [← this]
    funext i; fin_cases i; rfl
  have hx' : x' = ![a + 2 * a * c / (4 * a ^ 2 * c + r) * (z - a ^ 2)] := by
    have : some (DVec.of (![a] + gain !![c] !![2 * a] !![r] *ᵥ dz)) = some (.of x') := e3
    have := DVec.of_inj.mp (Option.some.inj this)
    rw [← this, hgain, hdz]
    funext i; fin_cases i; simp [Matrix.mulVec, dotProduct]; ring
  have hp : post !![c] !![2 * a] !![r] = !![c - 4 * a ^ 2 * c ^ 2 / (4 * a ^ 2 * c + r)] := by
    unfold Kalman.post
    rw [hgain]
    ext i j; fin_cases i; fin_cases j; simp [Matrix.mul_apply]; ring
  refine ⟨g, e1, by rw [e4, hx'], by rw [e5, hp], e6, ?_, ?_, ?_⟩
  · rw [e7]; exact hs
  · rw [e7, Env.setMeas_meas]; exact ⟨hm.states, hm.meas, ⟨rfl, rfl, rfl⟩, rfl, rfl⟩
  · rw [e7, Env.setMeas_meas]; exact hst

/-- **C125 needs linear models.**  An EKF with belief 1 ± 1 about a value whose square is measured.  After the reading 1 with
variance 1 it reports the variance 1/5.  If a very uncertain reading -6 (variance 10) comes first, the estimate moves to 0, where
the sensor is taken to say nothing, and the filter reports 5/7 after the same reading: more than three times as much. -/
theorem C125_ekf_needs_linear (sort : List (FilterInput ℝ DVec DMat Unit) → List (FilterInput ℝ DVec DMat Unit)) (params : Params ℝ) :
    ∃ g g', (construct (ekfPlant Examples.quadClass fun _ : Unit => Examples.squareClass) params Examples.quadEnv (.of ![1])
        (.of !![1]) 0).run (ekfPlant Examples.quadClass fun _ => Examples.squareClass) sort
        [.correct (.of ![-6]) (.of !![10]) 0 (some ()), .correct (.of ![1]) (.of !![1]) 0 (some ())] = some g ∧
      (construct (ekfPlant Examples.quadClass fun _ : Unit => Examples.squareClass) params Examples.quadEnv (.of ![1])
        (.of !![1]) 0).run (ekfPlant Examples.quadClass fun _ => Examples.squareClass) sort
        [.correct (.of ![1]) (.of !![1]) 0 (some ())] = some g' ∧
      g.getCovariance = .of !![5 / 7] ∧ g'.getCovariance = .of !![1 / 5] := by
  have ok := Examples.quadEnv_ok (Q := fun _ _ => True)
  obtain ⟨f1, a1, a2, a3, a4, a5, a6, a7⟩ := square_step (construct (ekfPlant Examples.quadClass fun _ : Unit => Examples.squareClass)
    params Examples.quadEnv (.of ![1]) (.of !![1]) 0) ok.sys (ok.meas ()) rfl 1 1 (-6) 10 rfl rfl (by norm_num)
  obtain ⟨g, b1, b2, b3, _⟩ := square_step f1 a5 a6 a7 0 (5 / 7) 1 1 (by rw [a2]; norm_num) (by rw [a3]; norm_num) (by norm_num)
  obtain ⟨g', c1, c2, c3, _⟩ := square_step (construct (ekfPlant Examples.quadClass fun _ : Unit => Examples.squareClass)
    params Examples.quadEnv (.of ![1]) (.of !![1]) 0) ok.sys (ok.meas ()) rfl 1 1 1 1 rfl rfl (by norm_num)
  refine ⟨g, g', ?_, ?_, ?_, ?_⟩
  · have t0 : f1.getStateTime = 0 := a4
    rw [t0] at b1
    have a1' : _ = some f1 := a1
    simp only [Filter.run, Filter.step]
    rw [show (construct (ekfPlant Examples.quadClass fun _ : Unit => Examples.squareClass)
      params Examples.quadEnv (.of ![1]) (.of !![1]) 0).correct _ _ _ 0 _ = some f1 from a1]
    dsimp only
    rw [b1]
  · simp only [Filter.run, Filter.step]
    rw [show (construct (ekfPlant Examples.quadClass fun _ : Unit => Examples.squareClass)
      params Examples.quadEnv (.of ![1]) (.of !![1]) 0).correct _ _ _ 0 _ = some g' from c1]
  · rw [b3]; norm_num
  · rw [c3]; norm_num

end Props
end StateEstimation
