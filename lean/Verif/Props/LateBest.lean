import Verif.Spec.LinearUse
import Verif.Props.LateData
import Verif.Props.LeastSquares
import Verif.Props.BestLinear

/-!
# C107: late measurements are not worth less

A Kalman filter in rewind mode, fed with measurements in any order, ends with the best explanation (C87) and the best linear
estimate (C89) of all of them.
-/

set_option linter.unusedSectionVars false

namespace StateEstimation
namespace Props

open Matrix Kalman Filter

variable {T K : Type} [LinearOrder T] [ExactTime T] [DecidableEq K] {n m p : Nat} {kd : K → Nat} (L : LinearUse T K n m p kd)

theorem _root_.StateEstimation.LinearUse.contract : SysContract LinSysData.Sized L.sysClass := by
  apply Examples.plain_contract
  intro n' m' s x u dt hs hx hu
  split
  next h =>
    obtain ⟨h1, h2, h3⟩ := h
    have hn : n' = n := by rw [← hs.states]; exact h1
    have hm : m' = m := by rw [← hs.controls]; exact h2
    subst hn hm
    exact ⟨_, rfl, ⟨hs.states, hs.controls, ⟨⟨rfl, rfl⟩, rfl, rfl⟩, ⟨rfl, h3.symm⟩, hs.Rp, ⟨rfl, rfl⟩, hs.Rc⟩,
      ⟨rfl, rfl, rfl, rfl, rfl⟩⟩
  next => exact ⟨s, rfl, hs, Sys.SameConfig.refl s⟩

theorem _root_.StateEstimation.LinearUse.mcontract (j : K) : MeasContract LinMeasData.Sized (L.measClass j) := by
  apply Examples.plain_mcontract
  intro n' k s x dt hs hx
  split
  next h =>
    have hn : n' = n := by rw [← hs.states]; exact h.1
    have hk : k = kd j := by rw [← hs.meas]; exact h.2
    subst hn hk
    exact ⟨_, rfl, ⟨hs.states, hs.meas, ⟨rfl, rfl⟩, hs.cov⟩, ⟨rfl, rfl, rfl, rfl⟩⟩
  next => exact ⟨s, rfl, hs, Meas.SameConfig.refl s⟩

/-- everything but the cached matrices -/
noncomputable def late_cfgS (n m p : Nat) (s : Sys LinSysData Unit) :=
  (sysConfig s, if s.stateSize = n ∧ s.controlDims = m ∧ s.Rp.rows = p then none else some s)
noncomputable def late_cfgM (n k : Nat) (s : Meas LinMeasData Unit) :=
  (measConfig s, if s.stateSize = n ∧ s.measDims = k then none else some s.der)

private theorem shape_iff {s s' : Sys LinSysData Unit} (h : sysConfig s = sysConfig s') :
    (s.stateSize = n ∧ s.controlDims = m ∧ s.Rp.rows = p) ↔ (s'.stateSize = n ∧ s'.controlDims = m ∧ s'.Rp.rows = p) := by
  simp only [sysConfig, Prod.mk.injEq] at h
  obtain ⟨h1, h2, _, _, h5, _⟩ := h
  unfold Sys.stateSize
  rw [h1, h2, h5]

private theorem mshape_iff {k : Nat} {s s' : Meas LinMeasData Unit} (h : measConfig s = measConfig s') :
    (s.stateSize = n ∧ s.measDims = k) ↔ (s'.stateSize = n ∧ s'.measDims = k) := by
  simp only [measConfig, Prod.mk.injEq] at h
  obtain ⟨h1, h2, _⟩ := h
  unfold Meas.stateSize
  rw [h1, h2]

theorem _root_.StateEstimation.LinearUse.stateless : L.sysClass.Stateless (late_cfgS n m p) where
  seen := by
    intro s s' h
    have h := (Prod.mk.inj h).1
    simp only [sysConfig, Prod.mk.injEq] at h
    exact ⟨h.1, h.2.1, h.2.2.2.2.2.1, h.2.2.2.2.1, h.2.2.1⟩
  update := by
    intro s s' x u dt h
    obtain ⟨hc, hr⟩ := Prod.mk.inj h
    simp only [LinearUse.sysClass, SysClass.plain]
    by_cases hs : s.stateSize = n ∧ s.controlDims = m ∧ s.Rp.rows = p
    · have hs' := (shape_iff hc).mp hs
      rw [if_pos hs, if_pos hs']
      refine ⟨rfl, rfl, rfl, ?_, ?_⟩
      · unfold late_cfgS
        rw [if_pos hs]
        exact congrArg (Prod.mk (sysConfig s)) (if_pos hs)
      · rw [h]
        unfold late_cfgS
        rw [if_pos hs']
        exact congrArg (Prod.mk (sysConfig s')) (if_pos hs')
    · have hs' := fun k => hs ((shape_iff hc).mpr k)
      rw [if_neg hs, if_neg hs'] at hr
      cases Option.some.inj hr
      rw [if_neg hs]
      exact ⟨rfl, rfl, rfl, rfl, rfl⟩
  add := fun _ _ _ => rfl
  sub := fun _ _ _ => rfl
  wsum := fun _ _ _ => rfl
  stationary := fun s s' x u h => ⟨rfl, h.symm⟩

theorem _root_.StateEstimation.LinearUse.mstateless (j : K) : (L.measClass j).Stateless (late_cfgM n (kd j)) where
  seen := by
    intro m m' h
    have h := (Prod.mk.inj h).1
    simp only [measConfig, Prod.mk.injEq] at h
    exact ⟨h.1, h.2.1, h.2.2.1⟩
  setCov := fun m R => rfl
  update := by
    intro s s' x dt h hcov
    obtain ⟨hc, hr⟩ := Prod.mk.inj h
    simp only [LinearUse.measClass, MeasClass.plain]
    by_cases hs : s.stateSize = n ∧ s.measDims = kd j
    · have hs' := (mshape_iff hc).mp hs
      rw [if_pos hs, if_pos hs']
      refine ⟨rfl, rfl, hcov.symm, ?_, ?_⟩
      · unfold late_cfgM
        rw [if_pos hs]
        exact congrArg (Prod.mk (measConfig s)) (if_pos hs)
      · rw [h]
        unfold late_cfgM
        rw [if_pos hs']
        exact congrArg (Prod.mk (measConfig s')) (if_pos hs')
    · have hs' := fun k => hs ((mshape_iff hc).mpr k)
      rw [if_neg hs, if_neg hs'] at hr
      rw [if_neg hs, if_neg hs']
      exact ⟨Option.some.inj hr, rfl, hcov.symm, rfl, h.symm⟩
  sub := fun _ _ _ => rfl
  wsum := fun _ _ _ => rfl
  stationary := fun m m' x z h => ⟨rfl, h.symm⟩

theorem _root_.StateEstimation.LinearUse.env_ok (hRp : L.Rp.PosSemidef) (hRc : L.Rc.PosSemidef) {Q : DVec → DMat → Prop} :
    L.env.Ok LinSysData.Sized LinMeasData.Sized NoisePSD Q n m kd where
  sys := ⟨rfl, rfl, ⟨⟨rfl, rfl⟩, rfl, rfl⟩, ⟨rfl, rfl⟩, ⟨rfl, rfl⟩, ⟨rfl, rfl⟩, ⟨rfl, rfl⟩⟩
  noise := ⟨⟨rfl, hRp⟩, ⟨rfl, hRc⟩⟩
  sysMake := fun x c h => ⟨x, c, rfl, h⟩
  meas := fun _ => ⟨rfl, rfl, ⟨rfl, rfl⟩, rfl, rfl⟩
  measMake := fun _ x c h => ⟨x, c, rfl, h⟩

/-- time of the last reading -/
def lastTime : T → List (TimedReading T kd) → T
  | t, [] => t
  | _, r :: rs => lastTime r.t rs

/-- in-order readings are recorded -/
theorem story_recorded {x0 : Fin n → ℝ} {P0 : Matrix (Fin n) (Fin n) ℝ} (h0 : P0.PosSemidef) (hRp : L.Rp.PosSemidef)
    (hRc : L.Rc.PosSemidef) (sort) :
    ∀ (rs : List (TimedReading T kd)) (f : Filter T DVec DMat K (Env K LinSysData Unit LinMeasData Unit)) (evs : List (Event n m)),
      Recorded L.sysClass L.measClass n m kd x0 P0 f 0 evs → (∀ ev ∈ evs, ev.Ok) → f.prevControl.size = 0 →
      f.env.sys.Rp = .of L.Rp → f.env.sys.Rc = .of L.Rc → (∀ r ∈ rs, f.getStateTime < r.t ∧ r.R.PosDef) →
      rs.Pairwise (fun a b => a.t < b.t) →
      ∃ g, f.run (kfPlant L.sysClass L.measClass) sort (rs.map TimedReading.call) = some g ∧
        Recorded L.sysClass L.measClass n m kd x0 P0 g 0 (L.story f.getStateTime rs evs) ∧
        (∀ ev ∈ L.story f.getStateTime rs evs, ev.Ok) ∧ g.prevControl.size = 0 ∧ g.env.sys.Rp = .of L.Rp ∧
        g.env.sys.Rc = .of L.Rc ∧ g.getStateTime = lastTime f.getStateTime rs := by
  intro rs
  induction rs with
  | nil => intro f evs hf hok h1 h2 h3 _ _; exact ⟨f, rfl, hf, hok, h1, h2, h3, rfl⟩
  | cons r rs ih =>
    intro f evs hf hok hpc hrp hrc hr hs
    have hI := hf.inv L.contract L.mcontract (Examples.plain_ops _) (fun j => Examples.plain_mops _) h0 hok
    have hsh : f.env.sys.stateSize = n ∧ f.env.sys.controlDims = m ∧ f.env.sys.Rp.rows = p :=
      ⟨hI.sys.states, hI.sys.controls, by rw [hrp]⟩
    obtain ⟨g, h1, h2, h3, h4, h5⟩ := hf.can_correct_later L.contract L.mcontract (Examples.plain_ops _)
      (fun j => Examples.plain_mops _) h0 hok hpc r.j r.z r.R (hr r List.mem_cons_self).2 r.t (hr r List.mem_cons_self).1
      (A := L.A (TimeOps.sub r.t f.getStateTime)) (B := L.B (TimeOps.sub r.t f.getStateTime))
      (W := L.W (TimeOps.sub r.t f.getStateTime)) (V := L.V (TimeOps.sub r.t f.getStateTime)) (Rp := L.Rp) (Rc := L.Rc)
      (C := L.C r.j) hRp hRc
      (by
        intro x s' h
        simp only [LinearUse.sysClass, SysClass.plain, if_pos hsh] at h
        cases h
        exact ⟨rfl, rfl, rfl, rfl, hrp, hrc⟩)
      (by
        intro s x dt s' hs h
        have hm : s.stateSize = n ∧ s.measDims = kd r.j := ⟨hs.states, hs.meas⟩
        simp only [LinearUse.measClass, MeasClass.plain, if_pos hm] at h
        cases h
        rfl)
    obtain ⟨hr1, hs⟩ := List.pairwise_cons.mp hs
    obtain ⟨g', k1, k2, k3, k4, k5, k6, k7⟩ := ih g _ h2 (by
        intro ev hev
        rcases List.mem_cons.mp hev with rfl | hev
        · exact (hr r List.mem_cons_self).2
        rcases List.mem_cons.mp hev with rfl | hev
        · exact ⟨hRp, hRc⟩
        · exact hok ev hev) h5 h4.Rp h4.Rc
      (fun a ha => ⟨by rw [h3]; exact hr1 a ha, (hr a (List.mem_cons_of_mem _ ha)).2⟩) hs
    rw [h3] at k2 k3 k7
    refine ⟨g', ?_, k2, k3, k4, k5, k6, k7⟩
    have e : f.step (kfPlant L.sysClass L.measClass) sort r.call = some g := h1
    rw [List.map_cons]
    unfold Filter.run
    rw [e]
    exact k1

/-- late readings: the estimate of a filter that has been told everything in order -/
theorem late_recorded (hRp : L.Rp.PosSemidef) (hRc : L.Rc.PosSemidef)
    (sort : List (FilterInput T DVec DMat K) → List (FilterInput T DVec DMat K)) (hsort : ∀ l, (sort l).Perm l)
    (params : Params T) (hr : params.rewindHistory = true) (x0 : Fin n → ℝ) (P0 : Matrix (Fin n) (Fin n) ℝ)
    (h0 : P0.PosSemidef) (t0 : T) (arrival ordered : List (TimedReading T kd)) (hp : arrival.Perm ordered)
    (hs : ordered.Pairwise fun a b => a.t < b.t)
    (ht : ∀ r ∈ ordered, t0 < r.t ∧ TimeOps.sub r.t params.historyWindow ≤ t0 ∧ r.R.PosDef) :
    ∃ g g', (construct (kfPlant L.sysClass L.measClass) params L.env (.of x0) (.of P0) t0).run (kfPlant L.sysClass L.measClass)
        sort (arrival.map TimedReading.call) = some g ∧
      Recorded L.sysClass L.measClass n m kd x0 P0 g' 0 (L.story t0 ordered []) ∧
      (∀ ev ∈ L.story t0 ordered [], ev.Ok) ∧
      g.getState = g'.getState ∧ g.getCovariance = g'.getCovariance := by
  have hok := LinearUse.env_ok L hRp hRc (Q := EstimatePSD n)
  have hwf : ∀ r ∈ ordered, (r.call : Op T DVec DMat K (Env K LinSysData Unit LinMeasData Unit)).WellFormed (EstimatePSD n)
      (Env.Ok LinSysData.Sized LinMeasData.Sized NoisePSD (EstimatePSD n) n m kd) m kd DMat.PD := by
    intro r hrr
    exact ⟨r.j, rfl, rfl, ⟨rfl, rfl⟩, ⟨rfl, (ht r hrr).2.2⟩⟩
  obtain ⟨g, hg, _⟩ := C26_C29_kf L.contract L.mcontract kd sort hsort params L.env hok (.of x0) (.of P0) t0
    ⟨⟨rfl, rfl, rfl⟩, ⟨rfl, h0⟩⟩ (arrival.map TimedReading.call) (by
      intro op hop
      obtain ⟨r, hr1, rfl⟩ := List.mem_map.mp hop
      exact hwf r (hp.subset hr1))
  obtain ⟨g1, k1, k2, k3, _⟩ := story_recorded L h0 hRp hRc sort ordered
    (construct (kfPlant L.sysClass L.measClass) params L.env (.of x0) (.of P0) t0) []
    (.start params L.env t0 hok.sys hok.meas ⟨rfl, fun _ => rfl⟩) (by intro ev h; cases h) rfl rfl rfl
    (fun r hr => ⟨(ht r hr).1, (ht r hr).2.2⟩) hs
  obtain ⟨g', j1, j2, j3, _⟩ := (C106_kf sort (late_cfgS n m p) L.stateless (fun j => late_cfgM n (kd j)) L.mstateless
    (construct (kfPlant L.sysClass L.measClass) params L.env (.of x0) (.of P0) t0) hr).mixture
    (fun h => absurd h (Nat.lt_irrefl 0)) (.of x0) (.of P0) t0 (arrival.map TimedReading.call) (ordered.map TimedReading.call)
    (hp.map _) (List.pairwise_map.mpr hs)
    (by
      intro op hop
      obtain ⟨r, _, rfl⟩ := List.mem_map.mp hop
      exact Or.inl ⟨_, _, _, _, rfl⟩)
    (by
      intro op hop
      obtain ⟨r, hr1, rfl⟩ := List.mem_map.mp hop
      exact ⟨(ht r hr1).1, (ht r hr1).2.1⟩) g hg
  have : g' = g1 := Option.some.inj (j1.symm.trans k1)
  subst this
  exact ⟨g, g', hg, k2, k3, j2, j3⟩

/-- **C107 (best explanation).**  A Kalman filter in rewind mode on linear models, constructed with the belief `x0`, `P0` at
`t0` and then fed with measurements of distinct times after `t0` and within the history window, *in any order*: no assertion
trips, and the reported state is the end of the best explanation of all of them in time order (see C87): the histories of
least misfit, and only those, end in the reported state; the reported covariance says how much worse others are. -/
theorem C107_late_best_explanation (hRp : L.Rp.PosSemidef) (hRc : L.Rc.PosSemidef)
    (sort : List (FilterInput T DVec DMat K) → List (FilterInput T DVec DMat K)) (hsort : ∀ l, (sort l).Perm l)
    (params : Params T) (hr : params.rewindHistory = true) (x0 : Fin n → ℝ) (P0 : Matrix (Fin n) (Fin n) ℝ)
    (h0 : P0.PosSemidef) (t0 : T) (arrival ordered : List (TimedReading T kd)) (hp : arrival.Perm ordered)
    (hs : ordered.Pairwise fun a b => a.t < b.t)
    (ht : ∀ r ∈ ordered, t0 < r.t ∧ TimeOps.sub r.t params.historyWindow ≤ t0 ∧ r.R.PosDef) :
    ∃ g, (construct (kfPlant L.sysClass L.measClass) params L.env (.of x0) (.of P0) t0).run (kfPlant L.sysClass L.measClass)
        sort (arrival.map TimedReading.call) = some g ∧
      ∃ (x : Fin n → ℝ) (P : Matrix (Fin n) (Fin n) ℝ) (best : ℝ), g.getState = .of x ∧ g.getCovariance = .of P ∧
        Explains x0 P0 (L.story t0 ordered []) x best ∧
        (∀ y c, Explains x0 P0 (L.story t0 ordered []) y c → best ≤ c ∧ (c = best → y = x)) ∧
        (∀ y, (∃ c, Explains x0 P0 (L.story t0 ordered []) y c) ↔ ∃ l, y = x + P *ᵥ l) ∧
        (∀ l, IsLeast {c | Explains x0 P0 (L.story t0 ordered []) (x + P *ᵥ l) c} (best + l ⬝ᵥ (P *ᵥ l))) := by
  obtain ⟨g, g', h1, h2, h3, h4, h5⟩ := late_recorded L hRp hRc sort hsort params hr x0 P0 h0 t0 arrival ordered hp hs ht
  refine ⟨g, h1, ?_⟩
  rw [h4, h5]
  exact C87_best_explanation L.contract L.mcontract (Examples.plain_ops _) (fun j => Examples.plain_mops _) h0 h2 h3

/-- **C107 (best linear estimate).**  For each outcome `ω` the measurements `ordered ω` arrive in the order `arrival ω` at a
Kalman filter in rewind mode (both may differ from outcome to outcome).  If the world behaves as the models say (`World`, for
the readings in time order), the estimate is the best linear one (see C89), as if nothing had been late. -/
theorem C107_late_best_linear {Ω : Type} [MeasurableSpace Ω] {μ : MeasureTheory.Measure Ω}
    [MeasureTheory.IsProbabilityMeasure μ] (hRp : L.Rp.PosSemidef) (hRc : L.Rc.PosSemidef)
    (sort : List (FilterInput T DVec DMat K) → List (FilterInput T DVec DMat K)) (hsort : ∀ l, (sort l).Perm l)
    (params : Params T) (hr : params.rewindHistory = true) (x0 : Fin n → ℝ) (P0 : Matrix (Fin n) (Fin n) ℝ)
    (h0 : P0.PosSemidef) (t0 : T) (arrival ordered : Ω → List (TimedReading T kd)) (hp : ∀ ω, (arrival ω).Perm (ordered ω))
    (hs : ∀ ω, (ordered ω).Pairwise fun a b => a.t < b.t)
    (ht : ∀ ω, ∀ r ∈ ordered ω, t0 < r.t ∧ TimeOps.sub r.t params.historyWindow ≤ t0 ∧ r.R.PosDef)
    {x past data} (hw : World μ (fun data u => Known data u) x0 P0 (fun ω => L.story t0 (ordered ω) []) x past data) :
    ∃ (g : Ω → Filter T DVec DMat K (Env K LinSysData Unit LinMeasData Unit)) (xh : Ω → Fin n → ℝ)
      (P : Matrix (Fin n) (Fin n) ℝ),
      (∀ ω, (construct (kfPlant L.sysClass L.measClass) params L.env (.of x0) (.of P0) t0).run
        (kfPlant L.sysClass L.measClass) sort ((arrival ω).map TimedReading.call) = some (g ω)) ∧
      (∀ ω, (g ω).getState = .of (xh ω) ∧ (g ω).getCovariance = .of P) ∧
      Known data xh ∧ (∀ l, ∫ ω, (l ⬝ᵥ (x ω - xh ω)) ^ 2 ∂μ = l ⬝ᵥ (P *ᵥ l)) ∧
      ∀ y : Ω → Fin n → ℝ, Known data y →
        (∀ l, l ⬝ᵥ (P *ᵥ l) ≤ ∫ ω, (l ⬝ᵥ (x ω - y ω)) ^ 2 ∂μ) ∧
        ((∀ l, ∫ ω, (l ⬝ᵥ (x ω - y ω)) ^ 2 ∂μ = l ⬝ᵥ (P *ᵥ l)) → y =ᵐ[μ] xh) := by
  choose g g' h1 h2 h3 h4 h5 using fun ω =>
    late_recorded L hRp hRc sort hsort params hr x0 P0 h0 t0 (arrival ω) (ordered ω) (hp ω) (hs ω) (ht ω)
  obtain ⟨xh, P, k1, k2⟩ := C89_best_linear_estimate L.contract L.mcontract (Examples.plain_ops _)
    (fun j => Examples.plain_mops _) h2 hw
  exact ⟨g, xh, P, h1, fun ω => by rw [h4, h5]; exact k1 ω, k2⟩

/-! ### A case that meets the hypotheses -/

/-- A body on a line with random accelerations, and a position sensor. -/
noncomputable def lineUse : LinearUse ℝ Unit 2 0 2 (fun _ => 1) where
  A dt := !![1, dt; 0, 1]
  B _ := 0
  W _ := 1
  V _ := 0
  Rp := 1
  Rc := 0
  C _ := !![1, 0]

/-- Position 5 at time 2 arrives before position 3 at time 1. -/
example (sort : List (FilterInput ℝ DVec DMat Unit) → List (FilterInput ℝ DVec DMat Unit)) (hsort : ∀ l, (sort l).Perm l) :
    ∃ g, (construct (kfPlant lineUse.sysClass lineUse.measClass) ⟨true, 10, false⟩ lineUse.env (.of ![0, 0])
      (.of (1 : Matrix (Fin 2) (Fin 2) ℝ)) 0).run (kfPlant lineUse.sysClass lineUse.measClass) sort
        ([⟨2, (), ![5], 1⟩, ⟨1, (), ![3], 1⟩].map (TimedReading.call (kd := fun _ => 1))) = some g := by
  obtain ⟨g, h, _⟩ := C107_late_best_explanation lineUse PosSemidef.one PosSemidef.zero sort hsort ⟨true, 10, false⟩ rfl ![0, 0] 1
    PosSemidef.one 0 [⟨2, (), ![5], 1⟩, ⟨1, (), ![3], 1⟩] [⟨1, (), ![3], 1⟩, ⟨2, (), ![5], 1⟩] (List.Perm.swap _ _ _)
    (by simp) (by
      intro r hr
      simp only [List.mem_cons, List.not_mem_nil, or_false] at hr
      rcases hr with rfl | rfl
      · exact ⟨one_pos, by show (1 : ℝ) - 10 ≤ 0; norm_num, PosDef.one⟩
      · exact ⟨two_pos, by show (2 : ℝ) - 10 ≤ 0; norm_num, PosDef.one⟩)
  exact ⟨g, h⟩

/-! A world that meets the hypotheses of `C107_late_best_linear`: a value that does not change, known to be 0, is measured
twice; the errors are +1 or -1 by the two coins.  The second measurement arrives first. -/

section world

open MeasureTheory

/-- two fair coins -/
private noncomputable def coins : Measure (Bool × Bool) := (PMF.uniformOfFintype (Bool × Bool)).toMeasure

private noncomputable instance : IsProbabilityMeasure coins := by unfold coins; infer_instance

private theorem coins_integral (g : Bool × Bool → ℝ) :
    ∫ ω, g ω ∂coins = (g (true, true) + g (true, false) + g (false, true) + g (false, false)) / 4 := by
  unfold coins
  rw [PMF.integral_eq_sum, Fintype.sum_prod_type]
  simp [PMF.uniformOfFintype_apply]
  ring

private def sgn (b : Bool) : ℝ := if b then 1 else -1

private theorem sgn_true : sgn true = 1 := rfl
private theorem sgn_false : sgn false = -1 := rfl

private theorem no_noise {a : Nat} (past : Set (Bool × Bool → ℝ)) : IsNoise coins past (0 : Matrix (Fin a) (Fin a) ℝ) (fun _ => 0) where
  finite := fun i => MemLp.of_discrete
  mean := fun i => by simp
  cov := fun i j => by simp
  white := fun s _ i => by simp

private noncomputable def stillUse : LinearUse ℝ Unit 1 0 0 (fun _ => 1) where
  A _ := 1
  B _ := 0
  W _ := 0
  V _ := 0
  Rp := 0
  Rc := 0
  C _ := 1

private theorem coin_noise (b : Bool) (past : Set (Bool × Bool → ℝ))
    (h : ∀ s ∈ past, (∀ ω, s ω = 0) ∨ (b = true ∧ ∀ ω, s ω = sgn ω.1)) :
    IsNoise coins past (1 : Matrix (Fin 1) (Fin 1) ℝ) (fun ω => ![sgn (if b then ω.2 else ω.1)]) where
  finite := fun i => MemLp.of_discrete
  mean := fun i => by
    rw [coins_integral]; fin_cases i; cases b <;> simp [sgn_true, sgn_false]
  cov := fun i j => by
    rw [coins_integral]; fin_cases i; fin_cases j; cases b <;> simp [sgn_true, sgn_false] <;> norm_num
  white := by
    intro s hs j
    rw [coins_integral]
    rcases h s hs with k | ⟨rfl, k⟩
    · simp [k]
    · fin_cases j; simp [k, sgn_true, sgn_false]

example : ∃ (x : Bool × Bool → Fin 1 → ℝ) (past data : Set (Bool × Bool → ℝ)),
    World coins (fun data u => Known data u) (0 : Fin 1 → ℝ) 0 (fun ω => stillUse.story (0 : ℝ)
      [⟨1, (), ![sgn ω.1], 1⟩, ⟨2, (), ![sgn ω.2], 1⟩] []) x past data := by
  have w0 : World (m := 0) coins (fun data u => Known data u) (0 : Fin 1 → ℝ) 0 _ (fun _ => 0) _ _ :=
    .start (fun _ => 0) (by simpa using no_noise (a := 1) ∅)
  have w1 := World.move (p := 0) 1 0 0 0 0 0 (fun _ => 0) (fun _ => 0) (fun _ => 0) w0 (fun i => i.elim0)
    (no_noise _) (no_noise _)
  have z0 : ∀ s ∈ addNoise (addNoise (addNoise ∅ fun _ : Bool × Bool => (0 : Fin 1 → ℝ) - 0) fun _ => (0 : Fin 0 → ℝ))
      fun _ => (0 : Fin 0 → ℝ), ∀ ω, s ω = 0 := by
    rintro s (((hs | ⟨i, rfl⟩) | ⟨i, rfl⟩) | ⟨i, rfl⟩) ω
    · exact absurd hs (Set.notMem_empty s)
    · simp
    · exact i.elim0
    · exact i.elim0
  have w2 := World.measure (1 : Matrix (Fin 1) (Fin 1) ℝ) (1 : Matrix (Fin 1) (Fin 1) ℝ) (fun ω => ![sgn ω.1]) w1 PosDef.one
    (coin_noise false _ fun s hs => Or.inl (z0 s hs))
  have w3 := World.move (p := 0) 1 0 0 0 0 0 (fun _ => 0) (fun _ => 0) (fun _ => 0) w2 (fun i => i.elim0)
    (no_noise _) (no_noise _)
  have w4 := World.measure (1 : Matrix (Fin 1) (Fin 1) ℝ) (1 : Matrix (Fin 1) (Fin 1) ℝ) (fun ω => ![sgn ω.2]) w3 PosDef.one
    (coin_noise true _ fun s hs => by
      rcases hs with ((hs | ⟨i, rfl⟩) | ⟨i, rfl⟩) | ⟨i, rfl⟩
      · exact Or.inl (z0 s hs)
      · exact Or.inr ⟨rfl, fun ω => by fin_cases i; rfl⟩
      · exact i.elim0
      · exact i.elim0)
  simp only [Matrix.one_mulVec, Matrix.zero_mulVec, add_zero, zero_add] at w4
  exact ⟨_, _, _, w4⟩

end world

end Props
end StateEstimation
