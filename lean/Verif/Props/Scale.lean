import Verif.Lemmas.Scale
import Verif.Props.DataFree
import Verif.Model.SixD
import Verif.Examples.Leaky

/-!
# C97: only the ratios of the covariances matter

Multiplying every covariance the filter is given by the same positive number multiplies its covariance by that number and
changes nothing else.
-/

set_option linter.unusedSectionVars false

namespace StateEstimation
namespace Props

open Filter Examples

variable {T K X Y DS XS DM XM Z : Type}

theorem fm_of_update {D : Type} {sc : SysClass T D X} (h : sc.BlindToNoise) {s s' : Sys D X} {x u : DVec} {dt : T}
    (hu : s.update sc x u dt = some s') : s'.fm = s.fm := by
  unfold Sys.update at hu
  split at hu
  · exact h.updateFm _ _ _ _ _ hu
  · cases hu

theorem mfm_of_update {D : Type} {mc : MeasClass T D Y} (h : mc.BlindToNoise) {m m' : Meas D Y} {x : DVec} {dt : T}
    (hu : m.update mc x dt = some m') : m'.fm = m.fm := by
  unfold Meas.update at hu
  split at hu
  · exact h.updateFm _ _ _ _ hu
  · cases hu

private theorem kfPredict_back {sc : SysClass T LinSysData X} {s : Sys LinSysData X} {x u : DVec} {c : DMat} {dt : T}
    {b : Sys LinSysData X → Z} {r} (h : kfPredict sc s x c u dt b = some r) : ∃ s', s.update sc x u dt = some s' ∧ r.2.2 = b s' := by
  unfold kfPredict at h
  obtain ⟨s', hs, h⟩ := Option.bind_eq_some_iff.mp h
  simp only [Option.bind_eq_bind, Option.bind_eq_some_iff] at h
  obtain ⟨_, _, _, _, _, _, _, _, h⟩ := h
  injection h with h
  exact ⟨s', hs, by rw [← h]⟩

private theorem ekfPredict_back {sc : SysClass T NonlinSysData X} {s : Sys NonlinSysData X} {x u : DVec} {c : DMat} {dt : T}
    {b : Sys NonlinSysData X → Z} {r} (h : ekfPredict sc s x c u dt b = some r) :
    ∃ s', s.update sc x u dt = some s' ∧ r.2.2 = b s' := by
  unfold ekfPredict at h
  obtain ⟨s', hs, h⟩ := Option.bind_eq_some_iff.mp h
  simp only [Option.bind_eq_bind, Option.bind_eq_some_iff] at h
  obtain ⟨_, _, h⟩ := h
  injection h with h
  exact ⟨s', hs, by rw [← h]⟩

private theorem kfvsPredict_back {sc : SysClass T LinSysData X} {s : Sys LinSysData X} {x u : DVec} {c : DMat} {dt : T}
    {b : Sys LinSysData X → Z} {r} (h : kfvsPredict sc s x c u dt b = some r) : ∃ s', s.update sc x u dt = some s' ∧ r.2.2 = b s' := by
  unfold kfvsPredict at h
  obtain ⟨s', hs, h⟩ := Option.bind_eq_some_iff.mp h
  obtain ⟨_, _, h⟩ := Option.bind_eq_some_iff.mp h
  obtain ⟨_, _, h⟩ := Option.bind_eq_some_iff.mp h
  obtain ⟨_, _, h⟩ := Option.bind_eq_some_iff.mp h
  obtain ⟨_, _, h⟩ := Option.bind_eq_some_iff.mp h
  obtain ⟨_, _, h⟩ := Option.bind_eq_some_iff.mp h
  obtain ⟨_, _, h⟩ := Option.bind_eq_some_iff.mp h
  obtain ⟨_, _, h⟩ := Option.bind_eq_some_iff.mp h
  obtain ⟨_, _, h⟩ := Option.bind_eq_some_iff.mp h
  obtain ⟨_, _, h⟩ := Option.bind_eq_some_iff.mp h
  obtain ⟨_, _, h⟩ := Option.bind_eq_some_iff.mp h
  obtain ⟨_, _, h⟩ := Option.bind_eq_some_iff.mp h
  obtain ⟨_, _, h⟩ := Option.bind_eq_some_iff.mp h
  obtain ⟨_, _, h⟩ := Option.bind_eq_some_iff.mp h
  obtain ⟨_, _, h⟩ := Option.bind_eq_some_iff.mp h
  obtain ⟨_, _, h⟩ := Option.bind_eq_some_iff.mp h
  injection h with h
  exact ⟨s', hs, by rw [← h]⟩

private theorem ekfvsPredict_back {sc : SysClass T NonlinSysData X} {s : Sys NonlinSysData X} {x u : DVec} {c : DMat} {dt : T}
    {b : Sys NonlinSysData X → Z} {r} (h : ekfvsPredict sc s x c u dt b = some r) :
    ∃ s', s.update sc x u dt = some s' ∧ r.2.2 = b s' := by
  unfold ekfvsPredict at h
  obtain ⟨s', hs, h⟩ := Option.bind_eq_some_iff.mp h
  simp only [Option.bind_eq_bind, Option.bind_eq_some_iff] at h
  obtain ⟨_, _, _, _, _, _, _, _, _, _, _, _, _, _, h⟩ := h
  injection h with h
  exact ⟨s', hs, by rw [← h]⟩

private theorem kfCorrect_back {sc : SysClass T LinSysData X} {mc : MeasClass T LinMeasData Y} {s : Sys LinSysData X}
    {m : Meas LinMeasData Y} {x z : DVec} {c : DMat} {dt : T} {b : Meas LinMeasData Y → Z} {r}
    (h : kfCorrect sc mc s m x c z dt b = some r) : ∃ m', m.update mc x dt = some m' ∧ r.2.2 = b m' := by
  unfold kfCorrect at h
  obtain ⟨s', hs, h⟩ := Option.bind_eq_some_iff.mp h
  simp only [Option.bind_eq_bind, Option.bind_eq_some_iff] at h
  obtain ⟨_, _, _, _, _, _, _, _, _, _, _, _, h⟩ := h
  injection h with h
  exact ⟨s', hs, by rw [← h]⟩

private theorem ekfCorrect_back {sc : SysClass T NonlinSysData X} {mc : MeasClass T NonlinMeasData Y} {s : Sys NonlinSysData X}
    {m : Meas NonlinMeasData Y} {x z : DVec} {c : DMat} {dt : T} {b : Meas NonlinMeasData Y → Z} {r}
    (h : ekfCorrect sc mc s m x c z dt b = some r) : ∃ m', m.update mc x dt = some m' ∧ r.2.2 = b m' := by
  unfold ekfCorrect at h
  obtain ⟨s', hs, h⟩ := Option.bind_eq_some_iff.mp h
  simp only [Option.bind_eq_bind, Option.bind_eq_some_iff] at h
  obtain ⟨_, _, _, _, _, _, _, _, _, _, h⟩ := h
  injection h with h
  exact ⟨s', hs, by rw [← h]⟩

private theorem kfvsCorrect_back {sc : SysClass T LinSysData X} {mc : MeasClass T LinMeasData Y} {s : Sys LinSysData X}
    {m : Meas LinMeasData Y} {x z : DVec} {c : DMat} {dt : T} {b : Meas LinMeasData Y → Z} {r}
    (h : kfvsCorrect sc mc s m x c z dt b = some r) : ∃ m', m.update mc x dt = some m' ∧ r.2.2 = b m' := by
  unfold kfvsCorrect at h
  obtain ⟨s', hs, h⟩ := Option.bind_eq_some_iff.mp h
  obtain ⟨_, _, h⟩ := Option.bind_eq_some_iff.mp h
  obtain ⟨_, _, h⟩ := Option.bind_eq_some_iff.mp h
  obtain ⟨_, _, h⟩ := Option.bind_eq_some_iff.mp h
  obtain ⟨_, _, h⟩ := Option.bind_eq_some_iff.mp h
  obtain ⟨_, _, h⟩ := Option.bind_eq_some_iff.mp h
  obtain ⟨_, _, h⟩ := Option.bind_eq_some_iff.mp h
  obtain ⟨_, _, h⟩ := Option.bind_eq_some_iff.mp h
  obtain ⟨_, _, h⟩ := Option.bind_eq_some_iff.mp h
  obtain ⟨_, _, h⟩ := Option.bind_eq_some_iff.mp h
  obtain ⟨_, _, h⟩ := Option.bind_eq_some_iff.mp h
  obtain ⟨_, _, h⟩ := Option.bind_eq_some_iff.mp h
  obtain ⟨_, _, h⟩ := Option.bind_eq_some_iff.mp h
  obtain ⟨_, _, h⟩ := Option.bind_eq_some_iff.mp h
  obtain ⟨_, _, h⟩ := Option.bind_eq_some_iff.mp h
  injection h with h
  exact ⟨s', hs, by rw [← h]⟩

private theorem ekfvsCorrect_back {sc : SysClass T NonlinSysData X} {mc : MeasClass T NonlinMeasData Y} {s : Sys NonlinSysData X}
    {m : Meas NonlinMeasData Y} {x z : DVec} {c : DMat} {dt : T} {b : Meas NonlinMeasData Y → Z} {r}
    (h : ekfvsCorrect sc mc s m x c z dt b = some r) : ∃ m', m.update mc x dt = some m' ∧ r.2.2 = b m' := by
  unfold ekfvsCorrect at h
  obtain ⟨s', hs, h⟩ := Option.bind_eq_some_iff.mp h
  obtain ⟨_, _, h⟩ := Option.bind_eq_some_iff.mp h
  obtain ⟨_, _, h⟩ := Option.bind_eq_some_iff.mp h
  obtain ⟨_, _, h⟩ := Option.bind_eq_some_iff.mp h
  obtain ⟨_, _, h⟩ := Option.bind_eq_some_iff.mp h
  obtain ⟨_, _, h⟩ := Option.bind_eq_some_iff.mp h
  obtain ⟨_, _, h⟩ := Option.bind_eq_some_iff.mp h
  obtain ⟨_, _, h⟩ := Option.bind_eq_some_iff.mp h
  obtain ⟨_, _, h⟩ := Option.bind_eq_some_iff.mp h
  obtain ⟨_, _, h⟩ := Option.bind_eq_some_iff.mp h
  obtain ⟨_, _, h⟩ := Option.bind_eq_some_iff.mp h
  obtain ⟨_, _, h⟩ := Option.bind_eq_some_iff.mp h
  injection h with h
  exact ⟨s', hs, by rw [← h]⟩

variable [DecidableEq K] [TimeOps T]

/-- The filters at once: the result of a prediction is computed from `update`, that of a correction too. -/
private theorem scaled_rel {l : ℝ} {sc : SysClass T DS XS} (hsc : sc.BlindToNoise) {mc : K → MeasClass T DM XM}
    (hmc : ∀ k, (mc k).BlindToNoise)
    {pr : Sys DS XS → DVec → DMat → DVec → T → (Sys DS XS → Env K DS XS DM XM) → Option (DVec × DMat × Env K DS XS DM XM)}
    {co : Sys DS XS → K → Meas DM XM → DVec → DMat → DVec → T → (Meas DM XM → Env K DS XS DM XM) → Option (DVec × DMat × Env K DS XS DM XM)}
    (hpr : ∀ s x c u dt b b', (∀ s : Sys DS XS, b' (s.scaled l) = (b s).scaled l) →
      pr (s.scaled l) x (c.smul l) u dt b' = (pr s x c u dt b).map (scaledR l (Env.scaled l)))
    (hpr' : ∀ s x c u dt b r, pr s x c u dt b = some r → ∃ s', s.update sc x u dt = some s' ∧ r.2.2 = b s')
    (hco : ∀ s k m x c z dt b b', (∀ m : Meas DM XM, b' (m.scaled l) = (b m).scaled l) →
      co (s.scaled l) k (m.scaled l) x (c.smul l) z dt b' = (co s k m x c z dt b).map (scaledR l (Env.scaled l)))
    (hco' : ∀ s k m x c z dt b r, co s k m x c z dt b = some r → ∃ m', m.update (mc k) x dt = some m' ∧ r.2.2 = b m') :
    PlantRel
      (mkPlant sc mc (fun e x c u dt => pr e.sys x c u dt fun s => { e with sys := s })
        (fun e x c z k dt => co e.sys k (e.meas k) x c z dt (e.setMeas k)))
      (mkPlant sc mc (fun e x c u dt => pr e.sys x c u dt fun s => { e with sys := s })
        (fun e x c z k dt => co e.sys k (e.meas k) x c z dt (e.setMeas k))) False (fun x c x' c' => x' = x ∧ c' = c.smul l)
      (fun e e' => e' = e.scaled l ∧ e.Homogeneous l) (fun u u' => u' = u) (fun R R' => R' = R.smul l)
      (fun z R z' R' _ => z' = z ∧ R' = R.smul l) := by
  refine mkPlant_scaled hsc hmc ?_ ?_ ?_ ?_
  · intro e x c u dt
    exact hpr e.sys x c u dt _ _ fun s => rfl
  · intro e x c u dt r hr
    obtain ⟨s', h1, h2⟩ := hpr' _ _ _ _ _ _ _ hr
    rw [h2]
    exact ⟨fm_of_update hsc h1, rfl⟩
  · intro e x c z k dt
    exact hco e.sys k (e.meas k) x c z dt _ _ fun m => Env.setMeas_scaled l e k m
  · intro e x c z k dt r hr
    obtain ⟨m', h1, h2⟩ := hco' _ _ _ _ _ _ _ _ _ hr
    rw [h2]
    refine ⟨rfl, fun j => ?_⟩
    unfold Env.setMeas
    dsimp only
    split
    next hj => subst hj; exact mfm_of_update (hmc _) h1
    next => rfl

private theorem scaled_run [SaneTime T] {l : ℝ} {P : Plant T DVec DMat K (Env K DS XS DM XM)} (hv : P.vsize = DVec.size)
    (h : PlantRel P P False (fun x c x' c' => x' = x ∧ c' = c.smul l)
      (fun e e' => e' = e.scaled l ∧ e.Homogeneous l) (fun u u' => u' = u) (fun R R' => R' = R.smul l)
      (fun z R z' R' _ => z' = z ∧ R' = R.smul l))
    (sort : List (FilterInput T DVec DMat K) → List (FilterInput T DVec DMat K)) (hsort : SameSort sort sort)
    (params : Params T) (e : Env K DS XS DM XM) (he : e.Homogeneous l) (x : DVec) (c : DMat) (t : T)
    (ops ops' : List (Op T DVec DMat K (Env K DS XS DM XM))) (hops : List.Forall₂ (ScaledCall l) ops ops') :
    ScaledResult l ((construct P params e x c t).run P sort ops)
      ((construct P params (e.scaled l) x (c.smul l) t).run P sort ops') := by
  have hd : ∀ u : DVec, DataRel P P (fun u u' : DVec => u' = u) u u := by
    intro u
    unfold DataRel
    rw [hv]
    rcases Nat.eq_zero_or_pos u.size with h | h
    · exact Or.inr ⟨h, h⟩
    · exact Or.inl ⟨h, h, rfl⟩
  have hop : ∀ op op', ScaledCall l op op' → OpRel P P False (fun x c x' c' => x' = x ∧ c' = c.smul l)
      (fun e e' => e' = e.scaled l ∧ e.Homogeneous l) (fun u u' => u' = u) (fun z R z' R' _ => z' = z ∧ R' = R.smul l) op op' := by
    intro op op' h
    cases op <;> cases op' <;> simp only [ScaledCall] at h <;> simp only [OpRel]
    · exact ⟨h.2.2.symm, h.1, h.2.1⟩
    · exact h.symm
    · obtain ⟨rfl, rfl⟩ := h; exact ⟨rfl, hd _⟩
    · obtain ⟨h1, h2, h3, h4, h5⟩ := h
      exact ⟨h3.symm, _, (Option.some_get h5).symm, h4.trans (Option.some_get h5).symm, h1, h2⟩
    · obtain ⟨rfl, rfl⟩ := h; exact ⟨rfl, hd _⟩
    · obtain ⟨h1, h2, h3, h4, h5⟩ := h
      exact ⟨h3.symm, _, (Option.some_get h5).symm, h4.trans (Option.some_get h5).symm, h1, h2⟩
    · exact h.symm
    · exact h.symm
    · rintro e _ ⟨rfl, he⟩
      exact OptRel.of_map (h e he).1 fun e' h' => ⟨rfl, (h e he).2 e' h'⟩
  have := h.run hsort
    { params := params
      state := { x := P.emptyV, covariance := P.emptyM, timestamp := TimeOps.zero, prevInput := FilterInput.default P }
      prevControl := P.emptyV, prevControlCov := P.emptyM, env := e, history := [], controlQueue := [], measQueue := [] }
    { params := params
      state := { x := P.emptyV, covariance := P.emptyM, timestamp := TimeOps.zero, prevInput := FilterInput.default P }
      prevControl := P.emptyV, prevControlCov := P.emptyM, env := e.scaled l, history := [], controlQueue := [], measQueue := [] }
    rfl ⟨rfl, he⟩ (Or.inr ⟨h.empty, h.empty⟩) x c x (c.smul l) t ⟨rfl, rfl⟩
    (hops.imp fun _ _ h => hop _ _ h)
  have key : ∀ a b : Option (Filter T DVec DMat K (Env K DS XS DM XM)),
      OptRel False (fun f' g' => f'.params = g'.params ∧ (g'.env = f'.env.scaled l ∧ f'.env.Homogeneous l) ∧
        CtrlRel P P (fun u u' : DVec => u' = u) (fun R R' => R' = R.smul l) f'.prevControl f'.prevControlCov g'.prevControl g'.prevControlCov ∧
        List.Forall₂ (fun s s' => s.timestamp = s'.timestamp ∧ s'.x = s.x ∧ s'.covariance = s.covariance.smul l)
          f'.retained g'.retained) a b → ScaledResult l a b := by
    intro a b hab
    cases a <;> cases b
    · trivial
    · exact hab
    · exact hab
    next f g =>
      obtain ⟨_, _, _, h4⟩ := hab
      obtain ⟨_, h6⟩ := SimRel.forall₂_concat (l := f.history) (l' := g.history) h4
      refine ⟨h6.2.1, h6.1.symm, h6.2.2, ?_⟩
      generalize f.retained = l1 at h4 ⊢
      generalize g.retained = l2 at h4 ⊢
      clear * - h4
      induction h4 with
      | nil => rfl
      | cons a _ ih => rw [List.map_cons, List.map_cons, ih, a.1, a.2.1, a.2.2]
  exact key _ _ this

section
variable [SaneTime T] {l : ℝ} (hl : 0 < l)
  (sort : List (FilterInput T DVec DMat K) → List (FilterInput T DVec DMat K)) (hsort : SameSort sort sort)
  (params : Params T) (x : DVec) (c : DMat) (t : T)
include hl hsort

/-- **C97 (Kalman filter).**  Multiply every covariance the filter is given - the initial one, the process and control noise of
the system model, and that of every measurement - by `l`: after any calls in any mode, all states, current and remembered, are
the same, and all covariances are multiplied by `l`. -/
theorem C97_kf {sc : SysClass T LinSysData X} (hsc : sc.BlindToNoise) {mc : K → MeasClass T LinMeasData Y}
    (hmc : ∀ k, (mc k).BlindToNoise) (e : Env K LinSysData X LinMeasData Y) (he : e.Homogeneous l)
    (ops ops' : List (Op T DVec DMat K (Env K LinSysData X LinMeasData Y))) (hops : List.Forall₂ (ScaledCall l) ops ops') :
    ScaledResult l ((construct (kfPlant sc mc) params e x c t).run (kfPlant sc mc) sort ops)
      ((construct (kfPlant sc mc) params (e.scaled l) x (c.smul l) t).run (kfPlant sc mc) sort ops') :=
  scaled_run rfl (scaled_rel hsc hmc (pr := kfPredict sc) (co := fun s k => kfCorrect sc (mc k) s)
    (fun s x c u dt b b' hb => kfPredict_scaled hsc l s x c u dt b b' _ hb) (fun _ _ _ _ _ _ _ h => kfPredict_back h)
    (fun s k m x c z dt b b' hb => kfCorrect_scaled hsc (hmc k) hl.ne' s m x c z dt b b' _ hb)
    (fun _ _ _ _ _ _ _ _ _ h => kfCorrect_back h)) sort hsort params e he x c t ops ops' hops

/-- **C97 (EKF).**  For every nonlinear model. -/
theorem C97_ekf {sc : SysClass T NonlinSysData X} (hsc : sc.BlindToNoise) {mc : K → MeasClass T NonlinMeasData Y}
    (hmc : ∀ k, (mc k).BlindToNoise) (e : Env K NonlinSysData X NonlinMeasData Y) (he : e.Homogeneous l)
    (ops ops' : List (Op T DVec DMat K (Env K NonlinSysData X NonlinMeasData Y))) (hops : List.Forall₂ (ScaledCall l) ops ops') :
    ScaledResult l ((construct (ekfPlant sc mc) params e x c t).run (ekfPlant sc mc) sort ops)
      ((construct (ekfPlant sc mc) params (e.scaled l) x (c.smul l) t).run (ekfPlant sc mc) sort ops') :=
  scaled_run rfl (scaled_rel hsc hmc (pr := ekfPredict sc) (co := fun s k => ekfCorrect sc (mc k) s)
    (fun s x c u dt b b' hb => ekfPredict_scaled hsc l s x c u dt b b' _ hb) (fun _ _ _ _ _ _ _ h => ekfPredict_back h)
    (fun s k m x c z dt b b' hb => ekfCorrect_scaled hsc (hmc k) hl.ne' s m x c z dt b b' _ hb)
    (fun _ _ _ _ _ _ _ _ _ h => ekfCorrect_back h)) sort hsort params e he x c t ops ops' hops

/-- **C97 (KalmanFilterVS).**  Whatever is active, also when the user changes it. -/
theorem C97_kfvs {sc : SysClass T LinSysData X} (hsc : sc.BlindToNoise) {mc : K → MeasClass T LinMeasData Y}
    (hmc : ∀ k, (mc k).BlindToNoise) (e : Env K LinSysData X LinMeasData Y) (he : e.Homogeneous l)
    (ops ops' : List (Op T DVec DMat K (Env K LinSysData X LinMeasData Y))) (hops : List.Forall₂ (ScaledCall l) ops ops') :
    ScaledResult l ((construct (kfvsPlant sc mc) params e x c t).run (kfvsPlant sc mc) sort ops)
      ((construct (kfvsPlant sc mc) params (e.scaled l) x (c.smul l) t).run (kfvsPlant sc mc) sort ops') :=
  scaled_run rfl (scaled_rel hsc hmc (pr := kfvsPredict sc) (co := fun s k => kfvsCorrect sc (mc k) s)
    (fun s x c u dt b b' hb => kfvsPredict_scaled hsc l s x c u dt b b' _ hb) (fun _ _ _ _ _ _ _ h => kfvsPredict_back h)
    (fun s k m x c z dt b b' hb => kfvsCorrect_scaled hsc (hmc k) hl.ne' s m x c z dt b b' _ hb)
    (fun _ _ _ _ _ _ _ _ _ h => kfvsCorrect_back h)) sort hsort params e he x c t ops ops' hops

/-- **C97 (EKFVS).** -/
theorem C97_ekfvs {sc : SysClass T NonlinSysData X} (hsc : sc.BlindToNoise) {mc : K → MeasClass T NonlinMeasData Y}
    (hmc : ∀ k, (mc k).BlindToNoise) (e : Env K NonlinSysData X NonlinMeasData Y) (he : e.Homogeneous l)
    (ops ops' : List (Op T DVec DMat K (Env K NonlinSysData X NonlinMeasData Y))) (hops : List.Forall₂ (ScaledCall l) ops ops') :
    ScaledResult l ((construct (ekfvsPlant sc mc) params e x c t).run (ekfvsPlant sc mc) sort ops)
      ((construct (ekfvsPlant sc mc) params (e.scaled l) x (c.smul l) t).run (ekfvsPlant sc mc) sort ops') :=
  scaled_run rfl (scaled_rel hsc hmc (pr := ekfvsPredict sc) (co := fun s k => ekfvsCorrect sc (mc k) s)
    (fun s x c u dt b b' hb => ekfvsPredict_scaled hsc l s x c u dt b b' _ hb) (fun _ _ _ _ _ _ _ h => ekfvsPredict_back h)
    (fun s k m x c z dt b b' hb => ekfvsCorrect_scaled hsc (hmc k) hl.ne' s m x c z dt b b' _ hb)
    (fun _ _ _ _ _ _ _ _ _ h => ekfvsCorrect_back h)) sort hsort params e he x c t ops ops' hops

end

/-! ## The library's own models, and the examples -/

/-- `SixDRates::myUpdate` as a chain of steps. -/
private theorem sixd_bind (s : SixDRates.Obj) (x u : DVec) (dt : ℝ) : SixDRates.myUpdate s x u dt =
    (SixDRates.predictState s x dt).bind fun xp =>
      (if s.ext.computeJacobian then SixDRates.updateJacobian s.der.G x dt else some s.der.G).bind fun G =>
        (if s.ext.updateCovariance then SixDRates.updateNoise s.P x dt else some s.P).bind fun P =>
          some { s with der := ⟨xp, G⟩, P := P } := by
  unfold SixDRates.myUpdate
  cases s.ext.computeJacobian <;> cases s.ext.updateCovariance <;> rfl

/-- `SixDRatesImu::myUpdate` as a chain of steps. -/
private theorem imu_bind (x : DVec) (dt : ℝ) : ∃ f : TfData → DVec → DVec → Option DVec,
    ∀ (m : TfMeas), SixDRatesImu.myUpdate m x dt = (f m.ext m.der.h x).bind fun z => some { m with der := { m.der with h := z } } := by
  refine ⟨fun ext h x => do
      let a ← x.seg3? SixDRates.AX
      let ba ← x.seg3? SixDRates.B_AX
      let g ← x.seg3? SixDRates.GX
      let z ← h.setSeg3? 0 (a - ba + g)
      let w ← x.seg3? SixDRates.VPHI
      let bw ← x.seg3? SixDRates.B_WX
      let z ← z.setSeg3? 3 (w - bw)
      if ext.tfSet then do
          let za ← z.seg3? 0
          let z ← z.setSeg3? 0 (ext.tf.R.mulVec za)
          let zw ← z.seg3? 3
          z.setSeg3? 3 (ext.tf.R.mulVec zw)
        else some z, fun m => ?_⟩
  unfold SixDRatesImu.myUpdate
  cases h : m.ext.tfSet <;> simp [h, Option.bind_assoc]

/-- **C97 (library models).**  The models the library ships never look at the noise covariances: `SixDRates`. -/
theorem C97_sixd : SixDRates.cls.BlindToNoise where
  update := by
    intro l s x u dt
    unfold SixDRates.cls
    dsimp only
    by_cases h : SixDRates.Shape s
    · rw [if_pos h, if_pos (show SixDRates.Shape (s.scaled l) from h), sixd_bind, sixd_bind]
      refine bind_scaled fun xp => ?_
      refine bind_scaled fun G => ?_
      refine bind_scaled fun P => ?_
      rfl
    · rw [if_neg h, if_neg (show ¬ SixDRates.Shape (s.scaled l) from h)]
      rfl
  updateFm := by
    intro s x u dt s' h
    unfold SixDRates.cls at h
    dsimp only at h
    split at h
    · rw [sixd_bind] at h
      obtain ⟨_, _, h⟩ := Option.bind_eq_some_iff.mp h
      obtain ⟨_, _, h⟩ := Option.bind_eq_some_iff.mp h
      obtain ⟨_, _, h⟩ := Option.bind_eq_some_iff.mp h
      injection h with h
      subst h; rfl
    · injection h with h; subst h; rfl
  stationary := fun _ _ _ _ => rfl
  stationaryFm := by intro s x u s' h; injection h with h; subst h; rfl
  add := fun _ _ => rfl

/-- **C97 (library models).**  The IMU. -/
theorem C97_imu : SixDRatesImu.cls.BlindToNoise where
  update := by
    intro l m x dt
    show (open Classical in if SixDRatesImu.Shape m then _ else _) = Option.map _ (open Classical in if SixDRatesImu.Shape m then _ else _)
    split
    · obtain ⟨f, hf⟩ := imu_bind x dt
      rw [hf, hf]
      exact bind_scaled fun z => rfl
    · rfl
  updateFm := by
    intro m x dt m' h
    change (open Classical in if SixDRatesImu.Shape m then _ else _) = some m' at h
    split at h
    · obtain ⟨f, hf⟩ := imu_bind x dt
      rw [hf] at h
      obtain ⟨_, _, h⟩ := Option.bind_eq_some_iff.mp h
      injection h with h
      subst h; rfl
    · injection h with h; subst h; rfl
  stationary := fun _ _ _ _ => rfl
  stationaryFm := by intro s x u s' h; injection h with h; subst h; rfl
  sub := fun _ _ => rfl

/-- **C97 (library models).**  The odometer. -/
theorem C97_odom : SixDRatesOdom.cls.BlindToNoise where
  update := by
    intro l m x dt
    show (open Classical in if SixDRatesOdom.Shape m then _ else _) = Option.map _ (open Classical in if SixDRatesOdom.Shape m then _ else _)
    split
    · unfold SixDRatesOdom.myUpdate
      refine bind_scaled fun a => ?_
      refine bind_scaled fun ba => ?_
      refine bind_scaled fun g => ?_
      refine bind_scaled fun z => ?_
      rfl
    · rfl
  updateFm := by
    intro m x dt m' h
    change (open Classical in if SixDRatesOdom.Shape m then _ else _) = some m' at h
    split at h
    · unfold SixDRatesOdom.myUpdate at h
      obtain ⟨_, _, h⟩ := Option.bind_eq_some_iff.mp h
      obtain ⟨_, _, h⟩ := Option.bind_eq_some_iff.mp h
      obtain ⟨_, _, h⟩ := Option.bind_eq_some_iff.mp h
      obtain ⟨_, _, h⟩ := Option.bind_eq_some_iff.mp h
      injection h with h
      subst h; rfl
    · injection h with h; subst h; rfl
  stationary := fun _ _ _ _ => rfl
  stationaryFm := by intro s x u s' h; injection h with h; subst h; rfl
  sub := fun _ _ => rfl

theorem cv_blind : cvClass.BlindToNoise where
  update := by
    intro l s x u dt
    show (if s.stateSize = 2 ∧ s.controlDims = 1 ∧ s.Rp.rows = 2 then _ else _) =
      Option.map _ (if s.stateSize = 2 ∧ s.controlDims = 1 ∧ s.Rp.rows = 2 then _ else _)
    split <;> rfl
  updateFm := by
    intro s x u dt s' h
    change (if s.stateSize = 2 ∧ s.controlDims = 1 ∧ s.Rp.rows = 2 then _ else some s) = some s' at h
    split at h <;> (injection h with h; subst h; rfl)
  stationary := fun _ _ _ _ => rfl
  stationaryFm := by intro s x u s' h; injection h with h; subst h; rfl
  add := fun _ _ => rfl

theorem pos_blind : posClass.BlindToNoise where
  update := by
    intro l s x dt
    show (if s.stateSize = 2 ∧ s.measDims = 1 then _ else _) = Option.map _ (if s.stateSize = 2 ∧ s.measDims = 1 then _ else _)
    split <;> rfl
  updateFm := by
    intro s x dt s' h
    change (if s.stateSize = 2 ∧ s.measDims = 1 then _ else some s) = some s' at h
    split at h <;> (injection h with h; subst h; rfl)
  stationary := fun _ _ _ _ => rfl
  stationaryFm := by intro s x u s' h; injection h with h; subst h; rfl
  sub := fun _ _ => rfl

/-- The hypotheses of `C97_kf` are met: position/velocity model, no standstill function. -/
example (l : ℝ) : Examples.cvEnv.Homogeneous l := ⟨fun _ _ => rfl, fun _ _ _ => rfl⟩

/-- ... or one that stops the motion and forgets the uncertainty. -/
example (l : ℝ) (x0 : DVec) (p : Option (DVec → DVec → Bool)) :
    (FilterModel.mk 2 [] [true, true] p (some fun _ c => some (x0, c.smul (1 / 100)))).Homogeneous l := by
  intro x c
  show some (x0, _) = some (x0, _)
  rw [DMat.smul_smul, DMat.smul_smul, mul_comm]

/-- Calls with and without covariances, and a user who sets the process noise in between. -/
example (l : ℝ) (R : DMat) : List.Forall₂ (ScaledCall (T := ℝ) (K := Unit) (DS := LinSysData) (XS := Unit) (DM := LinMeasData) (XM := Unit) l)
    [.predictControl (.of ![1]) 2, .correct (.of ![3]) (.identity 1) 1 (some ()),
      .userModel fun e => (e.sys.setProcessCovariance R).map fun s => { e with sys := s }]
    [.predictControl (.of ![1]) 2, .correct (.of ![3]) ((DMat.identity 1).smul l) 1 (some ()),
      .userModel fun e => (e.sys.setProcessCovariance (R.smul l)).map fun s => { e with sys := s }] := by
  refine .cons ⟨rfl, rfl⟩ (.cons ⟨rfl, rfl, rfl, rfl, rfl⟩ (.cons (fun e he => ?_) .nil))
  unfold Sys.setProcessCovariance
  constructor
  · show Option.map _ (if R.rows = e.sys.Rp.rows ∧ R.cols = e.sys.Rp.cols then _ else _) = Option.map _ (Option.map _ (if _ then _ else _))
    split <;> rfl
  · intro e' h
    dsimp only at h
    split at h
    · injection h with h
      rw [← h]
      exact he
    · cases h

end Props
end StateEstimation
