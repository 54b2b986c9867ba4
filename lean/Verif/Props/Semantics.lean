import Verif.Lemmas.Effect
import Verif.Examples.Toy

/-! # C18-C20, C24: what one accepted input does -/

set_option linter.unusedSectionVars false

namespace StateEstimation
namespace Props

open Filter

variable {T V M K E : Type}

section ordered
variable [LinearOrder T] [ExactTime T]

/-- **C18**, controls, predicate holds: the prediction equations (and `setControlCovariance`) are not consulted — any
other `myPredict` and `setRc` give the same filter — and the result is what `processStationaryInput` followed by
`makeStationary` gives, at the time of the input. -/
theorem C18_stationary_control (P : Plant T V M K E) (f : Filter T V M K E) (u : V) (t : T)
    (ht : f.getStateTime ≤ t) (hst : (P.sysCheck f.env && P.sysIsStationary f.env f.getState u) = true) :
    (∀ mp sr, f.predictControl { P with myPredict := mp, setRc := sr } u t = f.predictControl P u t) ∧
    (∀ e x c, P.sysProcess f.env f.getState u = some e → P.sysMake e f.getState f.getCovariance = some (x, c) →
      ∃ g, f.predictControl P u t = some g ∧ g.getState = x ∧ g.getCovariance = c ∧ g.getStateTime = t ∧
        g.env = e) := by
  have hst' : (!(P.sysCheck f.core.env && P.sysIsStationary f.core.env f.core.x u)) = false := by
    have : (P.sysCheck f.core.env && P.sysIsStationary f.core.env f.core.x u) = true := hst
    rw [this]; rfl
  constructor
  · intro mp sr
    rw [predictControl_inorder P f u t ht, predictControl_inorder _ f u t ht, applyInput_eq, applyInput_eq]
    congr 2
    unfold Core.apply Core.control controlInput
    simp only [hst', Bool.false_eq_true, if_false, if_true]
  · intro e x c h1 h2
    rw [predictControl_inorder P f u t ht, applyInput_eq]
    have h1' : P.sysProcess f.core.env f.core.x u = some e := h1
    have h2' : P.sysMake e f.core.x f.core.cov = some (x, c) := h2
    unfold Core.apply Core.control controlInput
    simp only [hst', Bool.false_eq_true, if_false, h1', h2', Option.map_some, if_true]
    refine ⟨_, rfl, ?_, ?_, ?_, ?_⟩
    · simp [getState, Core.tick]
    · simp [getCovariance, Core.tick]
    · simp [getStateTime, Core.tick, ExactTime.add_sub_cancel]
    · show (pruned _).core.env = e
      rw [pruned_core]; rfl

/-- **C18**, controls, predicate does not hold (or there is none): the stationary callbacks are not run — any other
ones give the same filter. -/
theorem C18_moving_control (P : Plant T V M K E) (f : Filter T V M K E) (u : V) (t : T)
    (ht : f.getStateTime ≤ t) (hst : (P.sysCheck f.env && P.sysIsStationary f.env f.getState u) = false) :
    ∀ sp sm, f.predictControl { P with sysProcess := sp, sysMake := sm } u t = f.predictControl P u t := by
  have hst' : (!(P.sysCheck f.core.env && P.sysIsStationary f.core.env f.core.x u)) = true := by
    have : (P.sysCheck f.core.env && P.sysIsStationary f.core.env f.core.x u) = false := hst
    rw [this]; rfl
  intro sp sm
  rw [predictControl_inorder P f u t ht, predictControl_inorder _ f u t ht, applyInput_eq, applyInput_eq]
  congr 2
  unfold Core.apply Core.control controlInput
  simp only [hst', if_true]

/-- on cores -/
theorem measurement_core (P : Plant T V M K E) (f : Filter T V M K E) (z : V) (R : M) (t : T) (m : K)
    (ht : f.getStateTime ≤ t) (a : Core T V M E)
    (ha : if f.getStateTime < t then
        ∃ b, Core.control P f.core (f.core.advInput t) = some b ∧ a = b.tick (TimeOps.sub t f.getStateTime)
      else a = f.core)
    (e : E) (he : P.setMeasCov a.env m R = some e) :
    ((P.measCheck e m && P.measIsStationary e m a.x z) = true →
      (∀ mc, f.correct { P with myCorrect := mc } z R t (some m) = f.correct P z R t (some m)) ∧
      ∀ e' x c, P.measProcess e m a.x z = some e' → P.measMake e' m a.x a.cov = some (x, c) →
        ∃ g, f.correct P z R t (some m) = some g ∧ g.getState = x ∧ g.getCovariance = c ∧ g.getStateTime = t ∧
          g.env = e') ∧
    ((P.measCheck e m && P.measIsStationary e m a.x z) = false →
      ∀ mp mm, f.correct { P with measProcess := mp, measMake := mm } z R t (some m)
        = f.correct P z R t (some m)) := by
  have happ : ∀ Q : Plant T V M K E, Core.control Q f.core (f.core.advInput t)
        = Core.control P f.core (f.core.advInput t) →
      f.correct Q z R t (some m) = ((Core.meas Q a (measurementInput z R t (some m))
        (TimeOps.sub t f.getStateTime)).map
          (fun c => { f.withCore c (measurementInput z R t (some m)) with history := f.pushed })).map pruned := by
    intro Q hQ
    rw [correct_inorder Q f z R t _ ht, applyInput_eq]
    congr 2
    unfold Core.apply
    have h0 : (measurementInput z R t (some m) : FilterInput T V M K).isControl = false := rfl
    have h1 : (measurementInput z R t (some m) : FilterInput T V M K).timestamp = t := rfl
    simp only [h0, h1, Bool.false_eq_true, if_false]
    split at ha
    · rename_i hlt
      obtain ⟨b, hb, rfl⟩ := ha
      rw [if_pos ((LawfulTime.lt_iff _ _).mpr ((LawfulTime.sub_pos_iff t f.core.ts).mpr hlt)), hQ, hb]
      rfl
    · rename_i hlt
      subst ha
      rw [if_neg (by rw [LawfulTime.lt_iff, LawfulTime.sub_pos_iff]; exact hlt)]
      rfl
  have hts : a.ts = t := by
    split at ha
    · obtain ⟨b, hb, rfl⟩ := ha
      simp only [Core.tick]
      rw [Core.control_ts P _ _ _ hb]
      exact ExactTime.add_sub_cancel t f.state.timestamp
    · rename_i hlt
      subst ha
      exact le_antisymm ht (not_lt.mp hlt)
  refine ⟨fun hst => ⟨?_, ?_⟩, fun hst => ?_⟩
  · intro mc
    rw [happ P rfl, happ { P with myCorrect := mc } rfl]
    congr 2
    unfold Core.meas measurementInput
    simp only [he, hst, Bool.not_true, Bool.false_eq_true, if_false]
  · intro e' x c h1 h2
    rw [happ P rfl]
    unfold Core.meas measurementInput
    simp only [he, hst, Bool.not_true, Bool.false_eq_true, if_false, h1, h2, Option.map_some]
    refine ⟨_, rfl, ?_, ?_, ?_, ?_⟩
    · simp [getState]
    · simp [getCovariance]
    · simp [getStateTime, hts]
    · show (pruned _).core.env = e'
      rw [pruned_core]; rfl
  · intro mp mm
    rw [happ P rfl, happ { P with measProcess := mp, measMake := mm } rfl]
    congr 2
    unfold Core.meas measurementInput
    simp only [he, hst, Bool.not_false, if_true]

/-- **C18**, measurements.  `a` is the estimate advanced to the time of the measurement (the effect of the control in
use up to `t`, or the estimate of `f` itself if `t` is the state time).  The predicate is evaluated on the advanced state
(with the models after `setCovariance`): if it holds the correction equations are not consulted, if not the
stationary callbacks are not run. -/
theorem C18_measurement (P : Plant T V M K E) (f : Filter T V M K E) (z : V) (R : M) (t : T) (m : K)
    (ht : f.getStateTime ≤ t) (a : Est T V M E)
    (ha : if f.getStateTime < t then
        f.estimateOf.ControlEffect P f.prevControl f.prevControlCov t a
      else a = f.estimateOf)
    (e : E) (he : P.setMeasCov a.models m R = some e) :
    ((P.measCheck e m && P.measIsStationary e m a.x z) = true →
      (∀ mc, f.correct { P with myCorrect := mc } z R t (some m) = f.correct P z R t (some m)) ∧
      ∀ e' x c, P.measProcess e m a.x z = some e' → P.measMake e' m a.x a.cov = some (x, c) →
        ∃ g, f.correct P z R t (some m) = some g ∧ g.getState = x ∧ g.getCovariance = c ∧ g.getStateTime = t ∧
          g.env = e') ∧
    ((P.measCheck e m && P.measIsStationary e m a.x z) = false →
      ∀ mp mm, f.correct { P with measProcess := mp, measMake := mm } z R t (some m)
        = f.correct P z R t (some m)) := by
  refine measurement_core P f z R t m ht a.core ?_ e he
  split
  · rename_i h
    rw [if_pos h] at ha
    have h2 := (Core.control_iff P f.estimateOf (f.core.advInput t) a).mpr ha
    obtain ⟨b, h3, h4⟩ := Option.map_eq_some_iff.mp h2
    exact ⟨b, h3, h4.symm⟩
  · rename_i h
    rw [if_neg h] at ha
    rw [ha]; rfl

/-- stationary at zero: the variance becomes 7 and the clock moves; after moving away it does not -/
example : estimate (({ toyPlain with env := 1 } : Filter ℤ (List ℤ) ℤ Unit ℤ).predictControl toyStationary [5] 3)
    = some ([0], 7, 3) ∧
    estimate (({ toyPlain with state := { toyPlain.state with x := [2] } } : Filter ℤ (List ℤ) ℤ Unit ℤ).predictControl
      toyStationary [5] 3) = some ([17], 1, 3) := by decide

/-- the measurement case: state 2, control -1 remembered, advanced to 0 at time 2 where the predicate holds, although
it does not hold for the state before -/
example : estimate (({ toyPlain with
      state := { toyPlain.state with x := [2] }
      prevControl := [-1]
      prevControlCov := 1 } : Filter ℤ (List ℤ) ℤ Unit ℤ).correct toyStationary [50] 1 2 (some ()))
    = some ([0], 70, 2) := by decide

theorem future_measurement_core (P : Plant T V M K E) (sort) (f : Filter T V M K E) (z : V) (R : M) (t : T)
    (m : Option K) (ht : f.getStateTime < t)
    (hpred : P.sysIsStationary f.env f.getState P.emptyV = P.sysIsStationary f.env f.getState f.prevControl)
    (hproc : P.sysProcess f.env f.getState P.emptyV = P.sysProcess f.env f.getState f.prevControl)
    (hdt : ∀ e x c k d d', P.myCorrect e x c z k d = P.myCorrect e x c z k d')
    (hempty : P.vsize P.emptyV = 0) :
    (f.run P sort [.correct z R t m]).map core = (f.run P sort [.predictTime t, .correct z R t m]).map core := by
  have hc : Core.control P f.core ⟨P.emptyV, P.rc f.env, t, true, none⟩
      = Core.control P f.core (f.core.advInput t) := by
    unfold Core.control Core.advInput
    simp only [hempty, gt_iff_lt, lt_self_iff_false, if_false]
    have h1 : P.sysIsStationary f.core.env f.core.x P.emptyV = P.sysIsStationary f.core.env f.core.x f.core.pc := hpred
    have h2 : P.sysProcess f.core.env f.core.x P.emptyV = P.sysProcess f.core.env f.core.x f.core.pc := hproc
    rw [h1, h2]
    by_cases hv : 0 < P.vsize f.core.pc
    · simp only [hv, if_true]
    · simp only [hv, if_false]
  have hmeas : ∀ c : Core T V M E, ∀ d d', Core.meas P c (measurementInput z R t m) d
      = Core.meas P c (measurementInput z R t m) d' := by
    intro c d d'
    unfold Core.meas measurementInput
    cases m with
    | none => rfl
    | some k =>
      dsimp only
      split
      · rfl
      · rw [hdt _ _ _ _ d d']
  simp only [run, step]
  rw [correct_inorder P f z R t m ht.le, predictTime_future P f t ht]
  have hL : ∀ o : Option (Filter T V M K E), Option.map core (match o with | none => none | some g => some g)
      = o.map core := by
    intro o; cases o <;> rfl
  refine (hL _).trans ?_
  rw [applyInput_core]
  have hpos : TimeOps.lt TimeOps.zero (TimeOps.sub t f.core.ts) = true :=
    (LawfulTime.lt_iff _ _).mpr ((LawfulTime.sub_pos_iff t f.core.ts).mpr ht)
  have happly : Core.apply P f.core (measurementInput z R t m)
      = ((Core.control P f.core (f.core.advInput t)).map (·.tick (TimeOps.sub t f.core.ts))).bind
          (fun c => Core.meas P c (measurementInput z R t m) (TimeOps.sub t f.core.ts)) := by
    unfold Core.apply measurementInput
    simp only [Bool.false_eq_true, if_false, hpos, if_true]
  have hpt : Core.apply P f.core ⟨P.emptyV, P.rc f.env, t, true, none⟩
      = (Core.control P f.core (f.core.advInput t)).map (·.tick (TimeOps.sub t f.core.ts)) := by
    unfold Core.apply
    simp only [if_true, hc]
  rw [happly]
  cases hcc : applyInput P f ⟨P.emptyV, P.rc f.env, t, true, none⟩ with
  | none =>
    have := applyInput_core P f ⟨P.emptyV, P.rc f.env, t, true, none⟩
    rw [hcc, hpt] at this
    simp only [Option.map_none] at this
    rw [← this]; rfl
  | some g =>
    have hcore := applyInput_core P f ⟨P.emptyV, P.rc f.env, t, true, none⟩
    rw [hcc, hpt] at hcore
    simp only [Option.map_some, pruned_core] at hcore
    rw [← hcore]
    simp only [Option.map_some, Option.bind_some]
    have htime : g.getStateTime = t := applyInput_time P f g _ hcc
    have htime' : g.pruned.getStateTime = t := by rw [← htime]; simp [getStateTime]
    refine Eq.trans ?_ (hL _).symm
    rw [correct_inorder P g.pruned z R t m (le_of_eq htime'), applyInput_core, pruned_core]
    unfold Core.apply
    have h0 : (measurementInput z R t m : FilterInput T V M K).isControl = false := rfl
    have h1 : (measurementInput z R t m : FilterInput T V M K).timestamp = t := rfl
    simp only [h0, h1, Bool.false_eq_true, if_false]
    rw [if_neg (by
      rw [LawfulTime.lt_iff, LawfulTime.sub_pos_iff]
      have : g.core.ts = t := htime
      rw [this]; exact lt_irrefl _)]
    exact hmeas _ _ _

/-- **C19**, partial.  For models whose system-side stationary predicate does not distinguish the control in use from
"no control given" and whose correction does not look at `dt`, correcting with a measurement from the future is
`predict(t)` followed by the correction, in both modes (same state, covariance, time, control in use, models; both fail
or neither).  Missing from the full claim: models for which one of these two conditions fails, for which the claim is
false (`C19_refuted_predicate`, `C19_refuted_dt`). -/
theorem C19_future_measurement_partial (P : Plant T V M K E) (sort) (f : Filter T V M K E) (z : V) (R : M) (t : T)
    (m : Option K) (ht : f.getStateTime < t)
    (hpred : P.sysIsStationary f.env f.getState P.emptyV = P.sysIsStationary f.env f.getState f.prevControl)
    (hproc : P.sysProcess f.env f.getState P.emptyV = P.sysProcess f.env f.getState f.prevControl)
    (hdt : ∀ e x c k d d', P.myCorrect e x c z k d = P.myCorrect e x c z k d')
    (hempty : P.vsize P.emptyV = 0) :
    (f.run P sort [.correct z R t m]).map estimateOf = (f.run P sort [.predictTime t, .correct z R t m]).map estimateOf := by
  have h := congrArg (Option.map Core.est) (future_measurement_core P sort f z R t m ht hpred hproc hdt hempty)
  simpa only [Option.map_map, Function.comp_def, estimateOf_core] using h

/-- met by the toy filter with a control in use -/
example : ∃ f, toyRewind.run toy insSort [.predictControl [5] 3] = some f ∧ f.getStateTime < 6 ∧
    f.prevControl = [5] ∧
    estimate (f.run toy insSort [.correct [1] 1 6 (some ())])
      = estimate (f.run toy insSort [.predictTime 6, .correct [1] 1 6 (some ())]) := by
  refine ⟨_, rfl, by decide, by decide, by decide⟩

/-- A plant whose system model is stationary when the control it is given is zero. -/
def toyZeroControl : Plant ℤ (List ℤ) ℤ Unit ℤ :=
  { toy with
    sysCheck := fun _ => true
    sysIsStationary := fun _ _ u => u == [0]
    sysMake := fun _ x _ => some (x, 7) }

/-- A plant whose correction uses `dt`. -/
def toyDt : Plant ℤ (List ℤ) ℤ Unit ℤ :=
  { toy with myCorrect := fun e x c z _ dt => some ([(x.headD 0 + z.headD 0) / 2], c + dt, e) }

/-- **C19 is false** when the stationary predicate looks at the control: `correct` shows it the control in use,
`predict(t)` an empty one. -/
theorem C19_refuted_predicate :
    ∃ f, toyRewind.run toyZeroControl insSort [.predictControl [0] 3] = some f ∧
      estimate (f.run toyZeroControl insSort [.correct [1] 1 6 (some ())])
        ≠ estimate (f.run toyZeroControl insSort [.predictTime 6, .correct [1] 1 6 (some ())]) := by
  refine ⟨_, rfl, by decide⟩

/-- **C19 is false** when the correction uses the time step: after `predict(t)` it is 0. -/
theorem C19_refuted_dt :
    estimate (toyRewind.run toyDt insSort [.correct [1] 1 6 (some ())])
      ≠ estimate (toyRewind.run toyDt insSort [.predictTime 6, .correct [1] 1 6 (some ())]) := by decide

/-- **C20**, what `predict(t)` does with the control in use, for models that are not stationary: it predicts with the
remembered control and covariance if there is one, else with the zero control of the model's dimension and the model's
`Rc`. -/
theorem C20_predict_time_uses_control (P : Plant T V M K E) (f : Filter T V M K E) (t : T) (ht : f.getStateTime < t)
    (hempty : P.vsize P.emptyV = 0) (hst : P.sysCheck f.env = false)
    (u : V) (R : M)
    (hu : if P.vsize f.prevControl > 0 then u = f.prevControl ∧ R = f.prevControlCov
      else u = P.zeroV (P.controlSize f.env) ∧ R = P.rc f.env)
    (e1 e2 : E) (x : V) (c : M) (h1 : P.setRc f.env R = some e1)
    (h2 : P.myPredict e1 f.getState f.getCovariance u (TimeOps.sub t f.getStateTime) = some (x, c, e2)) :
    ∃ g, f.predictTime P t = some g ∧ g.getState = x ∧ g.getCovariance = c ∧ g.getStateTime = t ∧ g.env = e2 ∧
      g.prevControl = f.prevControl ∧ g.prevControlCov = f.prevControlCov := by
  rw [predictTime_future P f t ht, applyInput_eq]
  have hst' : P.sysCheck f.core.env = false := hst
  have key : Core.control P f.core ⟨P.emptyV, P.rc f.env, t, true, none⟩
      = some ⟨x, c, f.core.ts, f.core.pc, f.core.pcc, e2⟩ := by
    unfold Core.control
    simp only [hempty, gt_iff_lt, lt_self_iff_false, if_false, hst', Bool.false_and, Bool.not_false, if_true]
    have h1' : P.setRc f.core.env R = some e1 := h1
    have h2' : P.myPredict e1 f.core.x f.core.cov u (TimeOps.sub t f.core.ts) = some (x, c, e2) := h2
    by_cases hv : 0 < P.vsize f.core.pc
    · have hv' : P.vsize f.prevControl > 0 := hv
      rw [if_pos hv'] at hu
      have e1' : f.core.pc = u := hu.1.symm
      have e2' : f.core.pcc = R := hu.2.symm
      simp only [hv, if_true]
      rw [e1', e2', h1']
      simp only [h2']
    · have hv' : ¬ P.vsize f.prevControl > 0 := hv
      rw [if_neg hv'] at hu
      have e1' : P.zeroV (P.controlSize f.core.env) = u := hu.1.symm
      have e2' : P.rc f.core.env = R := hu.2.symm
      simp only [hv, if_false, e1', e2', h1', h2']
  unfold Core.apply
  simp only [if_true, key, Option.map_some]
  refine ⟨_, rfl, ?_, ?_, ?_, ?_, ?_, ?_⟩
  · simp [getState, Core.tick]
  · simp [getCovariance, Core.tick]
  · simp [getStateTime, Core.tick, ExactTime.add_sub_cancel]
  · show (pruned _).core.env = e2
    rw [pruned_core]; rfl
  · show (pruned _).core.pc = _
    rw [pruned_core]; rfl
  · show (pruned _).core.pcc = _
    rw [pruned_core]; rfl

/-- How a user would track the control in use (rewinding off): a `predict(u, t)` that is not in the past and has a
non-empty `u` replaces it, with the `Rc` of that moment; so do processed queues, the last control winning. -/
def controlAfter (P : Plant T V M K E) (sort : List (FilterInput T V M K) → List (FilterInput T V M K))
    (f : Filter T V M K E) (lc : Option (V × M)) : Op T V M K E → Option (V × M)
  | .predictControl u t => if f.getStateTime ≤ t ∧ P.vsize u > 0 then some (u, P.rc f.env) else lc
  | .processQueues =>
    (sort f.queued).foldl (fun l i => if i.isControl = true ∧ P.vsize i.data > 0 then some (i.data, i.covariance)
      else l) lc
  | _ => lc

/-- The control most recently supplied after a sequence of calls. -/
def latestControl (P : Plant T V M K E) (sort : List (FilterInput T V M K) → List (FilterInput T V M K)) :
    Filter T V M K E → Option (V × M) → List (Op T V M K E) → Option (V × M)
  | _, lc, [] => lc
  | f, lc, op :: ops =>
    match f.step P sort op with
    | none => lc
    | some g => latestControl P sort g (controlAfter P sort f lc op) ops

/-- the filter remembers exactly `lc` -/
def Remembers (P : Plant T V M K E) (f : Filter T V M K E) (lc : Option (V × M)) : Prop :=
  match lc with
  | none => ¬ P.vsize f.prevControl > 0
  | some (u, R) => P.vsize u > 0 ∧ f.prevControl = u ∧ f.prevControlCov = R

theorem control_pc (P : Plant T V M K E) (c d : Core T V M E) (inp) (h : Core.control P c inp = some d) :
    if P.vsize inp.data > 0 then d.pc = inp.data ∧ d.pcc = inp.covariance else d.pc = c.pc ∧ d.pcc = c.pcc := by
  unfold Core.control at h
  dsimp only at h
  split at h
  · split at h
    · simp at h
    · split at h
      · simp at h
      · rw [Option.some.injEq] at h; subst h
        by_cases h1 : 0 < P.vsize inp.data
        · simp [h1]
        · by_cases h2 : 0 < P.vsize c.pc <;> simp [h1, h2]
  · split at h
    · simp at h
    · split at h
      · simp at h
      · rw [Option.some.injEq] at h; subst h
        by_cases h1 : 0 < P.vsize inp.data
        · simp [h1]
        · by_cases h2 : 0 < P.vsize c.pc <;> simp [h1, h2]

theorem apply_pc (P : Plant T V M K E) (c d : Core T V M E) (inp) (h : Core.apply P c inp = some d) :
    if inp.isControl = true ∧ P.vsize inp.data > 0 then d.pc = inp.data ∧ d.pcc = inp.covariance
    else d.pc = c.pc ∧ d.pcc = c.pcc := by
  unfold Core.apply at h
  dsimp only at h
  split at h
  · rename_i hc
    rw [Option.map_eq_some_iff] at h
    obtain ⟨e, he, rfl⟩ := h
    have := control_pc P c e inp he
    simpa [hc, Core.tick] using this
  · rename_i hc
    have hc' : ¬ (inp.isControl = true ∧ P.vsize inp.data > 0) := fun h => hc h.1
    rw [if_neg hc']
    split at h
    · rw [Option.bind_eq_some_iff] at h
      obtain ⟨e, he, h2⟩ := h
      rw [Option.map_eq_some_iff] at he
      obtain ⟨e', he', rfl⟩ := he
      have h3 := control_pc P c e' _ he'
      have h4 := Core.meas_frame P _ _ _ _ h2
      rw [h4.2.1, h4.2.2]
      have h5 : (c.advInput inp.timestamp : FilterInput T V M K).data = c.pc := rfl
      have h6 : (c.advInput inp.timestamp : FilterInput T V M K).covariance = c.pcc := rfl
      rw [h5, h6] at h3
      split at h3 <;> exact h3
    · have h4 := Core.meas_frame P _ _ _ _ h
      exact h4.2

theorem applyInput_remembers (P : Plant T V M K E) (f g : Filter T V M K E) (inp lc)
    (h : applyInput P f inp = some g) (hm : Remembers P f lc) :
    Remembers P g (if inp.isControl = true ∧ P.vsize inp.data > 0 then some (inp.data, inp.covariance) else lc) := by
  obtain ⟨c, hc, rfl⟩ := applyInput_some P f g inp h
  have h1 := apply_pc P f.core c inp hc
  split
  · rename_i hcond
    rw [if_pos hcond] at h1
    exact ⟨hcond.2, h1.1, h1.2⟩
  · rename_i hcond
    rw [if_neg hcond] at h1
    cases lc with
    | none =>
      show ¬ P.vsize c.pc > 0
      rw [h1.1]; exact hm
    | some p =>
      obtain ⟨u, R⟩ := p
      exact ⟨hm.1, h1.1.trans hm.2.1, h1.2.trans hm.2.2⟩

theorem remembers_congr (P : Plant T V M K E) (f g : Filter T V M K E) (lc)
    (h1 : g.prevControl = f.prevControl) (h2 : g.prevControlCov = f.prevControlCov) (hm : Remembers P f lc) :
    Remembers P g lc := by
  cases lc with
  | none => show ¬ _; rw [h1]; exact hm
  | some p => exact ⟨hm.1, h1.trans hm.2.1, h2.trans hm.2.2⟩

theorem pruned_remembers (P : Plant T V M K E) (f : Filter T V M K E) (lc) (hm : Remembers P f lc) :
    Remembers P f.pruned lc :=
  remembers_congr P f _ lc (congrArg Core.pc (pruned_core f)) (congrArg Core.pcc (pruned_core f)) hm

theorem applyAll_remembers (P : Plant T V M K E) (is) (f g : Filter T V M K E) (lc)
    (h : applyAll P f is = some g) (hm : Remembers P f lc) :
    Remembers P g (is.foldl (fun l i => if i.isControl = true ∧ P.vsize i.data > 0 then some (i.data, i.covariance)
            else l) lc) := by
  induction is generalizing f lc with
  | nil => simp only [applyAll, Option.some.injEq] at h; subst h; exact hm
  | cons i is ih =>
    rw [applyAll] at h
    split at h
    · simp at h
    · rename_i f' h'
      exact ih f' _ h (applyInput_remembers P f f' i lc h' hm)

/-- **C20**, the control in use after any sequence of calls with rewinding off is the most recently supplied one
(`latestControl`), starting from any filter and what it remembers.  Together with `C20_predict_time_uses_control`:
`predict(t)` propagates with it. -/
theorem C20_latest_control_remembered (P : Plant T V M K E) (sort) (hempty : P.vsize P.emptyV = 0)
    (ops : List (Op T V M K E)) (hops : ∀ op ∈ ops, ∀ p, op ≠ .setParams p) (f g : Filter T V M K E)
    (hr : f.params.rewindHistory = false) (lc : Option (V × M)) (hm : Remembers P f lc)
    (hg : f.run P sort ops = some g) : Remembers P g (latestControl P sort f lc ops) := by
  induction ops generalizing f lc with
  | nil => simp only [run, Option.some.injEq] at hg; subst hg; exact hm
  | cons op ops ih =>
    obtain ⟨f1, h1, h2⟩ := run_cons_some P sort f g op ops hg
    rw [latestControl, h1]
    have hops' : ∀ o ∈ ops, ∀ p, o ≠ .setParams p := fun o ho => hops o (by simp [ho])
    dsimp only
    have hdirect : ∀ lc', f1.params.rewindHistory = false → Remembers P f1 lc' →
        Remembers P g (latestControl P sort f1 lc' ops) := fun lc' hr' hm' => ih hops' f1 hr' lc' hm' h2
    cases op with
    | init x c t =>
      simp only [step, Option.some.injEq] at h1; subst h1
      exact hdirect _ hr (remembers_congr P f _ lc rfl rfl hm)
    | predictTime t =>
      rcases predictTime_some P f f1 t h1 with ⟨_, rfl⟩ | ⟨_, g', e, rfl⟩
      · exact hdirect _ hr hm
      · refine hdirect _ (by rw [pruned_params, (applyInput_frame P f g' _ e).1]; exact hr) (pruned_remembers P _ _ ?_)
        have := applyInput_remembers P f g' _ lc e hm
        rwa [if_neg (by simp [hempty])] at this
    | predictControl u t =>
      rcases predictControl_some P f f1 u t h1 with ⟨_, hle, rfl⟩ | ⟨_, hle, g', e, rfl⟩ | ⟨h, _⟩
      · have : ¬ f1.getStateTime ≤ t := by
          have : ¬ TimeOps.le f1.state.timestamp t = true := by rw [hle]; simp
          rw [LawfulTime.le_iff] at this; exact this
        rw [controlAfter, if_neg (fun h => this h.1)]
        exact hdirect _ hr hm
      · rw [LawfulTime.le_iff] at hle
        have hle' : f.getStateTime ≤ t := hle
        refine hdirect _ (by rw [pruned_params, (applyInput_frame P f g' _ e).1]; exact hr) (pruned_remembers P _ _ ?_)
        have := applyInput_remembers P f g' _ lc e hm
        simpa [controlAfter, hle'] using this
      · simp [hr] at h
    | correct z c t m =>
      rcases correct_some P f f1 z c t m h1 with ⟨_, _, _, rfl⟩ | ⟨_, _, g', e, rfl⟩ | ⟨h, _⟩
      · exact hdirect _ hr hm
      · refine hdirect _ (by rw [pruned_params, (applyInput_frame P f g' _ e).1]; exact hr) (pruned_remembers P _ _ ?_)
        have := applyInput_remembers P f g' _ lc e hm
        simpa [controlAfter] using this
      · simp [hr] at h
    | enqueueControl u t =>
      simp only [step, Option.some.injEq] at h1; subst h1
      exact hdirect _ hr (remembers_congr P f _ lc rfl rfl hm)
    | enqueueMeasurement z c t m =>
      simp only [step, Option.some.injEq] at h1; subst h1
      exact hdirect _ hr (remembers_congr P f _ lc rfl rfl hm)
    | processQueues =>
      simp only [step, processQueues, hr, Bool.false_eq_true, if_false, List.map_nil, List.nil_append,
        applyBatchInputs_eq] at h1
      have hpq : ∀ q, f.pruneQueue q = q := by intro q; unfold pruneQueue; rw [hr]
      rw [hpq, hpq] at h1
      cases ha : applyAll P { f with controlQueue := f.controlQueue, measQueue := f.measQueue }
          (sort (f.controlQueue ++ f.measQueue)) with
      | none => rw [ha] at h1; simp at h1
      | some g' =>
        rw [ha] at h1
        simp only [Option.map_some, Option.some.injEq] at h1
        subst h1
        refine hdirect _ ?_ ?_
        · show g'.pruned.params.rewindHistory = false
          rw [pruned_params, (applyAll_frame P _ g' _ ha).1]; exact hr
        · refine remembers_congr P g'.pruned _ _ rfl rfl (pruned_remembers P _ _ ?_)
          exact applyAll_remembers P _ _ g' lc ha hm
    | clearControlQueue =>
      simp only [step, Option.some.injEq] at h1; subst h1
      exact hdirect _ hr (remembers_congr P f _ lc rfl rfl hm)
    | clearMeasurementQueue =>
      simp only [step, Option.some.injEq] at h1; subst h1
      exact hdirect _ hr (remembers_congr P f _ lc rfl rfl hm)
    | revertToState t =>
      simp only [step, revertToState] at h1
      rcases rewindHistory_cases f (some t) with ⟨_, h⟩ | ⟨_, _, h⟩ | ⟨_, _, _, _, _, h⟩ <;>
      · rw [h] at h1
        simp only [Option.map_some, Option.some.injEq] at h1
        subst h1
        exact hdirect _ hr (remembers_congr P f _ lc rfl rfl hm)
    | setParams p => exact absurd rfl (hops (.setParams p) (by simp) p)
    | userModel u =>
      simp only [step, Option.map_eq_some_iff] at h1
      obtain ⟨e, _, rfl⟩ := h1
      exact hdirect _ hr (remembers_congr P f _ lc rfl rfl hm)

/-- **C20** for in-order calls in either mode, any filter: a non-empty control becomes the one in use with the current
`Rc`; `predict(t)` and measurements leave the one in use alone. -/
theorem C20_inorder_either_mode (P : Plant T V M K E) (hempty : P.vsize P.emptyV = 0) (f g : Filter T V M K E) (t : T)
    (ht : f.getStateTime ≤ t) (lc : Option (V × M)) (hm : Remembers P f lc) :
    (∀ u, f.predictControl P u t = some g →
      Remembers P g (if P.vsize u > 0 then some (u, P.rc f.env) else lc)) ∧
    (f.predictTime P t = some g → Remembers P g lc) ∧
    (∀ z R m, f.correct P z R t m = some g → Remembers P g lc) := by
  refine ⟨?_, ?_, ?_⟩
  · intro u hg
    rw [predictControl_inorder P f u t ht, Option.map_eq_some_iff] at hg
    obtain ⟨g', e, rfl⟩ := hg
    have := applyInput_remembers P f g' _ lc e hm
    exact pruned_remembers P _ _ (by simpa [controlInput] using this)
  · intro hg
    rcases predictTime_some P f g t hg with ⟨_, rfl⟩ | ⟨_, g', e, rfl⟩
    · exact hm
    · have := applyInput_remembers P f g' _ lc e hm
      exact pruned_remembers P _ _ (by rwa [if_neg (by simp [hempty])] at this)
  · intro z R m hg
    rw [correct_inorder P f z R t m ht, Option.map_eq_some_iff] at hg
    obtain ⟨g', e, rfl⟩ := hg
    have := applyInput_remembers P f g' _ lc e hm
    exact pruned_remembers P _ _ (by simpa [measurementInput] using this)

/-- a newly constructed filter remembers no control -/
theorem C20_construct_remembers_none (P : Plant T V M K E) (hempty : P.vsize P.emptyV = 0) (p env x c t) :
    Remembers P (Filter.construct P p env x c t) none := by
  show ¬ P.vsize P.emptyV > 0
  omega

example : toy.vsize toy.emptyV = 0 ∧
    latestControl toy insSort toyPlain none
      [.predictControl [5] 3, .predictControl [9] 1, .correct [1] 1 7 (some ()), .enqueueControl [6] 8,
       .processQueues, .predictControl [] 9] = some ([6], 1) ∧
    latestControl toy insSort toyPlain none [.predictControl [5] 3, .predictControl [9] 1] = some ([5], 1) := by
  decide

/-- **C24 is false**: a user sets `Rc` to 9 after a control was applied with `Rc = 1`; a measurement update puts the old
value back and the next control is predicted with it (variance 3 instead of 11). -/
theorem C24_refuted :
    estimate (toyPlain.run toy insSort [.predictControl [5] 3, .userModel (fun _ => some 9),
      .correct [1] 1 4 (some ()), .predictControl [5] 5]) = some ([15], 3, 5) ∧
    toyPlain.run toy insSort [.predictControl [5] 3, .userModel (fun e => toy.setRc e 9)]
      = toyPlain.run toy insSort [.predictControl [5] 3, .userModel (fun _ => some 9)] := by
  refine ⟨by decide, rfl⟩

/-- **C24** holds when the control follows directly: the control is predicted with the covariance just set.
Missing from the full claim: any measurement or `predict(t)` in between (false). -/
theorem C24_next_call_partial (P : Plant T V M K E) (hP : RcStable P) (sort) (f f1 : Filter T V M K E) (R : M)
    (hset : f.step P sort (.userModel (fun e => P.setRc e R)) = some f1) (u : V) (t : T) (hu : P.vsize u > 0)
    (ht : f1.getStateTime ≤ t) (hst : P.sysCheck f1.env = false) (e1 e2 : E) (x : V) (c : M)
    (h1 : P.setRc f1.env R = some e1)
    (h2 : P.myPredict e1 f1.getState f1.getCovariance u (TimeOps.sub t f1.getStateTime) = some (x, c, e2)) :
    ∃ g, f1.predictControl P u t = some g ∧ g.getState = x ∧ g.getCovariance = c ∧ g.env = e2 ∧
      g.prevControlCov = R := by
  simp only [step, Option.map_eq_some_iff] at hset
  obtain ⟨e, he, rfl⟩ := hset
  have hrc : P.rc e = R := hP.set _ _ _ he
  rw [predictControl_inorder P _ u t ht, applyInput_eq]
  unfold Core.apply Core.control controlInput
  have hst' : P.sysCheck e = false := hst
  have h1' : P.setRc e R = some e1 := h1
  have h2' : P.myPredict e1 f.state.x f.state.covariance u (TimeOps.sub t f.state.timestamp) = some (x, c, e2) := h2
  simp only [core, hu, if_true, hst', Bool.false_and, Bool.not_false, hrc, h1', h2', Option.map_some]
  refine ⟨_, rfl, ?_, ?_, ?_, ?_⟩
  · simp [getState, Core.tick]
  · simp [getCovariance, Core.tick]
  · show (pruned _).core.env = e2
    rw [pruned_core]; rfl
  · show (pruned _).core.pcc = _
    rw [pruned_core]; rfl

end ordered
end Props
end StateEstimation
