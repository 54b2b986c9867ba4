import Verif.Lemmas.Asking
import Verif.Model.KF
import Verif.Model.UKF
import Verif.Model.VS
import Verif.Spec.Models

/-!
# One correction, as one step from what `predict(t)` reports

For a time that is not before the state's, without stationarity tests: `correct(z, R, t, sensor)` is the class's correction step
applied to the estimate that `predict(t)` reports.
-/

set_option linter.unusedSectionVars false

namespace StateEstimation

open Filter

section api
variable {T K E : Type} [LinearOrder T] [ExactTime T]

/-- Setting covariances and predicting leave the stationarity switches of the sensors alone. -/
structure Plant.KeepsChecks (P : Plant T DVec DMat K E) : Prop where
  empty : P.vsize P.emptyV = 0
  setRc : ∀ e R e' j, P.setRc e R = some e' → P.measCheck e' j = P.measCheck e j
  predict : ∀ e x c u dt r j, P.myPredict e x c u dt = some r → P.measCheck r.2.2 j = P.measCheck e j
  setCov : ∀ e R e' j, P.setMeasCov e j R = some e' → P.measCheck e' j = P.measCheck e j

/-- `correct` as the class's step on the prediction. -/
theorem correct_as_step {P : Plant T DVec DMat K E} (hk : P.KeepsChecks) (f : Filter T DVec DMat K E) (j : K) (t : T)
    (hs : P.sysCheck f.env = false) (hm : P.measCheck f.env j = false) (ht : f.getStateTime ≤ t) :
    (∀ z R, f.predictTime P t = none → f.correct P z R t (some j) = none) ∧
    ∀ q, f.predictTime P t = some q → q.getStateTime = t ∧ P.measCheck q.env j = false ∧ ∀ z R,
      f.correct P z R t (some j) = ((P.setMeasCov q.env j R).bind fun env =>
      (P.myCorrect env q.getState q.getCovariance z j (TimeOps.sub t f.getStateTime)).map fun r =>
        ({ f.withCore { q.core with x := r.1, cov := r.2.1, env := r.2.2 } (measurementInput z R t (some j)) with
            history := f.pushed } : Filter T DVec DMat K E).pruned) := by
  have hmeas : ∀ (c : Core T DVec DMat E) (z : DVec) (R : DMat) (dt : T), P.measCheck c.env j = false →
      c.meas P (measurementInput z R t (some j)) dt = (P.setMeasCov c.env j R).bind fun env =>
        (P.myCorrect env c.x c.cov z j dt).map fun r => { c with x := r.1, cov := r.2.1, env := r.2.2 } := by
    intro c z R dt hc
    unfold Core.meas measurementInput
    dsimp only
    cases e1 : P.setMeasCov c.env j R with
    | none => rfl
    | some env =>
      have : P.measCheck env j = false := by rw [hk.setCov _ _ _ _ e1, hc]
      simp only [this, Bool.false_and, Bool.not_false, if_true, Option.bind_some]
      cases P.myCorrect env c.x c.cov z j dt <;> rfl
  -- the estimate before the correction
  have happ : (∀ z R, f.predictTime P t = none → f.core.apply P (measurementInput z R t (some j)) = none) ∧
      ∀ q, f.predictTime P t = some q → q.getStateTime = t ∧ P.measCheck q.env j = false ∧
      ∀ z R, f.core.apply P (measurementInput z R t (some j))
        = q.core.meas P (measurementInput z R t (some j)) (TimeOps.sub t f.core.ts) := by
    rcases ht.lt_or_eq with hlt | heq
    · have hpos : TimeOps.lt TimeOps.zero (TimeOps.sub t f.core.ts) = true := by
        rw [LawfulTime.lt_iff, LawfulTime.sub_pos_iff]; exact hlt
      have hadv : ∀ z R, f.core.apply P (measurementInput z R t (some j)) = (f.core.goOn P t).bind fun c =>
          c.meas P (measurementInput z R t (some j)) (TimeOps.sub t f.core.ts) := by
        intro z R
        have e := Core.control_goOn P f.core (f.core.advInput t) hs (Or.inr ⟨rfl, rfl⟩)
        have e' : (f.core.advInput t : FilterInput T DVec DMat K).timestamp = t := rfl
        rw [e'] at e
        rw [← e]
        unfold Core.apply
        have e2 : (measurementInput z R t (some j) : FilterInput T DVec DMat K).isControl = false := rfl
        have e3 : (measurementInput z R t (some j) : FilterInput T DVec DMat K).timestamp = t := rfl
        simp only [e2, e3, Bool.false_eq_true, if_false, hpos, if_true]
      have hpt := predictTime_core hk.empty f t hs hlt
      constructor
      · intro z R hn
        rw [hn] at hpt
        rw [hadv, ← hpt]
        rfl
      · intro q hq
        rw [hq] at hpt
        have hgo : f.core.goOn P t = some q.core := hpt.symm
        refine ⟨?_, ?_, fun z R => by rw [hadv, hgo, Option.bind_some]⟩
        · unfold Core.goOn at hgo
          obtain ⟨e, he, hgo⟩ := Option.bind_eq_some_iff.mp hgo
          obtain ⟨r, hr, hgo⟩ := Option.map_eq_some_iff.mp hgo
          show q.core.ts = t
          rw [← hgo]
        · show P.measCheck q.core.env j = false
          unfold Core.goOn at hgo
          obtain ⟨e, he, hgo⟩ := Option.bind_eq_some_iff.mp hgo
          obtain ⟨r, hr, hgo⟩ := Option.map_eq_some_iff.mp hgo
          rw [← hgo]
          show P.measCheck r.2.2 j = false
          rw [hk.predict _ _ _ _ _ _ _ hr, hk.setRc _ _ _ _ he]
          exact hm
    · have hpos : TimeOps.lt TimeOps.zero (TimeOps.sub t f.core.ts) = false := by
        rw [Bool.eq_false_iff]
        intro h
        rw [LawfulTime.lt_iff, LawfulTime.sub_pos_iff] at h
        exact absurd heq (ne_of_lt h)
      have hsame : f.predictTime P t = some f := by
        unfold predictTime
        rw [if_neg]
        rw [LawfulTime.lt_iff, not_lt]; exact heq.ge
      refine ⟨fun z R hn => (by rw [hsame] at hn; cases hn), fun q hq => ?_⟩
      rw [hsame, Option.some.injEq] at hq
      subst hq
      refine ⟨heq, hm, fun z R => ?_⟩
      unfold Core.apply
      have e2 : (measurementInput z R t (some j) : FilterInput T DVec DMat K).isControl = false := rfl
      have e3 : (measurementInput z R t (some j) : FilterInput T DVec DMat K).timestamp = t := rfl
      simp only [e2, e3, Bool.false_eq_true, if_false, hpos]
  refine ⟨fun z R hn => ?_, fun q hq => ?_⟩
  · rw [correct_inorder P f z R t _ ht, applyInput_eq, happ.1 z R hn]
    rfl
  · obtain ⟨h1, h2, h3⟩ := happ.2 q hq
    refine ⟨h1, h2, fun z R => ?_⟩
    rw [correct_inorder P f z R t _ ht, applyInput_eq, h3, hmeas _ _ _ _ h2]
    show (((P.setMeasCov q.env j R).bind _).map _).map _ = _
    cases P.setMeasCov q.env j R with
    | none => rfl
    | some env =>
      simp only [Option.bind_some, Option.map_map]
      rfl

/-- The same, for a step that succeeds: what `correct` reports is what the step computes. -/
theorem correct_step_some {P : Plant T DVec DMat K E} (hk : P.KeepsChecks) (f : Filter T DVec DMat K E) (j : K) (t : T)
    (hs : P.sysCheck f.env = false) (hm : P.measCheck f.env j = false) (ht : f.getStateTime ≤ t)
    {q : Filter T DVec DMat K E} (hq : f.predictTime P t = some q) {z : DVec} {R : DMat} {env env' : E} {x : DVec} {c : DMat}
    (he : P.setMeasCov q.env j R = some env)
    (hc : P.myCorrect env q.getState q.getCovariance z j (TimeOps.sub t f.getStateTime) = some (x, c, env')) :
    ∃ g, f.correct P z R t (some j) = some g ∧ g.getState = x ∧ g.getCovariance = c ∧ g.getStateTime = t ∧ g.env = env' := by
  obtain ⟨h1, _, h3⟩ := (correct_as_step hk f j t hs hm ht).2 q hq
  refine ⟨_, by rw [h3, he, Option.bind_some, hc, Option.map_some], ?_, ?_, ?_, ?_⟩
  · simp [getState]
  · simp [getCovariance]
  · simp only [getStateTime, pruned_state]
    exact h1
  · have e : ∀ h : Filter T DVec DMat K E, h.pruned.env = h.env := fun h => congrArg Core.env (pruned_core h)
    rw [e]
    rfl

/-- whatever the step does, it leaves a model put back by `back` -/
def EndsIn {Z S : Type} (back : S → Z) (o : Option (DVec × DMat × Z)) : Prop := ∀ r, o = some r → ∃ s, r.2.2 = back s

theorem ends_bind {Z S A : Type} {back : S → Z} {o : Option A} {F : A → Option (DVec × DMat × Z)}
    (h : ∀ a, EndsIn back (F a)) : EndsIn back (o >>= F) := by
  intro r hr
  obtain ⟨a, _, h1⟩ := Option.bind_eq_some_iff.mp hr
  exact h a r h1

theorem ends_some {Z S : Type} {back : S → Z} (x : DVec) (c : DMat) (s : S) : EndsIn back (some (x, c, back s)) := by
  intro r hr
  rw [Option.some.injEq] at hr
  exact ⟨s, by rw [← hr]⟩
end api

section filters
variable {T K X Y : Type} [LinearOrder T] [ExactTime T] [DecidableEq K]

theorem setCov_check {DS XS DM XM : Type} (e e' : Env K DS XS DM XM) (R : DMat) (j : K)
    (h : ((e.meas j).setCovariance R).map (e.setMeas j) = some e') :
    (e'.meas j).fm.checkStationary = (e.meas j).fm.checkStationary := by
  obtain ⟨m, h1, rfl⟩ := Option.map_eq_some_iff.mp h
  unfold Meas.setCovariance at h1
  split at h1
  · rw [Option.some.injEq] at h1
    rw [Env.setMeas, ← h1]
    simp
  · simp at h1

theorem mkPlant_keepsChecks {DS XS DM XM : Type} (sc : SysClass T DS XS) (mc : K → MeasClass T DM XM)
    (predict : Env K DS XS DM XM → DVec → DMat → DVec → T → Option (DVec × DMat × Env K DS XS DM XM))
    (correct : Env K DS XS DM XM → DVec → DMat → DVec → K → T → Option (DVec × DMat × Env K DS XS DM XM))
    (hp : ∀ e x c u dt, EndsIn (fun s => ({ e with sys := s } : Env K DS XS DM XM)) (predict e x c u dt)) :
    (mkPlant sc mc predict correct).KeepsChecks := by
  refine ⟨rfl, ?_, ?_, ?_⟩
  · intro e R e' j h
    obtain ⟨s, _, rfl⟩ := Option.map_eq_some_iff.mp h
    rfl
  · intro e x c u dt r j h
    obtain ⟨s, hs⟩ := hp e x c u dt r h
    show (r.2.2.meas j).fm.checkStationary = _
    rw [hs]
    rfl
  · intro e R e' j h
    exact setCov_check e e' R j h

theorem mkPlantWith_keepsChecks {O DS XS DM XM : Type} (sc : SysClass T DS XS) (mc : K → MeasClass T DM XM)
    (predict : O → Env K DS XS DM XM → DVec → DMat → DVec → T → Option (DVec × DMat × Env K DS XS DM XM))
    (correct : O → Env K DS XS DM XM → DVec → DMat → DVec → K → T → Option (DVec × DMat × Env K DS XS DM XM))
    (hp : ∀ o e x c u dt, EndsIn (fun s => ({ e with sys := s } : Env K DS XS DM XM)) (predict o e x c u dt)) :
    (mkPlantWith sc mc predict correct).KeepsChecks := by
  refine ⟨rfl, ?_, ?_, ?_⟩
  · intro e R e' j h
    obtain ⟨e1, h1, rfl⟩ := Option.map_eq_some_iff.mp h
    obtain ⟨s, _, rfl⟩ := Option.map_eq_some_iff.mp h1
    rfl
  · intro e x c u dt r j h
    obtain ⟨r1, h1, rfl⟩ := Option.map_eq_some_iff.mp h
    obtain ⟨s, hs⟩ := hp e.2 e.1 x c u dt r1 h1
    show (r1.2.2.meas j).fm.checkStationary = _
    rw [hs]
    rfl
  · intro e R e' j h
    obtain ⟨e1, h1, rfl⟩ := Option.map_eq_some_iff.mp h
    exact setCov_check e.1 e1 R j h1

theorem kf_keepsChecks (sc : SysClass T LinSysData X) (mc : K → MeasClass T LinMeasData Y) : (kfPlant sc mc).KeepsChecks := by
  refine mkPlant_keepsChecks sc mc _ _ (fun e x c u dt => ?_)
  unfold kfPredict
  exact ends_bind fun s => ends_bind fun _ => ends_bind fun _ => ends_bind fun x' => ends_bind fun c' => ends_some x' c' s

theorem ekf_keepsChecks (sc : SysClass T NonlinSysData X) (mc : K → MeasClass T NonlinMeasData Y) :
    (ekfPlant sc mc).KeepsChecks := by
  refine mkPlant_keepsChecks sc mc _ _ (fun e x c u dt => ?_)
  unfold ekfPredict
  exact ends_bind fun s => ends_bind fun c' => ends_some _ c' s

theorem ukf_keepsChecks (llt : DMat → Option DMat) (junk : Nat → Nat → ℝ) (sc : SysClass T NonlinSysData X)
    (mc : K → MeasClass T NonlinMeasData Y) : (ukfPlant llt junk sc mc).KeepsChecks := by
  refine mkPlantWith_keepsChecks sc mc _ _ (fun o e x c u dt => ?_)
  unfold ukfPredict
  exact ends_bind fun L => ends_bind fun s => ends_bind fun pts => ends_bind fun r => ends_bind fun x' =>
    ends_bind fun n => ends_bind fun c' => ends_some x' c' r.1

theorem kfvs_keepsChecks (sc : SysClass T LinSysData X) (mc : K → MeasClass T LinMeasData Y) :
    (kfvsPlant sc mc).KeepsChecks := by
  refine mkPlant_keepsChecks sc mc _ _ (fun e x c u dt => ?_)
  unfold kfvsPredict
  exact ends_bind fun s => ends_bind fun _ => ends_bind fun _ => ends_bind fun _ => ends_bind fun _ => ends_bind fun _ =>
    ends_bind fun _ => ends_bind fun _ => ends_bind fun _ => ends_bind fun _ => ends_bind fun _ => ends_bind fun _ =>
    ends_bind fun _ => ends_bind fun x' => ends_bind fun _ => ends_bind fun c' => ends_some x' c' s

theorem ekfvs_keepsChecks (sc : SysClass T NonlinSysData X) (mc : K → MeasClass T NonlinMeasData Y) :
    (ekfvsPlant sc mc).KeepsChecks := by
  refine mkPlant_keepsChecks sc mc _ _ (fun e x c u dt => ?_)
  unfold ekfvsPredict
  exact ends_bind fun s => ends_bind fun _ => ends_bind fun _ => ends_bind fun _ => ends_bind fun _ => ends_bind fun _ =>
    ends_bind fun _ => ends_bind fun c' => ends_some _ c' s

theorem ukfvs_keepsChecks (llt : DMat → Option DMat) (junk : Nat → Nat → ℝ) (sc : SysClass T NonlinSysData X)
    (mc : K → MeasClass T NonlinMeasData Y) : (ukfvsPlant llt junk sc mc).KeepsChecks := by
  refine mkPlantWith_keepsChecks sc mc _ _ (fun o e x c u dt => ?_)
  unfold ukfvsPredict
  exact ends_bind fun _ => ends_bind fun L => ends_bind fun s => ends_bind fun pts => ends_bind fun r => ends_bind fun x' =>
    ends_bind fun _ => ends_bind fun _ => ends_bind fun _ => ends_bind fun _ => ends_bind fun _ => ends_bind fun c' =>
    ends_some x' c' r.1

end filters

end StateEstimation
