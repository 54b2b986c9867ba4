import Verif.Lemmas.InOrder
import Verif.Lemmas.Loops

/-! # One accepted call in terms of the plant callbacks -/

set_option linter.unusedSectionVars false

namespace StateEstimation
namespace Filter

variable {T V M K E : Type} [LinearOrder T] [ExactTime T]

/-- `correct` at the current time, moving. -/
theorem correct_now (P : Plant T V M K E) (f : Filter T V M K E) (z : V) (R : M) (k : K) {e e' : E} {x : V} {c : M}
    (hset : P.setMeasCov f.env k R = some e)
    (hst : (P.measCheck e k && P.measIsStationary e k f.getState z) = false)
    (hc : P.myCorrect e f.getState f.getCovariance z k (TimeOps.sub f.getStateTime f.getStateTime) = some (x, c, e')) :
    ∃ g, f.correct P z R f.getStateTime (some k) = some g ∧ g.getState = x ∧ g.getCovariance = c ∧
      g.getStateTime = f.getStateTime ∧ g.env = e' ∧ g.prevControl = f.prevControl ∧
      g.prevControlCov = f.prevControlCov ∧ g.params = f.params := by
  rw [correct_inorder P f z R _ _ (le_refl _), applyInput_eq]
  have hlt : TimeOps.lt TimeOps.zero (TimeOps.sub f.getStateTime f.getStateTime) = false := by
    rw [Bool.eq_false_iff]
    intro h
    rw [LawfulTime.lt_iff, LawfulTime.sub_pos_iff] at h
    exact lt_irrefl _ h
  have happ : Core.apply P f.core (measurementInput z R f.getStateTime (some k))
      = some ⟨x, c, f.getStateTime, f.prevControl, f.prevControlCov, e'⟩ := by
    unfold Core.apply measurementInput
    have hts : f.core.ts = f.getStateTime := rfl
    simp only [Bool.false_eq_true, if_false, hts, hlt]
    unfold Core.meas
    have h1 : P.setMeasCov f.core.env k R = some e := hset
    have h2 : (P.measCheck e k && P.measIsStationary e k f.core.x z) = false := hst
    have h3 : P.myCorrect e f.core.x f.core.cov z k (TimeOps.sub f.getStateTime f.getStateTime) = some (x, c, e') := hc
    simp only [h1, h2, Bool.not_false, if_true, h3]
    rfl
  rw [happ]
  refine ⟨_, rfl, ?_, ?_, ?_, ?_, ?_, ?_, ?_⟩
  · simp [getState]
  · simp [getCovariance]
  · simp [getStateTime]
  · show (pruned _).core.env = e'
    rw [pruned_core]; rfl
  · show (pruned _).core.pc = _
    rw [pruned_core]; rfl
  · show (pruned _).core.pcc = _
    rw [pruned_core]; rfl
  · rw [pruned_params]; rfl

/-- `predict(u, t)` with a non-empty control, not late, moving. -/
theorem predict_now (P : Plant T V M K E) (f : Filter T V M K E) (u : V) (t : T) (ht : f.getStateTime ≤ t)
    (hu : P.vsize u > 0) {e e' : E} {x : V} {c : M}
    (hset : P.setRc f.env (P.rc f.env) = some e)
    (hst : (P.sysCheck f.env && P.sysIsStationary f.env f.getState u) = false)
    (hc : P.myPredict e f.getState f.getCovariance u (TimeOps.sub t f.getStateTime) = some (x, c, e')) :
    ∃ g, f.predictControl P u t = some g ∧ g.getState = x ∧ g.getCovariance = c ∧
      g.getStateTime = t ∧ g.env = e' ∧ g.prevControl = u ∧ g.params = f.params := by
  rw [predictControl_inorder P f u t ht, applyInput_eq]
  have happ : Core.apply P f.core (controlInput P f u t) = some ⟨x, c, t, u, P.rc f.env, e'⟩ := by
    unfold Core.apply controlInput
    simp only [if_true]
    unfold Core.control
    have h1 : P.setRc f.core.env (P.rc f.env) = some e := hset
    have h2 : (P.sysCheck f.core.env && P.sysIsStationary f.core.env f.core.x u) = false := hst
    have h3 : P.myPredict e f.core.x f.core.cov u (TimeOps.sub t f.core.ts) = some (x, c, e') := hc
    simp only [hu, if_true, h1, h2, Bool.not_false, h3, Option.map_some, Core.tick, ExactTime.add_sub_cancel]
  rw [happ]
  refine ⟨_, rfl, ?_, ?_, ?_, ?_, ?_, ?_⟩
  · simp [getState]
  · simp [getCovariance]
  · simp [getStateTime]
  · show (pruned _).core.env = e'
    rw [pruned_core]; rfl
  · show (pruned _).core.pc = _
    rw [pruned_core]; rfl
  · rw [pruned_params]; rfl

end Filter
end StateEstimation
