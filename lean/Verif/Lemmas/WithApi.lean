import Verif.Model.UKF
import Verif.Lemmas.KFApi

/-! # `predict` and `correct` of a plant with members of its own -/

set_option linter.unusedSectionVars false

namespace StateEstimation

variable {T K DS XS DM XM O : Type} [DecidableEq K] [LinearOrder T] [ExactTime T]

theorem with_predict_now {sc : SysClass T DS XS} {mc : K → MeasClass T DM XM}
    {predict : O → Env K DS XS DM XM → DVec → DMat → DVec → T → Option (DVec × DMat × Env K DS XS DM XM)}
    {correct : O → Env K DS XS DM XM → DVec → DMat → DVec → K → T → Option (DVec × DMat × Env K DS XS DM XM)}
    (f : Filter T DVec DMat K (Env K DS XS DM XM × O)) (u : DVec) (hu : 0 < u.size) (t : T) (ht : f.getStateTime ≤ t)
    (hRc : f.env.1.sys.Rc.Is f.env.1.sys.controlDims f.env.1.sys.controlDims)
    (hst : (f.env.1.sys.fm.checkStationary && f.env.1.sys.fm.isStationary f.getState u) = false)
    {x : DVec} {c : DMat} {e : Env K DS XS DM XM}
    (h : predict f.env.2 f.env.1 f.getState f.getCovariance u (TimeOps.sub t f.getStateTime) = some (x, c, e)) :
    ∃ g, f.predictControl (mkPlantWith sc mc predict correct) u t = some g ∧ g.getState = x ∧ g.getCovariance = c ∧
      g.getStateTime = t ∧ g.env = (e, f.env.2) ∧ g.params = f.params := by
  obtain ⟨g, h1, h2, h3, h4, h5, h6, h7⟩ := f.predict_now (mkPlantWith sc mc predict correct) u t ht hu (x := x) (c := c)
    (e := f.env) (e' := (e, f.env.2))
    (by
      have := mkPlant_setRc (sc := sc) (mc := mc) (pr := predict f.env.2) (co := correct f.env.2) f.env.1 hRc
      show (((mkPlant sc mc (predict f.env.2) (correct f.env.2)).setRc f.env.1 _).map _) = _
      erw [this]; rfl)
    hst
    (by
      show ((predict f.env.2 f.env.1 f.getState f.getCovariance u _).map _) = _
      rw [h]; rfl)
  exact ⟨g, h1, h2, h3, h4, h5, h7⟩

theorem with_correct_now {sc : SysClass T DS XS} {mc : K → MeasClass T DM XM}
    {predict : O → Env K DS XS DM XM → DVec → DMat → DVec → T → Option (DVec × DMat × Env K DS XS DM XM)}
    {correct : O → Env K DS XS DM XM → DVec → DMat → DVec → K → T → Option (DVec × DMat × Env K DS XS DM XM)}
    (f : Filter T DVec DMat K (Env K DS XS DM XM × O)) (z : DVec) (R : DMat) (j : K)
    (hR : R.Is (f.env.1.meas j).measDims (f.env.1.meas j).measDims)
    (hst : ((f.env.1.meas j).fm.checkStationary && (f.env.1.meas j).fm.isStationary f.getState z) = false)
    {x : DVec} {c : DMat} {e : Env K DS XS DM XM}
    (h : correct f.env.2 (f.env.1.setMeas j ((f.env.1.meas j).withCov R)) f.getState f.getCovariance z j
      (TimeOps.sub f.getStateTime f.getStateTime) = some (x, c, e)) :
    ∃ g, f.correct (mkPlantWith sc mc predict correct) z R f.getStateTime (some j) = some g ∧ g.getState = x ∧
      g.getCovariance = c ∧ g.getStateTime = f.getStateTime ∧ g.env = (e, f.env.2) ∧ g.params = f.params := by
  obtain ⟨g, h1, h2, h3, h4, h5, h6, h7, h8⟩ := f.correct_now (mkPlantWith sc mc predict correct) z R j (x := x) (c := c)
    (e := (f.env.1.setMeas j ((f.env.1.meas j).withCov R), f.env.2)) (e' := (e, f.env.2))
    (by
      have := mkPlant_setMeasCov (sc := sc) (mc := mc) (pr := predict f.env.2) (co := correct f.env.2) f.env.1 j R hR
      show (((mkPlant sc mc (predict f.env.2) (correct f.env.2)).setMeasCov f.env.1 j R).map _) = _
      rw [this]; rfl)
    (by
      show (((f.env.1.setMeas j ((f.env.1.meas j).withCov R)).meas j).fm.checkStationary &&
        ((f.env.1.setMeas j ((f.env.1.meas j).withCov R)).meas j).fm.isStationary f.getState z) = false
      rw [Env.setMeas_meas]; exact hst)
    (by
      show ((correct f.env.2 _ f.getState f.getCovariance z j _).map _) = _
      rw [h]; rfl)
  exact ⟨g, h1, h2, h3, h4, h5, h8⟩

/-- If `myCorrect` fails, so does `correct`. -/
theorem with_correct_none {sc : SysClass T DS XS} {mc : K → MeasClass T DM XM}
    {predict : O → Env K DS XS DM XM → DVec → DMat → DVec → T → Option (DVec × DMat × Env K DS XS DM XM)}
    {correct : O → Env K DS XS DM XM → DVec → DMat → DVec → K → T → Option (DVec × DMat × Env K DS XS DM XM)}
    (f : Filter T DVec DMat K (Env K DS XS DM XM × O)) (z : DVec) (R : DMat) (j : K)
    (hR : R.Is (f.env.1.meas j).measDims (f.env.1.meas j).measDims)
    (hst : ((f.env.1.meas j).fm.checkStationary && (f.env.1.meas j).fm.isStationary f.getState z) = false)
    (h : correct f.env.2 (f.env.1.setMeas j ((f.env.1.meas j).withCov R)) f.getState f.getCovariance z j
      (TimeOps.sub f.getStateTime f.getStateTime) = none) :
    f.correct (mkPlantWith sc mc predict correct) z R f.getStateTime (some j) = none := by
  rw [Filter.correct_inorder _ f z R _ _ (le_refl _), Filter.applyInput_eq]
  have hlt : TimeOps.lt TimeOps.zero (TimeOps.sub f.getStateTime f.getStateTime) = false := by
    rw [Bool.eq_false_iff]
    intro h
    rw [LawfulTime.lt_iff, LawfulTime.sub_pos_iff] at h
    exact lt_irrefl _ h
  have happ : Core.apply (mkPlantWith sc mc predict correct) f.core (measurementInput z R f.getStateTime (some j)) = none := by
    unfold Core.apply measurementInput
    have hts : f.core.ts = f.getStateTime := rfl
    simp only [Bool.false_eq_true, if_false, hts, hlt]
    unfold Core.meas
    have h1 : (mkPlantWith sc mc predict correct).setMeasCov f.core.env j R =
        some (f.env.1.setMeas j ((f.env.1.meas j).withCov R), f.env.2) := by
      have := mkPlant_setMeasCov (sc := sc) (mc := mc) (pr := predict f.env.2) (co := correct f.env.2) f.env.1 j R hR
      show (((mkPlant sc mc (predict f.env.2) (correct f.env.2)).setMeasCov f.env.1 j R).map _) = _
      rw [this]; rfl
    have h2 : ((mkPlantWith sc mc predict correct).measCheck (f.env.1.setMeas j ((f.env.1.meas j).withCov R), f.env.2) j &&
        (mkPlantWith sc mc predict correct).measIsStationary (f.env.1.setMeas j ((f.env.1.meas j).withCov R), f.env.2) j f.core.x z)
          = false := by
      show (((f.env.1.setMeas j ((f.env.1.meas j).withCov R)).meas j).fm.checkStationary &&
        ((f.env.1.setMeas j ((f.env.1.meas j).withCov R)).meas j).fm.isStationary f.getState z) = false
      rw [Env.setMeas_meas]; exact hst
    have h3 : (mkPlantWith sc mc predict correct).myCorrect (f.env.1.setMeas j ((f.env.1.meas j).withCov R), f.env.2)
        f.core.x f.core.cov z j (TimeOps.sub f.getStateTime f.getStateTime) = none := by
      show ((correct f.env.2 _ f.getState f.getCovariance z j _).map _) = _
      rw [h]; rfl
    simp only [h1, h2, Bool.not_false, if_true, h3]
  rw [happ]
  rfl

end StateEstimation
