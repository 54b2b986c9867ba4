import Verif.Lemmas.KFApi
import Verif.Lemmas.WithApi
import Verif.Lemmas.VSInv

/-! # `predict` and `correct` of a filter without members of its own -/

set_option linter.unusedSectionVars false

namespace StateEstimation

variable {T K DS XS DM XM : Type} [DecidableEq K] [LinearOrder T] [ExactTime T]

theorem mk_predict_now {sc : SysClass T DS XS} {mc : K → MeasClass T DM XM}
    {predict : Env K DS XS DM XM → DVec → DMat → DVec → T → Option (DVec × DMat × Env K DS XS DM XM)}
    {correct : Env K DS XS DM XM → DVec → DMat → DVec → K → T → Option (DVec × DMat × Env K DS XS DM XM)}
    (f : Filter T DVec DMat K (Env K DS XS DM XM)) (u : DVec) (hu : 0 < u.size) (t : T) (ht : f.getStateTime ≤ t)
    (hRc : f.env.sys.Rc.Is f.env.sys.controlDims f.env.sys.controlDims)
    (hst : (f.env.sys.fm.checkStationary && f.env.sys.fm.isStationary f.getState u) = false)
    {x : DVec} {c : DMat} {e : Env K DS XS DM XM}
    (h : predict f.env f.getState f.getCovariance u (TimeOps.sub t f.getStateTime) = some (x, c, e)) :
    ∃ g, f.predictControl (mkPlant sc mc predict correct) u t = some g ∧ g.getState = x ∧ g.getCovariance = c ∧
      g.getStateTime = t ∧ g.env = e ∧ g.params = f.params := by
  obtain ⟨g, h1, h2, h3, h4, h5, h6, h7⟩ := f.predict_now (mkPlant sc mc predict correct) u t ht hu (x := x) (c := c)
    (e := f.env) (e' := e) (mkPlant_setRc f.env hRc) hst h
  exact ⟨g, h1, h2, h3, h4, h5, h7⟩

theorem mk_correct_now {sc : SysClass T DS XS} {mc : K → MeasClass T DM XM}
    {predict : Env K DS XS DM XM → DVec → DMat → DVec → T → Option (DVec × DMat × Env K DS XS DM XM)}
    {correct : Env K DS XS DM XM → DVec → DMat → DVec → K → T → Option (DVec × DMat × Env K DS XS DM XM)}
    (f : Filter T DVec DMat K (Env K DS XS DM XM)) (z : DVec) (R : DMat) (j : K)
    (hR : R.Is (f.env.meas j).measDims (f.env.meas j).measDims)
    (hst : ((f.env.meas j).fm.checkStationary && (f.env.meas j).fm.isStationary f.getState z) = false)
    {x : DVec} {c : DMat} {e : Env K DS XS DM XM}
    (h : correct (f.env.setMeas j ((f.env.meas j).withCov R)) f.getState f.getCovariance z j
      (TimeOps.sub f.getStateTime f.getStateTime) = some (x, c, e)) :
    ∃ g, f.correct (mkPlant sc mc predict correct) z R f.getStateTime (some j) = some g ∧ g.getState = x ∧
      g.getCovariance = c ∧ g.getStateTime = f.getStateTime ∧ g.env = e ∧ g.params = f.params := by
  obtain ⟨g, h1, h2, h3, h4, h5, h6, h7, h8⟩ := f.correct_now (mkPlant sc mc predict correct) z R j (x := x) (c := c)
    (e := f.env.setMeas j ((f.env.meas j).withCov R)) (e' := e) (mkPlant_setMeasCov f.env j R hR)
    (by
      show (((f.env.setMeas j ((f.env.meas j).withCov R)).meas j).fm.checkStationary &&
        ((f.env.setMeas j ((f.env.meas j).withCov R)).meas j).fm.isStationary f.getState z) = false
      rw [Env.setMeas_meas]; exact hst)
    h
  exact ⟨g, h1, h2, h3, h4, h5, h8⟩

end StateEstimation
