import Verif.Props.Semantics
import Verif.Model.UKF
import Verif.Examples.Linear

/-!
# C18 for the shipped filters, in terms of the functions the user gave to the models

`setIsStationaryFunction` and `setMakeStationaryFunction` (filter_model.h) store the user's functions in the model.  The
theorems hold for any prediction and correction equations, so for KalmanFilter, EKF and their VS variants (`mkPlant`), and for
UKF and UKFVS (`mkPlantWith`).
-/

namespace StateEstimation
namespace Props

open Filter

variable {T K DS XS DM XM O : Type} [DecidableEq K] [LinearOrder T] [ExactTime T]

/-- Specification: what a stationary input makes of the estimate: the user's function if there is one, else nothing. -/
def Settles (mk : Option (DVec → DMat → Option (DVec × DMat))) (x : DVec) (c : DMat) (x' : DVec) (c' : DMat) : Prop :=
  match mk with
  | none => x' = x ∧ c' = c
  | some g => g x c = some (x', c')

theorem makeStationary_settles {f : FilterModel} {x x' : DVec} {c c' : DMat} (h : Settles f.makeStationaryF x c x' c') :
    f.makeStationary x c = some (x', c') := by
  unfold FilterModel.makeStationary
  unfold Settles at h
  cases hm : f.makeStationaryF with
  | none => rw [hm] at h; obtain ⟨rfl, rfl⟩ := h; rfl
  | some g => rw [hm] at h; exact h

theorem stationary_holds {f : FilterModel} {p : DVec → DVec → Bool} (hp : f.isStationaryF = some p) (x d : DVec)
    (h : p x d = true) : (f.checkStationary && f.isStationary x d) = true := by
  unfold FilterModel.checkStationary FilterModel.isStationary
  rw [hp]
  simp [h]

theorem stationary_fails {f : FilterModel} (x d : DVec) (h : ∀ p, f.isStationaryF = some p → p x d = false) :
    (f.checkStationary && f.isStationary x d) = false := by
  unfold FilterModel.checkStationary FilterModel.isStationary
  cases hp : f.isStationaryF with
  | none => rfl
  | some p => simp [h p hp]

section plain
variable {sc : SysClass T DS XS} {mc : K → MeasClass T DM XM}
  {pr : Env K DS XS DM XM → DVec → DMat → DVec → T → Option (DVec × DMat × Env K DS XS DM XM)}
  {co : Env K DS XS DM XM → DVec → DMat → DVec → K → T → Option (DVec × DMat × Env K DS XS DM XM)}

/-- **C18** (KalmanFilter, EKF, KalmanFilterVS, EKFVS; control): the user's predicate holds of the estimate and the control,
so `predict(u, t)` gives exactly what the user's make-stationary function makes of state and covariance (unchanged if there is
none), at time `t`, whatever the prediction equations are. -/
theorem C18_user_control (f : Filter T DVec DMat K (Env K DS XS DM XM)) (u : DVec) (t : T) (ht : f.getStateTime ≤ t)
    (p : DVec → DVec → Bool) (hp : f.env.sys.fm.isStationaryF = some p) (hst : p f.getState u = true)
    (s' : Sys DS XS) (hs : sc.processStationary f.env.sys f.getState u = some s') (hfm : s'.fm = f.env.sys.fm)
    (x' : DVec) (c' : DMat) (hset : Settles f.env.sys.fm.makeStationaryF f.getState f.getCovariance x' c') :
    ∃ g, f.predictControl (mkPlant sc mc pr co) u t = some g ∧ g.getState = x' ∧ g.getCovariance = c' ∧
      g.getStateTime = t ∧ g.env = { f.env with sys := s' } := by
  refine (C18_stationary_control (mkPlant sc mc pr co) f u t ht (stationary_holds hp _ _ hst)).2 { f.env with sys := s' } x' c' ?_ ?_
  · show (sc.processStationary f.env.sys f.getState u).map _ = _
    rw [hs]; rfl
  · show s'.fm.makeStationary _ _ = _
    rw [hfm]
    exact makeStationary_settles hset

/-- **C18**, same filters, control, no predicate or it does not hold: the user's make-stationary function is not used, any
other one gives the same estimate. -/
theorem C18_user_moving_control (f : Filter T DVec DMat K (Env K DS XS DM XM)) (u : DVec) (t : T) (ht : f.getStateTime ≤ t)
    (hst : ∀ p, f.env.sys.fm.isStationaryF = some p → p f.getState u = false) :
    ∀ sp sm, f.predictControl { mkPlant sc mc pr co with sysProcess := sp, sysMake := sm } u t =
      f.predictControl (mkPlant sc mc pr co) u t :=
  C18_moving_control (mkPlant sc mc pr co) f u t ht (stationary_fails _ _ hst)

/-- **C18** (same filters; measurement at the state time): likewise with the functions of the measurement model. -/
theorem C18_user_measurement (f : Filter T DVec DMat K (Env K DS XS DM XM)) (j : K) (z : DVec) (R : DMat)
    (hR : R.rows = (f.env.meas j).measDims ∧ R.cols = (f.env.meas j).measDims)
    (p : DVec → DVec → Bool) (hp : (f.env.meas j).fm.isStationaryF = some p) (hst : p f.getState z = true)
    (m' : Meas DM XM) (hs : (mc j).processStationary { f.env.meas j with cov := R } f.getState z = some m')
    (hfm : m'.fm = (f.env.meas j).fm)
    (x' : DVec) (c' : DMat) (hset : Settles (f.env.meas j).fm.makeStationaryF f.getState f.getCovariance x' c') :
    ∃ g, f.correct (mkPlant sc mc pr co) z R f.getStateTime (some j) = some g ∧ g.getState = x' ∧ g.getCovariance = c' ∧
      g.getStateTime = f.getStateTime ∧ g.env.sys = f.env.sys ∧ g.env.meas j = m' ∧ ∀ i, i ≠ j → g.env.meas i = f.env.meas i := by
  have he : (mkPlant sc mc pr co).setMeasCov f.env j R = some (f.env.setMeas j { f.env.meas j with cov := R }) := by
    show ((f.env.meas j).setCovariance R).map _ = _
    unfold Meas.setCovariance
    rw [if_pos hR]; rfl
  have hj : (f.env.setMeas j { f.env.meas j with cov := R }).meas j = { f.env.meas j with cov := R } := by
    simp [Env.setMeas]
  have h1 : ((mkPlant sc mc pr co).measCheck (f.env.setMeas j { f.env.meas j with cov := R }) j &&
      (mkPlant sc mc pr co).measIsStationary (f.env.setMeas j { f.env.meas j with cov := R }) j f.estimateOf.x z) = true := by
    show (((f.env.setMeas j { f.env.meas j with cov := R }).meas j).fm.checkStationary &&
      ((f.env.setMeas j { f.env.meas j with cov := R }).meas j).fm.isStationary f.getState z) = true
    rw [hj]
    exact stationary_holds (f := (f.env.meas j).fm) hp _ _ hst
  obtain ⟨g, h2, h3, h4, h5, h6⟩ := ((C18_measurement (mkPlant sc mc pr co) f z R f.getStateTime j le_rfl f.estimateOf
    (by rw [if_neg (lt_irrefl _)]) _ he).1 h1).2 ((f.env.setMeas j { f.env.meas j with cov := R }).setMeas j m') x' c'
    (by
      show ((mc j).processStationary ((f.env.setMeas j { f.env.meas j with cov := R }).meas j) f.getState z).map _ = _
      rw [hj, hs]; rfl)
    (by
      show (((f.env.setMeas j { f.env.meas j with cov := R }).setMeas j m').meas j).fm.makeStationary f.getState f.getCovariance = _
      have : ((f.env.setMeas j { f.env.meas j with cov := R }).setMeas j m').meas j = m' := by simp [Env.setMeas]
      rw [this, hfm]
      exact makeStationary_settles hset)
  refine ⟨g, h2, h3, h4, h5, by rw [h6]; rfl, by rw [h6]; simp [Env.setMeas], fun i hi => ?_⟩
  rw [h6]
  simp [Env.setMeas, hi]

end plain

section with_
variable {sc : SysClass T DS XS} {mc : K → MeasClass T DM XM}
  {pr : O → Env K DS XS DM XM → DVec → DMat → DVec → T → Option (DVec × DMat × Env K DS XS DM XM)}
  {co : O → Env K DS XS DM XM → DVec → DMat → DVec → K → T → Option (DVec × DMat × Env K DS XS DM XM)}

/-- **C18** (UKF, UKFVS; control). -/
theorem C18_user_control_ukf (f : Filter T DVec DMat K (Env K DS XS DM XM × O)) (u : DVec) (t : T) (ht : f.getStateTime ≤ t)
    (p : DVec → DVec → Bool) (hp : f.env.1.sys.fm.isStationaryF = some p) (hst : p f.getState u = true)
    (s' : Sys DS XS) (hs : sc.processStationary f.env.1.sys f.getState u = some s') (hfm : s'.fm = f.env.1.sys.fm)
    (x' : DVec) (c' : DMat) (hset : Settles f.env.1.sys.fm.makeStationaryF f.getState f.getCovariance x' c') :
    ∃ g, f.predictControl (mkPlantWith sc mc pr co) u t = some g ∧ g.getState = x' ∧ g.getCovariance = c' ∧
      g.getStateTime = t ∧ g.env = ({ f.env.1 with sys := s' }, f.env.2) := by
  refine (C18_stationary_control (mkPlantWith sc mc pr co) f u t ht (stationary_holds hp _ _ hst)).2
    ({ f.env.1 with sys := s' }, f.env.2) x' c' ?_ ?_
  · show ((sc.processStationary f.env.1.sys f.getState u).map _).map _ = _
    rw [hs]; rfl
  · show s'.fm.makeStationary _ _ = _
    rw [hfm]
    exact makeStationary_settles hset

/-- **C18** (UKF, UKFVS; measurement at the state time). -/
theorem C18_user_measurement_ukf (f : Filter T DVec DMat K (Env K DS XS DM XM × O)) (j : K) (z : DVec) (R : DMat)
    (hR : R.rows = (f.env.1.meas j).measDims ∧ R.cols = (f.env.1.meas j).measDims)
    (p : DVec → DVec → Bool) (hp : (f.env.1.meas j).fm.isStationaryF = some p) (hst : p f.getState z = true)
    (m' : Meas DM XM) (hs : (mc j).processStationary { f.env.1.meas j with cov := R } f.getState z = some m')
    (hfm : m'.fm = (f.env.1.meas j).fm)
    (x' : DVec) (c' : DMat) (hset : Settles (f.env.1.meas j).fm.makeStationaryF f.getState f.getCovariance x' c') :
    ∃ g, f.correct (mkPlantWith sc mc pr co) z R f.getStateTime (some j) = some g ∧ g.getState = x' ∧
      g.getCovariance = c' ∧ g.getStateTime = f.getStateTime ∧ g.env.2 = f.env.2 ∧ g.env.1.sys = f.env.1.sys ∧
      g.env.1.meas j = m' ∧ ∀ i, i ≠ j → g.env.1.meas i = f.env.1.meas i := by
  have he : (mkPlantWith sc mc pr co).setMeasCov f.env j R = some (f.env.1.setMeas j { f.env.1.meas j with cov := R }, f.env.2) := by
    show (((f.env.1.meas j).setCovariance R).map _).map _ = _
    unfold Meas.setCovariance
    rw [if_pos hR]; rfl
  have hj : (f.env.1.setMeas j { f.env.1.meas j with cov := R }).meas j = { f.env.1.meas j with cov := R } := by
    simp [Env.setMeas]
  have h1 : ((mkPlantWith sc mc pr co).measCheck (f.env.1.setMeas j { f.env.1.meas j with cov := R }, f.env.2) j &&
      (mkPlantWith sc mc pr co).measIsStationary (f.env.1.setMeas j { f.env.1.meas j with cov := R }, f.env.2) j f.estimateOf.x z) = true := by
    show (((f.env.1.setMeas j { f.env.1.meas j with cov := R }).meas j).fm.checkStationary &&
      ((f.env.1.setMeas j { f.env.1.meas j with cov := R }).meas j).fm.isStationary f.getState z) = true
    rw [hj]
    exact stationary_holds (f := (f.env.1.meas j).fm) hp _ _ hst
  obtain ⟨g, h2, h3, h4, h5, h6⟩ := ((C18_measurement (mkPlantWith sc mc pr co) f z R f.getStateTime j le_rfl f.estimateOf
    (by rw [if_neg (lt_irrefl _)]) _ he).1 h1).2 ((f.env.1.setMeas j { f.env.1.meas j with cov := R }).setMeas j m', f.env.2) x' c'
    (by
      show (((mc j).processStationary ((f.env.1.setMeas j { f.env.1.meas j with cov := R }).meas j) f.getState z).map _).map _ = _
      rw [hj, hs]; rfl)
    (by
      show (((f.env.1.setMeas j { f.env.1.meas j with cov := R }).setMeas j m').meas j).fm.makeStationary f.getState f.getCovariance = _
      have : ((f.env.1.setMeas j { f.env.1.meas j with cov := R }).setMeas j m').meas j = m' := by simp [Env.setMeas]
      rw [this, hfm]
      exact makeStationary_settles hset)
  refine ⟨g, h2, h3, h4, h5, by rw [h6], by rw [h6]; rfl, by rw [h6]; simp [Env.setMeas], fun i hi => ?_⟩
  rw [h6]
  simp [Env.setMeas, hi]

end with_

/-- The hypotheses are met: a model with a predicate that holds at rest and a function that zeroes the state; the default
`processStationaryInput` does nothing. -/
example : ∃ (s : Sys NonlinSysData Unit) (p : DVec → DVec → Bool) (x' : DVec) (c' : DMat),
    s.fm.isStationaryF = some p ∧ p (.zero 2) (.zero 1) = true ∧
    (SysClass.plain (T := ℝ) fun s _ _ _ => some s : SysClass ℝ NonlinSysData Unit).processStationary s (.zero 2) (.zero 1) = some s ∧
    Settles s.fm.makeStationaryF (.zero 2) (.identity 2) x' c' := by
  refine ⟨{ Sys.constructNonlinear 2 1 1 () with
    fm := { FilterModel.construct 2 with isStationaryF := some fun x _ => decide (x.size = 2),
                                         makeStationaryF := some fun x c => some (DVec.zero x.size, c) } },
    fun x _ => decide (x.size = 2), _, _, rfl, by decide, rfl, rfl⟩

end Props
end StateEstimation
