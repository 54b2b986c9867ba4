import Verif.Lemmas.Sharing
import Verif.Model.VS

/-!
# Variable-state filters cannot tell system models apart that only differ in cached results
-/

set_option linter.unusedSectionVars false

namespace StateEstimation

variable {T K X Y : Type} [TimeOps T] [DecidableEq K] {Gm : Type} {R : DMat → Prop}
  {m0 : K → Meas LinMeasData Y} {n0 : K → Meas NonlinMeasData Y}

theorem kfvs_sim (sc : SysClass T LinSysData X) (mc : K → MeasClass T LinMeasData Y)
    {RS : Sys LinSysData X → Sys LinSysData X → Prop} (hS : SysRel sc RS R) (cfg : K → Meas LinMeasData Y → Gm)
    (hM : ∀ k, (mc k).Stateless (cfg k)) :
    PlantSim (kfvsPlant sc mc) (kfvsPlant sc mc) False (fun _ _ => True) (EnvLike RS cfg m0) (fun _ => True) R
      (fun _ _ _ => True) := by
  refine mkPlant_sim sc mc hS cfg hM m0 _ _ ?_ ?_
  · intro e e' x c u dt he
    unfold kfvsPredict
    refine OptRel.bind (hS.upd _ _ x u dt he.1) ?_
    rintro s s' ⟨h1, h2, h3, h4⟩
    simp only [Sys.activeStates, Sys.stateSize, hS.fm _ _ h1, hS.act _ _ h1, h2, h3, h4, hS.rp _ _ h1, (hS.rc _ _ h1).1,
      hS.add _ _ h1]
    repeat refine OptRel.refl_map _ _ _ fun _ => ?_
    exact ⟨rfl, rfl, h1, he.2⟩
  · intro e e' x c z k dt he hcov
    unfold kfvsCorrect
    refine OptRel.bind (measLike_upd (hM k) (m0 k) _ _ (he.2 k) hcov x dt) ?_
    rintro m m' ⟨h1, h2, h3⟩
    have hseen := (hM k).seen m m' (h1.1.trans h1.2.symm)
    simp only [Sys.activeStates, Sys.stateSize, Meas.measurementSize, hS.fm _ _ he.1, hseen.2.1, hseen.2.2, h2, h3,
      hS.add _ _ he.1, (hM k).sub m m' (h1.1.trans h1.2.symm)]
    repeat refine OptRel.refl_map _ _ _ fun _ => ?_
    exact ⟨rfl, rfl, he.setMeas k m m' h1⟩

theorem ekfvs_sim (sc : SysClass T NonlinSysData X) (mc : K → MeasClass T NonlinMeasData Y)
    {RS : Sys NonlinSysData X → Sys NonlinSysData X → Prop} (hS : SysRel sc RS R) (cfg : K → Meas NonlinMeasData Y → Gm)
    (hM : ∀ k, (mc k).Stateless (cfg k)) :
    PlantSim (ekfvsPlant sc mc) (ekfvsPlant sc mc) False (fun _ _ => True) (EnvLike RS cfg n0) (fun _ => True) R
      (fun _ _ _ => True) := by
  refine mkPlant_sim sc mc hS cfg hM n0 _ _ ?_ ?_
  · intro e e' x c u dt he
    unfold ekfvsPredict
    refine OptRel.bind (hS.upd _ _ x u dt he.1) ?_
    rintro s s' ⟨h1, h2, h3, h4⟩
    simp only [Sys.activeStates, hS.fm _ _ h1, hS.act _ _ h1, h2, h3, h4, hS.rp _ _ h1, (hS.rc _ _ h1).1]
    repeat refine OptRel.refl_map _ _ _ fun _ => ?_
    exact ⟨rfl, rfl, h1, he.2⟩
  · intro e e' x c z k dt he hcov
    unfold ekfvsCorrect
    refine OptRel.bind (measLike_upd (hM k) (n0 k) _ _ (he.2 k) hcov x dt) ?_
    rintro m m' ⟨h1, h2, h3⟩
    have hseen := (hM k).seen m m' (h1.1.trans h1.2.symm)
    simp only [Sys.activeStates, Sys.stateSize, hS.fm _ _ he.1, hseen.2.2, h2, h3,
      hS.add _ _ he.1, (hM k).sub m m' (h1.1.trans h1.2.symm)]
    repeat refine OptRel.refl_map _ _ _ fun _ => ?_
    exact ⟨rfl, rfl, he.setMeas k m m' h1⟩

theorem ukfvsPredictLoop_sim (sc : SysClass T NonlinSysData X) {RS : Sys NonlinSysData X → Sys NonlinSysData X → Prop}
    (hS : SysRel sc RS R) (L : DMat) (x u : DVec) (dt : T) (a : Nat) (fuel : Nat) :
    ∀ (i : Nat) (off : DVec) (s s' : Sys NonlinSysData X) (pts : DMat),
    Upd RS s s' → OptRel False (fun r r' => Upd RS r.1 r'.1 ∧ r.2 = r'.2) (ukfvsPredictLoop sc L x u dt a fuel i off s pts)
      (ukfvsPredictLoop sc L x u dt a fuel i off s' pts) := by
  induction fuel with
  | zero => exact fun i off s s' pts hs => ⟨hs, rfl⟩
  | succ fuel ih =>
    intro i off s s' pts hs
    unfold ukfvsPredictLoop
    simp only [Sys.activeStates, hS.fm _ _ hs.1, hS.add _ _ hs.1]
    refine OptRel.refl_map _ _ _ fun c => OptRel.refl_map _ _ _ fun off' => OptRel.refl_map _ _ _ fun hi => ?_
    refine OptRel.bind (hS.upd _ _ hi u dt hs.1) ?_
    rintro r r' hr
    rw [hr.2.1, hS.sub _ _ hr.1]
    refine OptRel.refl_map _ _ _ fun pts1 => OptRel.refl_map _ _ _ fun lo => ?_
    refine OptRel.bind (hS.upd _ _ lo u dt hr.1) ?_
    rintro q q' hq
    rw [hq.2.1]
    refine OptRel.refl_map _ _ _ fun pts2 => ?_
    exact ih _ _ q q' pts2 hq

theorem ukfvsCorrectLoop_sim (sc : SysClass T NonlinSysData X) (mc : MeasClass T NonlinMeasData Y)
    {RS : Sys NonlinSysData X → Sys NonlinSysData X → Prop} (hS : SysRel sc RS R) {cfg : Meas NonlinMeasData Y → Gm}
    (hM : mc.Stateless cfg) (k0 : Meas NonlinMeasData Y) (s s' : Sys NonlinSysData X) (hs : RS s s') (L : DMat) (x : DVec)
    (dt : T) (fuel : Nat) : ∀ (i : Nat) (off : DVec) (m m' : Meas NonlinMeasData Y) (pts obs : DMat),
    MeasLike cfg k0 m m' → m.cov = m'.cov → OptRel False
      (fun r r' => (MeasLike cfg k0 r.1 r'.1 ∧ r.1.cov = r'.1.cov) ∧ r.2 = r'.2)
      (ukfvsCorrectLoop sc mc s L x dt fuel i off m pts obs) (ukfvsCorrectLoop sc mc s' L x dt fuel i off m' pts obs) := by
  have hfm := hS.fm _ _ hs
  induction fuel with
  | zero => exact fun i off m m' pts obs hm hc => ⟨⟨hm, hc⟩, rfl⟩
  | succ fuel ih =>
    intro i off m m' pts obs hm hc
    unfold ukfvsCorrectLoop
    simp only [Sys.activeStates, Sys.activeStateSize, hfm, hS.add _ _ hs, hS.sub _ _ hs]
    refine OptRel.refl_map _ _ _ fun c => OptRel.refl_map _ _ _ fun off' => OptRel.refl_map _ _ _ fun hi =>
      OptRel.refl_map _ _ _ fun pts1 => OptRel.refl_map _ _ _ fun p1 => ?_
    refine OptRel.bind (measLike_upd hM k0 _ _ hm hc p1 dt) ?_
    rintro r r' ⟨h1, h2, h3⟩
    rw [h3]
    refine OptRel.refl_map _ _ _ fun obs1 => OptRel.refl_map _ _ _ fun lo =>
      OptRel.refl_map _ _ _ fun pts2 => OptRel.refl_map _ _ _ fun p2 => ?_
    refine OptRel.bind (measLike_upd hM k0 _ _ h1 h2 p2 dt) ?_
    rintro q q' ⟨h4, h5, h6⟩
    rw [h6]
    refine OptRel.refl_map _ _ _ fun obs2 => ?_
    exact ih _ _ q q' pts2 obs2 h4 h5

theorem ukfvs_sim (llt : DMat → Option DMat) (junk : Nat → Nat → ℝ) (sc : SysClass T NonlinSysData X)
    (mc : K → MeasClass T NonlinMeasData Y)
    {RS : Sys NonlinSysData X → Sys NonlinSysData X → Prop} (hS : SysRel sc RS R) (cfg : K → Meas NonlinMeasData Y → Gm)
    (hM : ∀ k, (mc k).Stateless (cfg k)) :
    PlantSim (ukfvsPlant llt junk sc mc) (ukfvsPlant llt junk sc mc) False (fun _ _ => True)
      (fun e e' => EnvLike RS cfg n0 e.1 e'.1 ∧ e.2 = e'.2) (fun _ => True) R (fun _ _ _ => True) := by
  refine mkPlantWith_sim sc mc _ _ fun sp => mkPlant_sim sc mc hS cfg hM n0 _ _ ?_ ?_
  · intro e e' x c u dt he
    unfold ukfvsPredict
    simp only [Sys.activeStateSize, Sys.activeStates, Sys.stateSize, hS.fm _ _ he.1]
    refine OptRel.refl_map _ _ _ fun covS => OptRel.refl_map _ _ _ fun L => ?_
    refine OptRel.bind (hS.upd _ _ x u dt he.1) ?_
    rintro s s' ⟨h1, h2, h3, h4⟩
    rw [h2, hS.fm _ _ h1]
    refine OptRel.refl_map _ _ _ fun pts => ?_
    refine OptRel.bind (ukfvsPredictLoop_sim sc hS L x u dt _ _ 0 _ s s' pts ⟨h1, h2, h3, h4⟩) ?_
    rintro ⟨r, pts1⟩ ⟨r', _⟩ ⟨⟨k1, k2, k3, k4⟩, rfl⟩
    dsimp only at k1 k2 k3 k4 ⊢
    rw [hS.wsum r r' k1, hS.sub r r' k1, k3, k4, hS.rp r r' k1, (hS.rc r r' k1).1, hS.act r r' k1, hS.fm r r' k1]
    repeat refine OptRel.refl_map _ _ _ fun _ => ?_
    exact ⟨rfl, rfl, k1, he.2⟩
  · intro e e' x c z k dt he hcov
    have hms : ∀ m m', MeasLike (cfg k) (n0 k) m m' → m.fm = m'.fm ∧ m.measDims = m'.measDims ∧
        m.activeMeasurements = m'.activeMeasurements := fun m m' hm => (hM k).seen _ _ (hm.1.trans hm.2.symm)
    unfold ukfvsCorrect
    simp only [Sys.activeStateSize, Sys.activeStates, Sys.stateSize, Meas.measurementSize, Meas.activeMeasurementSize,
      hS.fm _ _ he.1, (hms _ _ (he.2 k)).2.1]
    refine OptRel.refl_map _ _ _ fun covS => OptRel.refl_map _ _ _ fun L => OptRel.refl_map _ _ _ fun pts => ?_
    refine OptRel.bind (measLike_upd (hM k) (n0 k) _ _ (he.2 k) hcov x dt) ?_
    rintro m m' ⟨h1, h2, h3⟩
    rw [h3]
    refine OptRel.refl_map _ _ _ fun obs => ?_
    refine OptRel.bind (ukfvsCorrectLoop_sim sc (mc k) hS (hM k) (n0 k) _ _ he.1 L x dt _ 0 _ m m' pts obs h1 h2) ?_
    rintro ⟨r, po⟩ ⟨r', _⟩ ⟨⟨k1, k2⟩, rfl⟩
    dsimp only at k1 k2 ⊢
    rw [(hM k).wsum r r' (k1.1.trans k1.2.symm), (hM k).sub r r' (k1.1.trans k1.2.symm), hS.sub _ _ he.1, hS.add _ _ he.1, k2,
      (hms r r' k1).2.1, (hms r r' k1).2.2]
    repeat refine OptRel.refl_map _ _ _ fun _ => ?_
    exact ⟨rfl, rfl, he.setMeas k r r' k1⟩

end StateEstimation
