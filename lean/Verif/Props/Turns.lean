import Verif.Spec.Turns
import Verif.Lemmas.PlantRel
import Verif.Lemmas.UKFUnits
import Verif.Lemmas.Part
import Verif.Lemmas.Uninit
import Verif.Props.Planar
import Verif.Props.DataFree

/-!
# C129: a full turn is no turn
-/

set_option linter.unusedSectionVars false

namespace StateEstimation
namespace Props

open Turns Real

variable {T K X Y : Type}

private theorem vec_refl {J : Nat → Prop} (a : DVec) : Vec J a a := ⟨rfl, fun i h h' => ⟨0, by simp, Or.inl rfl⟩⟩

private theorem mat_refl {J : Nat → Prop} (A : DMat) : Mat J A A := ⟨rfl, rfl, fun i j _ _ _ _ => ⟨0, by simp, Or.inl rfl⟩⟩

private theorem same_opt {α : Type} {o o' : Option α} (h : o = o') : OptRel False (fun a b : α => b = a) o o' :=
  OptRel.of_eq h fun _ => rfl

section algebra

variable {J : Nat → Prop}

private theorem col_rel {A A' : DMat} (h : Mat J A A') (j : Nat) : OptRel False (Vec J) (A.col? j) (A'.col? j) := by
  unfold DMat.col?
  by_cases hj : j < A.cols
  · rw [dif_pos hj, dif_pos (h.2.1 ▸ hj)]
    exact ⟨h.1, fun i hi hi' => h.2.2 i j hi hj hi' _⟩
  · rw [dif_neg hj, dif_neg (h.2.1 ▸ hj)]; exact not_false

private theorem setCol_rel {A A' : DMat} (h : Mat J A A') (j : Nat) {v v' : DVec} (hv : Vec J v v') :
    OptRel False (Mat J) (A.setCol? j v) (A'.setCol? j v') := by
  unfold DMat.setCol?
  have e : (j < A.cols ∧ A.rows = v.size) ↔ (j < A'.cols ∧ A'.rows = v'.size) := by rw [h.1, h.2.1, hv.1]
  by_cases hj : j < A.cols ∧ A.rows = v.size
  · rw [dif_pos hj, dif_pos (e.mp hj)]
    refine ⟨h.1, h.2.1, fun i l hi hl hi' hl' => ?_⟩
    dsimp only
    by_cases hlj : l = j
    · rw [if_pos hlj, if_pos hlj]; exact hv.2 i _ _
    · rw [if_neg hlj, if_neg hlj]; exact h.2.2 i l hi hl hi' hl'
  · rw [dif_neg hj, dif_neg (mt e.mpr hj)]; exact not_false

private theorem covLoop_congr (w : DVec) {f f' : Nat → Option (DVec × DVec)} (h : ∀ i, f i = f' i) (fuel i : Nat) (acc : DMat) :
    covLoop w f fuel i acc = covLoop w f' fuel i acc := by rw [funext h]

end algebra

section models

variable {J : Nat → Prop}

private theorem sysUpdate_rel {sc : SysClass T NonlinSysData X} (hsc : SysClassOk J sc) {s s' : Sys NonlinSysData X}
    (hs : SysSame J s s') {x x' : DVec} (hx : Vec J x x') (u : DVec) (dt : T) :
    OptRel False (SysSame J) (s.update sc x u dt) (s'.update sc x' u dt) := by
  have e1 : s'.stateSize = s.stateSize := by rw [hs.same]; rfl
  have e2 : s'.controlDims = s.controlDims := by rw [hs.same]
  unfold Sys.update
  rw [e1, e2, ← hx.1]
  split
  · exact OptRel.of_units (hsc.update s s' x x' u dt hs hx)
  · exact not_false

private theorem measUpdate_rel {Jz : Nat → Prop} {mc : MeasClass T NonlinMeasData Y} (hmc : MeasClassOk J Jz mc)
    {s s' : Meas NonlinMeasData Y} (hs : MeasSame Jz s s') {x x' : DVec} (hx : Vec J x x') (dt : T) :
    OptRel False (MeasSame Jz) (s.update mc x dt) (s'.update mc x' dt) := by
  have e1 : s'.stateSize = s.stateSize := by rw [hs.same]; rfl
  unfold Meas.update
  rw [e1, ← hx.1]
  split
  · exact OptRel.of_units (hmc.update s s' x x' dt hs hx)
  · exact not_false

private theorem ekfPredict_rel {Z : Type} {RZ : Z → Z → Prop} {sc : SysClass T NonlinSysData X} (hsc : SysClassOk J sc)
    {s s' : Sys NonlinSysData X} (hs : SysSame J s s') {x x' : DVec} (hx : Vec J x x') (c : DMat) (u : DVec) (dt : T)
    {b b' : Sys NonlinSysData X → Z} (hb : ∀ s s', SysSame J s s' → RZ (b s) (b' s')) :
    OptRel False (fun r q => (Vec J r.1 q.1 ∧ r.2.1 = q.2.1) ∧ RZ r.2.2 q.2.2) (ekfPredict sc s x c u dt b)
      (ekfPredict sc s' x' c u dt b') := by
  unfold ekfPredict
  simp only [Option.bind_eq_bind]
  refine OptRel.bind (sysUpdate_rel hsc hs hx u dt) fun s s' hs => ?_
  have e : propagateCov s'.der.G c s'.P s'.Rp s'.V s'.Rc = propagateCov s.der.G c s.P s.Rp s.V s.Rc := by
    rw [hs.G, hs.same]
  rw [e]
  exact OptRel.refl_map _ _ _ fun c' => ⟨⟨hs.g, rfl⟩, hb _ _ hs⟩

private theorem ekfCorrect_rel {Z : Type} {RZ : Z → Z → Prop} {sc : SysClass T NonlinSysData X} (hsc : SysClassOk J sc)
    {Jz : Nat → Prop} {mc : MeasClass T NonlinMeasData Y} (hmc : MeasClassOk J Jz mc) {s s' : Sys NonlinSysData X}
    (hs : SysSame J s s') {m m' : Meas NonlinMeasData Y} (hm : MeasSame Jz m m') {x x' : DVec} (hx : Vec J x x') (c : DMat)
    {z z' : DVec} (hz : Vec Jz z z') (dt : T)
    {b b' : Meas NonlinMeasData Y → Z} (hb : ∀ s s', MeasSame Jz s s' → RZ (b s) (b' s')) :
    OptRel False (fun r q => (Vec J r.1 q.1 ∧ r.2.1 = q.2.1) ∧ RZ r.2.2 q.2.2) (ekfCorrect sc mc s m x c z dt b)
      (ekfCorrect sc mc s' m' x' c z' dt b') := by
  unfold ekfCorrect
  simp only [Option.bind_eq_bind]
  refine OptRel.bind (measUpdate_rel hmc hm hx dt) fun m m' hm => ?_
  have e : kalmanGain c m'.der.H m'.cov = kalmanGain c m.der.H m.cov := by
    rw [hm.H, hm.same]
  rw [e]
  refine OptRel.refl_map _ _ _ fun G => ?_
  rw [← hmc.sub m m' z z' m.der.h m'.der.h hm hz hm.h]
  refine OptRel.refl_map _ _ _ fun dz => ?_
  refine OptRel.refl_map _ _ _ fun dx => ?_
  refine OptRel.bind (OptRel.of_units (hsc.add s s' x x' dx hs hx)) fun y y' hy => ?_
  rw [hm.H, hx.1]
  exact OptRel.refl_map _ _ _ fun c' => ⟨⟨hy, rfl⟩, hb _ _ hm⟩

private theorem predictLoop_rel {sc : SysClass T NonlinSysData X} (hsc : SysClassOk J sc) (hsa : SysAveragesOk J sc) (L : DMat) {x x' : DVec}
    (hx : Vec J x x') (u : DVec) (dt : T) : ∀ (fuel i : Nat) (s s' : Sys NonlinSysData X) (p p' : DMat), SysSame J s s' →
      Mat J p p' → OptRel False (fun r q => SysSame J r.1 q.1 ∧ Mat J r.2 q.2) (ukfPredictLoop sc L x u dt fuel i s p)
        (ukfPredictLoop sc L x' u dt fuel i s' p') := by
  intro fuel
  induction fuel with
  | zero => intro i s s' p p' hs hp; exact ⟨hs, hp⟩
  | succ fuel ih =>
    intro i s s' p p' hs hp
    unfold ukfPredictLoop
    simp only [Option.bind_eq_bind]
    refine OptRel.refl_map _ _ _ fun c => ?_
    refine OptRel.bind (OptRel.of_units (hsc.add s s' x x' c hs hx)) fun y y' hy => ?_
    refine OptRel.bind (sysUpdate_rel hsc hs hy u dt) fun s s' hs => ?_
    refine OptRel.bind (setCol_rel hp (i + 1) hs.g) fun p p' hp => ?_
    rw [← hsa.sub s s' x x' c c hs hx (vec_refl c)]
    refine OptRel.refl_map _ _ _ fun y => ?_
    refine OptRel.bind (sysUpdate_rel hsc hs (vec_refl y) u dt) fun s s' hs => ?_
    have e : s'.stateSize = s.stateSize := by rw [hs.same]; rfl
    rw [e]
    refine OptRel.bind (setCol_rel hp _ hs.g) fun p p' hp => ?_
    exact ih (i + 1) s s' p p' hs hp

private theorem ukfPredict_rel {Z : Type} {RZ : Z → Z → Prop} (llt : DMat → Option DMat) (junk : Nat → Nat → ℝ)
    {sc : SysClass T NonlinSysData X} (hsc : SysClassOk J sc) (hsa : SysAveragesOk J sc) (sp : SigmaParams)
    {s s' : Sys NonlinSysData X} (hs : SysSame J s s') {x x' : DVec} (hx : Vec J x x') (c : DMat) (u : DVec) (dt : T)
    {b b' : Sys NonlinSysData X → Z} (hb : ∀ s s', SysSame J s s' → RZ (b s) (b' s')) :
    OptRel False (fun r q => (Vec J r.1 q.1 ∧ r.2.1 = q.2.1) ∧ RZ r.2.2 q.2.2) (ukfPredict llt junk sc sp s x c u dt b)
      (ukfPredict llt junk sc sp s' x' c u dt b') := by
  have e : s'.stateSize = s.stateSize := by rw [hs.same]; rfl
  unfold ukfPredict
  simp only [Option.bind_eq_bind]
  rw [e]
  refine OptRel.refl_map _ _ _ fun L => ?_
  refine OptRel.bind (sysUpdate_rel hsc hs hx u dt) fun s1 s1' hs1 => ?_
  refine OptRel.bind (setCol_rel (mat_refl _) 0 hs1.g) fun p p' hp => ?_
  have e1 : s1'.stateSize = s1.stateSize := by rw [hs1.same]; rfl
  rw [e1]
  refine OptRel.bind (predictLoop_rel hsc hsa L hx u dt _ 0 s1 s1' p p' hs1 hp) fun r r' hr => ?_
  obtain ⟨hs2, hp2⟩ := hr
  refine OptRel.bind (OptRel.of_units (hsa.wsum r.1 r'.1 sp.wMean r.2 r'.2 hs2 hp2)) fun y y' hy => ?_
  have e2 : noiseCov r'.1.P r'.1.Rp r'.1.V r'.1.Rc = noiseCov r.1.P r.1.Rp r.1.V r.1.Rc := by rw [hs2.same]
  rw [e2]
  refine OptRel.refl_map _ _ _ fun Q => ?_
  rw [covLoop_congr sp.wCov (f' := fun i => (r'.2.col? i).bind fun c => (sc.sub r'.1 c y').bind fun dx => some (dx, dx)) fun i => ?_]
  · exact OptRel.refl_map _ _ _ fun c' => ⟨⟨hy, rfl⟩, hb _ _ hs2⟩
  · refine OptRel.to_eq (OptRel.bind (col_rel hp2 i) fun a a' ha => ?_)
    rw [hsa.sub r.1 r'.1 a a' y y' hs2 ha hy]
    exact OptRel.of_eq rfl fun _ => rfl

private theorem correctLoop_rel {sc : SysClass T NonlinSysData X} (hsc : SysClassOk J sc) (hsa : SysAveragesOk J sc) {Jz : Nat → Prop}
    {mc : MeasClass T NonlinMeasData Y} (hmc : MeasClassOk J Jz mc) {s s' : Sys NonlinSysData X} (hs : SysSame J s s') (L : DMat)
    {x x' : DVec} (hx : Vec J x x') (dt : T) : ∀ (fuel i : Nat) (m m' : Meas NonlinMeasData Y) (p p' o o' : DMat),
      MeasSame Jz m m' → Mat J p p' → Mat Jz o o' →
      OptRel False (fun r q => MeasSame Jz r.1 q.1 ∧ Mat J r.2.1 q.2.1 ∧ Mat Jz r.2.2 q.2.2)
        (ukfCorrectLoop sc mc s L x dt fuel i m p o) (ukfCorrectLoop sc mc s' L x' dt fuel i m' p' o') := by
  have e : s'.stateSize = s.stateSize := by rw [hs.same]; rfl
  intro fuel
  induction fuel with
  | zero => intro i m m' p p' o o' hm hp ho; exact ⟨hm, hp, ho⟩
  | succ fuel ih =>
    intro i m m' p p' o o' hm hp ho
    unfold ukfCorrectLoop
    simp only [Option.bind_eq_bind]
    refine OptRel.refl_map _ _ _ fun c => ?_
    refine OptRel.bind (OptRel.of_units (hsc.add s s' x x' c hs hx)) fun y y' hy => ?_
    refine OptRel.bind (setCol_rel hp (i + 1) hy) fun p p' hp => ?_
    refine OptRel.bind (col_rel hp (i + 1)) fun q q' hq => ?_
    refine OptRel.bind (measUpdate_rel hmc hm hq dt) fun m m' hm => ?_
    refine OptRel.bind (setCol_rel ho (i + 1) hm.h) fun o o' ho => ?_
    rw [← hsa.sub s s' x x' c c hs hx (vec_refl c)]
    refine OptRel.refl_map _ _ _ fun y => ?_
    rw [e]
    refine OptRel.bind (setCol_rel hp _ (vec_refl y)) fun p p' hp => ?_
    refine OptRel.bind (col_rel hp _) fun q q' hq => ?_
    refine OptRel.bind (measUpdate_rel hmc hm hq dt) fun m m' hm => ?_
    refine OptRel.bind (setCol_rel ho _ hm.h) fun o o' ho => ?_
    exact ih (i + 1) m m' p p' o o' hm hp ho

private theorem ukfCorrect_rel {Z : Type} {RZ : Z → Z → Prop} (llt : DMat → Option DMat) (junk : Nat → Nat → ℝ)
    {sc : SysClass T NonlinSysData X} (hsc : SysClassOk J sc) (hsa : SysAveragesOk J sc)
    {Jz : Nat → Prop} {mc : MeasClass T NonlinMeasData Y} (hmc : MeasClassOk J Jz mc) (hma : MeasAveragesOk Jz mc) (sp : SigmaParams) {s s' : Sys NonlinSysData X}
    (hs : SysSame J s s') {m m' : Meas NonlinMeasData Y} (hm : MeasSame Jz m m') {x x' : DVec} (hx : Vec J x x') (c : DMat)
    {z z' : DVec} (hz : Vec Jz z z') (dt : T)
    {b b' : Meas NonlinMeasData Y → Z} (hb : ∀ s s', MeasSame Jz s s' → RZ (b s) (b' s')) :
    OptRel False (fun r q => (Vec J r.1 q.1 ∧ r.2.1 = q.2.1) ∧ RZ r.2.2 q.2.2) (ukfCorrect llt junk sc mc sp s m x c z dt b)
      (ukfCorrect llt junk sc mc sp s' m' x' c z' dt b') := by
  have e : s'.stateSize = s.stateSize := by rw [hs.same]; rfl
  have e' : m'.measurementSize = m.measurementSize := by rw [hm.same]; rfl
  unfold ukfCorrect
  simp (maxSteps := 2000000) only [Option.bind_eq_bind]
  rw [e, e']
  refine OptRel.refl_map _ _ _ fun L => ?_
  refine OptRel.bind (setCol_rel (mat_refl _) 0 hx) fun p p' hp => ?_
  refine OptRel.bind (measUpdate_rel hmc hm hx dt) fun m1 m1' hm1 => ?_
  refine OptRel.bind (setCol_rel (mat_refl _) 0 hm1.h) fun o o' ho => ?_
  refine OptRel.bind (correctLoop_rel hsc hsa hmc hs L hx dt _ 0 m1 m1' p p' o o' hm1 hp ho) fun r r' hr => ?_
  obtain ⟨hm2, hp2, ho2⟩ := hr
  refine OptRel.bind (OptRel.of_units (hma.wsum r.1 r'.1 sp.wMean r.2.2 r'.2.2 hm2 ho2)) fun y y' hy => ?_
  have e2 : r'.1.cov = r.1.cov := by rw [hm2.same]
  have e3 : r'.1.stateSize = r.1.stateSize := by rw [hm2.same]; rfl
  have e4 : r'.1.measurementSize = r.1.measurementSize := by rw [hm2.same]; rfl
  rw [e2, e3, e4]
  rw [covLoop_congr sp.wCov (f' := fun i => (r'.2.2.col? i).bind fun c => (mc.sub r'.1 c y').bind fun dx => some (dx, dx)) fun i => ?_]
  · refine OptRel.refl_map _ _ _ fun S => ?_
    rw [covLoop_congr sp.wCov (f' := fun i => (r'.2.1.col? i).bind fun p => (r'.2.1.col? 0).bind fun p0 =>
      (sc.sub s' p p0).bind fun dx => (r'.2.2.col? i).bind fun c => (mc.sub r'.1 c y').bind fun dz => some (dx, dz)) fun i => ?_]
    · refine OptRel.refl_map _ _ _ fun C => ?_
      refine OptRel.refl_map _ _ _ fun Si => ?_
      refine OptRel.refl_map _ _ _ fun G => ?_
      rw [← hmc.sub r.1 r'.1 z z' y y' hm2 hz hy]
      refine OptRel.refl_map _ _ _ fun dz => ?_
      refine OptRel.refl_map _ _ _ fun dx => ?_
      refine OptRel.bind (OptRel.of_units (hsc.add s s' x x' dx hs hx)) fun w w' hw => ?_
      refine OptRel.refl_map _ _ _ fun GS => ?_
      refine OptRel.refl_map _ _ _ fun GSG => ?_
      exact OptRel.refl_map _ _ _ fun c' => ⟨⟨hw, rfl⟩, hb _ _ hm2⟩
    · refine OptRel.to_eq (OptRel.bind (col_rel hp2 i) fun a a' ha => ?_)
      refine OptRel.bind (col_rel hp2 0) fun a0 a0' ha0 => ?_
      rw [hsa.sub s s' a a' a0 a0' hs ha ha0]
      refine OptRel.refl_map _ _ _ fun dx => ?_
      refine OptRel.bind (col_rel ho2 i) fun a a' ha => ?_
      rw [hmc.sub r.1 r'.1 a a' y y' hm2 ha hy]
      exact OptRel.of_eq rfl fun _ => rfl
  · refine OptRel.to_eq (OptRel.bind (col_rel ho2 i) fun a a' ha => ?_)
    rw [hmc.sub r.1 r'.1 a a' y y' hm2 ha hy]
    exact OptRel.of_eq rfl fun _ => rfl

end models

section plants

variable [DecidableEq K] [TimeOps T] {J : Nat → Prop} {Jz : K → Nat → Prop}

private theorem setSys_same {e e' : Env K NonlinSysData X NonlinMeasData Y} (he : EnvSame J Jz e e') {s s' : Sys NonlinSysData X}
    (hs : SysSame J s s') : EnvSame J Jz { e with sys := s } { e' with sys := s' } := ⟨hs, he.2⟩

private theorem setMeas_same {e e' : Env K NonlinSysData X NonlinMeasData Y} (he : EnvSame J Jz e e') (k : K)
    {s s' : Meas NonlinMeasData Y} (hs : MeasSame (Jz k) s s') : EnvSame J Jz (e.setMeas k s) (e'.setMeas k s') := by
  refine ⟨he.1, fun j => ?_⟩
  unfold Env.setMeas
  dsimp only
  by_cases hj : j = k
  · subst hj; rw [if_pos rfl, if_pos rfl]; exact hs
  · rw [if_neg hj, if_neg hj]; exact he.2 j

/-- One proof for both filters. -/
private theorem mk_rel {sc : SysClass T NonlinSysData X} {mc : K → MeasClass T NonlinMeasData Y}
    {pr : Env K NonlinSysData X NonlinMeasData Y → DVec → DMat → DVec → T → Option (DVec × DMat × Env K NonlinSysData X NonlinMeasData Y)}
    {co : Env K NonlinSysData X NonlinMeasData Y → DVec → DMat → DVec → K → T →
      Option (DVec × DMat × Env K NonlinSysData X NonlinMeasData Y)}
    (hpr : ∀ e e' x x' c u dt, EnvSame J Jz e e' → Vec J x x' →
      OptRel False (fun r q => (Vec J r.1 q.1 ∧ r.2.1 = q.2.1) ∧ EnvSame J Jz r.2.2 q.2.2) (pr e x c u dt) (pr e' x' c u dt))
    (hco : ∀ e e' x x' c z z' k dt, EnvSame J Jz e e' → Vec J x x' → Vec (Jz k) z z' →
      OptRel False (fun r q => (Vec J r.1 q.1 ∧ r.2.1 = q.2.1) ∧ EnvSame J Jz r.2.2 q.2.2) (co e x c z k dt) (co e' x' c z' k dt)) :
    PlantRel (mkPlant sc mc pr co) (mkPlant sc mc pr co) False (fun x c x' c' => Vec J x x' ∧ c = c')
      (EnvSame J Jz) (fun u u' => u = u') (fun c c' => c = c') (fun z c z' c' k => Vec (Jz k) z z' ∧ c = c') where
  empty := rfl
  empty' := rfl
  rc := by
    intro e e' he
    show e.sys.Rc = e'.sys.Rc
    rw [he.1.same]
  zero := by
    intro e e' he
    show DVec.zero e.sys.controlDims = DVec.zero e'.sys.controlDims
    rw [he.1.same]
  setRc := by
    rintro e e' c _ he rfl
    show OptRel False _ ((e.sys.setControlCovariance c).map _) ((e'.sys.setControlCovariance c).map _)
    refine OptRel.map (R := SysSame J) ?_ fun s s' hs => setSys_same he hs
    have e1 : e'.sys.controlDims = e.sys.controlDims := by rw [he.1.same]
    unfold Sys.setControlCovariance
    rw [e1]
    split
    · refine ⟨?_, he.1.g, he.1.G, he.1.quiet⟩
      dsimp only
      rw [he.1.same]
    · exact not_false
  sysSt := by
    intro e e' x c x' c' d d' he hx _
    show (e.sys.fm.checkStationary && _) = (e'.sys.fm.checkStationary && _)
    rw [show e'.sys.fm = e.sys.fm by rw [he.1.same], he.1.quiet]; rfl
  predict := by
    rintro e e' x c x' _ u _ dt he ⟨hx, rfl⟩ rfl
    exact hpr e e' x x' c u dt he hx
  sysStationary := by
    intro e e' x c x' c' d d' he hx _ h
    have h : (e.sys.fm.checkStationary && _) = true := h
    rw [he.1.quiet] at h; cases h
  setMeasCov := by
    rintro e e' m z c z' _ he ⟨hz, rfl⟩
    show OptRel False _ (((e.meas m).setCovariance c).map _) (((e'.meas m).setCovariance c).map _)
    refine OptRel.map (R := MeasSame (Jz m)) ?_ fun s s' hs => ?_
    · have e1 : (e'.meas m).measDims = (e.meas m).measDims := by rw [(he.2 m).same]
      unfold Meas.setCovariance
      rw [e1]
      split
      · refine ⟨?_, (he.2 m).h, (he.2 m).H, (he.2 m).quiet⟩
        dsimp only
        rw [(he.2 m).same]
      · exact not_false
    · have h1 := setMeas_same he m hs
      have hq : ((e.setMeas m s).meas m).fm.checkStationary = false := (h1.2 m).quiet
      have hq' : ((e'.setMeas m s').meas m).fm.checkStationary = false := by rw [(h1.2 m).same]; exact hq
      refine ⟨h1, ?_, ?_, ?_⟩
      · intro x p x' p' _
        show (((e.setMeas m s).meas m).fm.checkStationary && _) = (((e'.setMeas m s').meas m).fm.checkStationary && _)
        rw [hq, hq']; rfl
      · rintro x p x' _ dt ⟨hx, rfl⟩
        exact hco _ _ x x' p z z' m dt h1 hx hz
      · intro x p x' p' _ h
        have h : (((e.setMeas m s).meas m).fm.checkStationary && _) = true := h
        rw [hq] at h; cases h

private theorem ekf_rel {sc : SysClass T NonlinSysData X} {mc : K → MeasClass T NonlinMeasData Y} (hsc : SysClassOk J sc)
    (hmc : ∀ k, MeasClassOk J (Jz k) (mc k)) :
    PlantRel (ekfPlant sc mc) (ekfPlant sc mc) False (fun x c x' c' => Vec J x x' ∧ c = c')
      (EnvSame J Jz) (fun u u' => u = u') (fun c c' => c = c') (fun z c z' c' k => Vec (Jz k) z z' ∧ c = c') :=
  mk_rel (fun e e' x x' c u dt he hx => ekfPredict_rel hsc he.1 hx c u dt fun s s' hs => setSys_same he hs)
    (fun e e' x x' c z z' k dt he hx hz => ekfCorrect_rel hsc (hmc k) he.1 (he.2 k) hx c hz dt fun s s' hs => setMeas_same he k hs)

private theorem ukf_rel (llt : DMat → Option DMat) (junk : Nat → Nat → ℝ) {sc : SysClass T NonlinSysData X}
    {mc : K → MeasClass T NonlinMeasData Y} (hsc : SysClassOk J sc) (hsa : SysAveragesOk J sc)
    (hmc : ∀ k, MeasClassOk J (Jz k) (mc k)) (hma : ∀ k, MeasAveragesOk (Jz k) (mc k)) :
    PlantRel (ukfPlant llt junk sc mc) (ukfPlant llt junk sc mc) False (fun x c x' c' => Vec J x x' ∧ c = c')
      (fun e e' => EnvSame J Jz e.1 e'.1 ∧ True ∧ e'.2 = e.2) (fun u u' => u = u') (fun c c' => c = c')
      (fun z c z' c' k => Vec (Jz k) z z' ∧ c = c') :=
  mkPlantWith_rel (fun _ => True) fun sp _ => mk_rel
    (fun e e' x x' c u dt he hx => ukfPredict_rel llt junk hsc hsa sp he.1 hx c u dt fun s s' hs => setSys_same he hs)
    (fun e e' x x' c z z' k dt he hx hz => ukfCorrect_rel llt junk hsc hsa (hmc k) (hma k) sp he.1 (he.2 k) hx c hz dt
      fun s s' hs => setMeas_same he k hs)

private theorem data_same {E : Type} {P : Plant T DVec DMat K E} (d : DVec) :
    DataRel P P (fun u u' => u = u') d d := by
  rcases Nat.eq_zero_or_pos (P.vsize d) with h | h
  · exact Or.inr ⟨h, h⟩
  · exact Or.inl ⟨h, h, rfl⟩

private theorem call_rel {E : Type} {RE RE' : E → E → Prop} (h1 : ∀ e e', RE' e e' ↔ RE e e') {P : Plant T DVec DMat K E}
    {op op' : Op T DVec DMat K E} (h : Call J Jz RE op op') :
    OpRel P P False (fun x c x' c' => Vec J x x' ∧ c = c') RE' (fun u u' => u = u') (fun z c z' c' k => Vec (Jz k) z z' ∧ c = c')
      op op' := by
  cases op <;> cases op' <;> simp only [Call] at h <;> simp only [OpRel]
  · exact h
  · exact h
  · obtain ⟨rfl, rfl⟩ := h; exact ⟨rfl, data_same _⟩
  · exact h
  · obtain ⟨rfl, rfl⟩ := h; exact ⟨rfl, data_same _⟩
  · exact h
  · exact h
  · exact h
  · intro e e' he
    exact OptRel.mono (OptRel.of_units (h e e' ((h1 e e').mp he))) fun a b hab => (h1 a b).mpr hab

private theorem same_result {E : Type} {A : Filter T DVec DMat K E → Filter T DVec DMat K E → Prop}
    {o o' : Option (Filter T DVec DMat K E)}
    (h : OptRel False (fun f g => f.params = g.params ∧ A f g ∧
      List.Forall₂ (fun s s' => s.timestamp = s'.timestamp ∧ Vec J s.x s'.x ∧ s.covariance = s'.covariance) f.retained g.retained) o o') :
    SameOutcome J o o' := by
  rcases OptRel.elim h with ⟨rfl, rfl, _⟩ | ⟨f, g, rfl, rfl, _, _, h4⟩
  · trivial
  · have hs := (SimRel.forall₂_concat (l := f.history) (l' := g.history) h4).2
    exact ⟨hs.1, hs.2.1, hs.2.2, h4⟩

end plants

section theorems

variable [DecidableEq K] [TimeOps T] [SaneTime T] {J : Nat → Prop} {Jz : K → Nat → Prop}

/-- **C129, EKF.**  Model classes for which full turns are nothing, without stationary predicates.  Two runs of any calls (any
time stamps, delays, queues, rewinding, reverting, changes of the models) whose initial states and measurements are the same up to
full turns both fail, or end at the same time with the same estimate up to full turns and equal covariances, now and at every
remembered moment. -/
theorem C129_ekf {sc : SysClass T NonlinSysData X} {mc : K → MeasClass T NonlinMeasData Y} (hsc : SysClassOk J sc)
    (hmc : ∀ k, MeasClassOk J (Jz k) (mc k))
    (sort : List (FilterInput T DVec DMat K) → List (FilterInput T DVec DMat K)) (hsort : SameSort sort sort)
    (params : Params T) (e : Env K NonlinSysData X NonlinMeasData Y) (he : EnvSame J Jz e e) (x x' : DVec) (c : DMat) (t : T)
    (hx : Vec J x x') (ops ops' : List (Op T DVec DMat K (Env K NonlinSysData X NonlinMeasData Y)))
    (hops : List.Forall₂ (Call J Jz (EnvSame J Jz)) ops ops') :
    SameOutcome J ((Filter.construct (ekfPlant sc mc) params e x c t).run (ekfPlant sc mc) sort ops)
      ((Filter.construct (ekfPlant sc mc) params e x' c t).run (ekfPlant sc mc) sort ops') := by
  have h := (ekf_rel (T := T) hsc hmc).run hsort
    { params := params
      state := { x := (ekfPlant sc mc).emptyV, covariance := (ekfPlant sc mc).emptyM, timestamp := TimeOps.zero,
                 prevInput := FilterInput.default (ekfPlant sc mc) }
      prevControl := (ekfPlant sc mc).emptyV
      prevControlCov := (ekfPlant sc mc).emptyM
      env := e, history := [], controlQueue := [], measQueue := [] }
    { params := params
      state := { x := (ekfPlant sc mc).emptyV, covariance := (ekfPlant sc mc).emptyM, timestamp := TimeOps.zero,
                 prevInput := FilterInput.default (ekfPlant sc mc) }
      prevControl := (ekfPlant sc mc).emptyV
      prevControlCov := (ekfPlant sc mc).emptyM
      env := e, history := [], controlQueue := [], measQueue := [] } rfl he (Or.inr ⟨rfl, rfl⟩) x c x' c t ⟨hx, rfl⟩
    (hops.imp (fun _ _ h => call_rel (fun _ _ => Iff.rfl) h))
  exact same_result (A := fun f g => _ ∧ _) (h.mono fun f g hfg => ⟨hfg.1, ⟨hfg.2.1, hfg.2.2.1⟩, hfg.2.2.2⟩)

/-- **C129, UKF.**  The same, if differences and averages do not depend on full turns either; for any sigma points, factorisation
and content of uninitialised memory. -/
theorem C129_ukf (llt : DMat → Option DMat) (junk : Nat → Nat → ℝ) {sc : SysClass T NonlinSysData X}
    {mc : K → MeasClass T NonlinMeasData Y} (hsc : SysClassOk J sc) (hsa : SysAveragesOk J sc)
    (hmc : ∀ k, MeasClassOk J (Jz k) (mc k)) (hma : ∀ k, MeasAveragesOk (Jz k) (mc k))
    (sort : List (FilterInput T DVec DMat K) → List (FilterInput T DVec DMat K)) (hsort : SameSort sort sort)
    (params : Params T) (e : Env K NonlinSysData X NonlinMeasData Y) (he : EnvSame J Jz e e) (sp : SigmaParams)
    (x x' : DVec) (c : DMat) (t : T) (hx : Vec J x x')
    (ops ops' : List (Op T DVec DMat K (Env K NonlinSysData X NonlinMeasData Y × SigmaParams)))
    (hops : List.Forall₂ (Call J Jz fun e e' => EnvSame J Jz e.1 e'.1 ∧ e'.2 = e.2) ops ops') :
    SameOutcome J
      ((Filter.construct (ukfPlant llt junk sc mc) params (e, sp) x c t).run (ukfPlant llt junk sc mc) sort ops)
      ((Filter.construct (ukfPlant llt junk sc mc) params (e, sp) x' c t).run (ukfPlant llt junk sc mc) sort ops') := by
  have h := (ukf_rel (T := T) llt junk hsc hsa hmc hma).run hsort
    { params := params
      state := { x := DVec.empty, covariance := DMat.empty, timestamp := TimeOps.zero,
                 prevInput := FilterInput.default (ukfPlant llt junk sc mc) }
      prevControl := DVec.empty
      prevControlCov := DMat.empty
      env := (e, sp), history := [], controlQueue := [], measQueue := [] }
    { params := params
      state := { x := DVec.empty, covariance := DMat.empty, timestamp := TimeOps.zero,
                 prevInput := FilterInput.default (ukfPlant llt junk sc mc) }
      prevControl := DVec.empty
      prevControlCov := DMat.empty
      env := (e, sp), history := [], controlQueue := [], measQueue := [] } rfl ⟨he, trivial, rfl⟩ (Or.inr ⟨rfl, rfl⟩) x c x' c t
    ⟨hx, rfl⟩ (hops.imp (fun _ _ h => call_rel (fun _ _ => by simp) h))
  exact same_result (A := fun f g => _ ∧ _) (h.mono fun f g hfg => ⟨hfg.1, ⟨hfg.2.1, hfg.2.2.1⟩, hfg.2.2.2⟩)

end theorems
end Props
end StateEstimation
