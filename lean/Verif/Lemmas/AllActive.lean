import Verif.Lemmas.VSInv
import Verif.Lemmas.UKFSize
import Verif.Lemmas.PlantSim
import Verif.Props.Kalman

/-! # With everything active, the variable-state filters are the plain ones -/

set_option linter.unusedSectionVars false

namespace StateEstimation

open Matrix

variable {T K X Y Z : Type} {n m k r c p : Nat}

theorem bind_eq' {α β : Type} {a a' : Option α} {f g : α → Option β} (h : a = a') (H : ∀ v, a = some v → f v = g v) :
    (a >>= f) = (a' >>= g) := by
  subst h
  cases a with
  | none => rfl
  | some v => exact H v rfl

section Subsets
variable {l l' : List Nat}

theorem getSubset_all (h : Selects l (id : Fin n → Fin n)) {x : DVec} (hx : x.size = n) : getSubset x l = some x := by
  obtain ⟨x, rfl⟩ := x.exists_of hx
  rw [getSubset_of h x]; rfl

theorem getSubset2_all (h : Selects l (id : Fin r → Fin r)) (h' : Selects l' (id : Fin c → Fin c)) {A : DMat} (hA : A.Is r c) :
    getSubset2 A l l' = some A := by
  obtain ⟨A, rfl⟩ := hA.exists_of
  rw [getSubset2_of h h' A]; rfl

theorem getSubsetSq_all (h : Selects l (id : Fin n → Fin n)) {A : DMat} (hA : A.Is n n) : getSubsetSq A l = some A := by
  obtain ⟨A, rfl⟩ := hA.exists_of
  rw [getSubsetSq_of h A]; rfl

theorem zeroed_all (h : Selects l (id : Fin n → Fin n)) {x : DVec} (hx : x.size = n) :
    convertSubsetToFullZeroed x l n = some x := by
  obtain ⟨x, rfl⟩ := x.exists_of hx
  obtain ⟨f, h1, h2⟩ := convertSubsetToFullZeroed_of h x
  rw [h1]
  congr 2
  funext i; exact h2.selected i

theorem full_all (h : Selects l (id : Fin n → Fin n)) {x y : DVec} (hx : x.size = n) (hy : y.size = n) :
    convertSubsetToFull x y l = some x := by
  obtain ⟨x, rfl⟩ := x.exists_of hx
  obtain ⟨y, rfl⟩ := y.exists_of hy
  obtain ⟨f, h1, h2⟩ := convertSubsetToFull_of h x y
  rw [h1]
  congr 2
  funext i; exact h2.selected i

theorem fullSq_all (h : Selects l (id : Fin n → Fin n)) {A B : DMat} (hA : A.Is n n) (hB : B.Is n n) :
    convertSubsetToFullSq A B l = some A := by
  obtain ⟨A, rfl⟩ := hA.exists_of
  obtain ⟨B, rfl⟩ := hB.exists_of
  obtain ⟨f, h1, h2⟩ := convertSubsetToFullSq_of h A B
  rw [h1]
  congr 2
  ext i j; exact h2.selected i j

theorem selects_id_length (h : Selects l (id : Fin n → Fin n)) : (if l.isEmpty then n else l.length) = n := by
  have := h.mapSize
  unfold mapSize at this
  exact this

end Subsets

/-- The lists of active states, controls and measurements select everything (empty, or all indices). -/
structure Env.AllActive {DS XS DM XM : Type} (n m : Nat) (kd : K → Nat) (e : Env K DS XS DM XM) : Prop where
  states : Selects e.sys.activeStates (id : Fin n → Fin n)
  controls : Selects e.sys.activeControls (id : Fin m → Fin m)
  meas : ∀ k, Selects (e.meas k).activeMeasurements (id : Fin (kd k) → Fin (kd k))

theorem Env.closed_allActive {DS XS DM XM : Type} [DecidableEq K] (n m : Nat) (kd : K → Nat) :
    Env.Closed (Env.AllActive n m kd : Env K DS XS DM XM → Prop) where
  of_same := fun {e} h {s} h1 h2 => by
    refine ⟨?_, ?_, h.meas⟩
    · show Selects s.fm.activeStates _
      rw [h1]; exact h.states
    · show Selects s.activeControls _
      rw [h2]; exact h.controls
  setMeas := fun {e} h j {s} h1 => by
    refine ⟨h.states, h.controls, fun i => ?_⟩
    unfold Env.setMeas
    dsimp only
    by_cases hi : i = j
    · subst hi; rw [if_pos rfl, h1]; exact h.meas i
    · rw [if_neg hi]; exact h.meas i

section Linear
variable {sc : SysClass T LinSysData X} (hsc : SysContract LinSysData.Sized sc)
  {mc : MeasClass T LinMeasData Y} (hmc : MeasContract LinMeasData.Sized mc)

include hsc in
theorem kfvsPredict_all {s : Sys LinSysData X} (hs : s.Sized LinSysData.Sized n m)
    (h1 : Selects s.activeStates (id : Fin n → Fin n)) (h2 : Selects s.activeControls (id : Fin m → Fin m))
    {x u : DVec} {cov : DMat} (hx : Estimate n x cov) (hu : u.size = m) (dt : T) (back : Sys LinSysData X → Z) :
    kfvsPredict sc s x cov u dt back = kfPredict sc s x cov u dt back := by
  unfold kfvsPredict kfPredict
  obtain ⟨s', e1, hs', hc⟩ := hs.update hsc hx.1 hu dt
  rw [e1]
  refine bind_step rfl ?_
  have h1' : Selects s'.activeStates (id : Fin n → Fin n) := by
    show Selects s'.fm.activeStates _
    rw [hc.fm]; exact h1
  have h2' : Selects s'.activeControls (id : Fin m → Fin m) := by rw [hc.activeControls]; exact h2
  refine bind_step (getSubset_all h1' hx.1) ?_
  refine bind_step (getSubset_all h2' hu) ?_
  refine bind_step (getSubsetSq_all h1' hx.2) ?_
  refine bind_step (getSubsetSq_all h1' hs'.der.1) ?_
  refine bind_step (getSubset2_all h1' h2' hs'.der.2) ?_
  refine bind_step (getSubsetSq_all h2' hs'.Rc) ?_
  refine bind_step (getSubset2_all h1' selects_nil hs'.P) ?_
  refine bind_step (getSubset2_all h1' h2' hs'.V) ?_
  refine bind_eq' rfl fun Ax hAx => bind_eq' rfl fun Bu hBu => ?_
  have ha := (DMat.mulVec_eq_some hAx).2
  have hb := (DMat.mulVec_eq_some hBu).2
  rw [hs'.der.1.1] at ha
  rw [hs'.der.2.1] at hb
  rw [hs'.states]
  refine bind_step (zeroed_all h1' ha) ?_
  refine bind_step (zeroed_all h1' hb) ?_
  refine bind_eq' rfl fun x' _ => bind_eq' rfl fun c' hc' => ?_
  have hd := propagateCov_some hc'
  rw [hs'.der.1.1] at hd
  exact bind_step (fullSq_all h1' hd hx.2) rfl

include hmc in
theorem kfvsCorrect_all {s : Sys LinSysData X} (hs : s.Sized LinSysData.Sized n m) {ms : Meas LinMeasData Y}
    (hm : ms.Sized LinMeasData.Sized n k)
    (h1 : Selects s.activeStates (id : Fin n → Fin n)) (h2 : Selects ms.activeMeasurements (id : Fin k → Fin k))
    {x z : DVec} {cov : DMat} (hx : Estimate n x cov) (hz : z.size = k) (dt : T) (back : Meas LinMeasData Y → Z) :
    kfvsCorrect sc mc s ms x cov z dt back = kfCorrect sc mc s ms x cov z dt back := by
  unfold kfvsCorrect kfCorrect
  obtain ⟨m', e1, hm', hc⟩ := hm.update hmc hx.1 dt
  rw [e1]
  refine bind_step rfl ?_
  have h2' : Selects m'.activeMeasurements (id : Fin k → Fin k) := by rw [hc.activeMeasurements]; exact h2
  refine bind_step (getSubset_all h1 hx.1) ?_
  refine bind_step (getSubsetSq_all h1 hx.2) ?_
  refine bind_step (getSubset2_all h2' h1 hm'.der) ?_
  refine bind_step (getSubsetSq_all h2' hm'.cov) ?_
  refine bind_eq' rfl fun G hG => bind_eq' rfl fun zp hzp => ?_
  have ha := (DMat.mulVec_eq_some hzp).2
  rw [hm'.der.1] at ha
  have hg := kalmanGain_some hG
  rw [hx.2.1] at hg
  rw [hs.states, show m'.measurementSize = k from hm'.meas]
  refine bind_step (zeroed_all h2' ha) ?_
  obtain ⟨dz, q1, q2⟩ := hmc.sub m' z zp hm' hz ha
  refine bind_eq' rfl fun dz' hdz' => ?_
  rw [q1] at hdz'
  injection hdz' with hdz'
  subst hdz'
  refine bind_step (getSubset_all h2' q2) ?_
  refine bind_eq' rfl fun dx hdx => ?_
  have hd := (DMat.mulVec_eq_some hdx).2
  rw [hg.1] at hd
  refine bind_step (zeroed_all h1 hd) ?_
  refine bind_eq' rfl fun x' _ => ?_
  rw [hx.1, hx.2.1]
  refine bind_eq' rfl fun c' hc' => ?_
  have he := shrinkCov_some hc'
  rw [hx.2.2] at he
  exact bind_step (fullSq_all h1 he hx.2) rfl

end Linear

section Nonlinear
variable {sc : SysClass T NonlinSysData X} (hsc : SysContract NonlinSysData.Sized sc)
  {mc : MeasClass T NonlinMeasData Y} (hmc : MeasContract NonlinMeasData.Sized mc)

include hsc in
theorem ekfvsPredict_all {s : Sys NonlinSysData X} (hs : s.Sized NonlinSysData.Sized n m)
    (h1 : Selects s.activeStates (id : Fin n → Fin n)) (h2 : Selects s.activeControls (id : Fin m → Fin m))
    {x u : DVec} {cov : DMat} (hx : Estimate n x cov) (hu : u.size = m) (dt : T) (back : Sys NonlinSysData X → Z) :
    ekfvsPredict sc s x cov u dt back = ekfPredict sc s x cov u dt back := by
  unfold ekfvsPredict ekfPredict
  obtain ⟨s', e1, hs', hc⟩ := hs.update hsc hx.1 hu dt
  rw [e1]
  refine bind_step rfl ?_
  have h1' : Selects s'.activeStates (id : Fin n → Fin n) := by
    show Selects s'.fm.activeStates _
    rw [hc.fm]; exact h1
  have h2' : Selects s'.activeControls (id : Fin m → Fin m) := by rw [hc.activeControls]; exact h2
  refine bind_step (getSubsetSq_all h1' hx.2) ?_
  refine bind_step (getSubsetSq_all h1' hs'.der.2) ?_
  refine bind_step (getSubsetSq_all h2' hs'.Rc) ?_
  refine bind_step (getSubset2_all h1' selects_nil hs'.P) ?_
  refine bind_step (getSubset2_all h1' h2' hs'.V) ?_
  refine bind_eq' rfl fun c' hc' => ?_
  have hd := propagateCov_some hc'
  rw [hs'.der.2.1] at hd
  exact bind_step (fullSq_all h1' hd hx.2) rfl

include hmc in
theorem ekfvsCorrect_all {s : Sys NonlinSysData X} (hs : s.Sized NonlinSysData.Sized n m) {ms : Meas NonlinMeasData Y}
    (hm : ms.Sized NonlinMeasData.Sized n k)
    (h1 : Selects s.activeStates (id : Fin n → Fin n)) (h2 : Selects ms.activeMeasurements (id : Fin k → Fin k))
    {x z : DVec} {cov : DMat} (hx : Estimate n x cov) (hz : z.size = k) (dt : T) (back : Meas NonlinMeasData Y → Z) :
    ekfvsCorrect sc mc s ms x cov z dt back = ekfCorrect sc mc s ms x cov z dt back := by
  unfold ekfvsCorrect ekfCorrect
  obtain ⟨m', e1, hm', hc⟩ := hm.update hmc hx.1 dt
  rw [e1]
  refine bind_step rfl ?_
  have h2' : Selects m'.activeMeasurements (id : Fin k → Fin k) := by rw [hc.activeMeasurements]; exact h2
  refine bind_step (getSubsetSq_all h1 hx.2) ?_
  refine bind_step (getSubset2_all h2' h1 hm'.der.2) ?_
  refine bind_step (getSubsetSq_all h2' hm'.cov) ?_
  refine bind_eq' rfl fun G hG => ?_
  have hg := kalmanGain_some hG
  rw [hx.2.1] at hg
  rw [hs.states]
  obtain ⟨dz, q1, q2⟩ := hmc.sub m' z m'.der.h hm' hz hm'.der.1
  refine bind_eq' rfl fun dz' hdz' => ?_
  rw [q1] at hdz'
  injection hdz' with hdz'
  subst hdz'
  refine bind_step (getSubset_all h2' q2) ?_
  refine bind_eq' rfl fun dx hdx => ?_
  have hd := (DMat.mulVec_eq_some hdx).2
  rw [hg.1] at hd
  refine bind_step (zeroed_all h1 hd) ?_
  refine bind_eq' rfl fun x' _ => ?_
  rw [hx.1, hx.2.1]
  refine bind_eq' rfl fun c' hc' => ?_
  have he := shrinkCov_some hc'
  rw [hx.2.2] at he
  exact bind_step (fullSq_all h1 he hx.2) rfl

include hsc in
theorem ukfvsPredictLoop_all {L : DMat} (hL : L.Is n n) {x u : DVec} (hx : x.size = n) (hu : u.size = m) (dt : T) :
    ∀ (fuel i : Nat) (off : DVec) (s : Sys NonlinSysData X) (pts : DMat), i + fuel = n → off.size = n →
      s.Sized NonlinSysData.Sized n m → Selects s.activeStates (id : Fin n → Fin n) →
      ukfvsPredictLoop sc L x u dt n fuel i off s pts = ukfPredictLoop sc L x u dt fuel i s pts := by
  intro fuel
  induction fuel with
  | zero => intro i off s pts _ _ _ _; rfl
  | succ fuel ih =>
    intro i off s pts hi ho hs h1
    unfold ukfvsPredictLoop ukfPredictLoop
    obtain ⟨c, a1, a2⟩ := DMat.col_is hL (j := i) (by omega)
    refine bind_eq' rfl fun c' hc' => ?_
    rw [a1] at hc'; injection hc' with hc'; subst hc'
    refine bind_step (full_all h1 a2 ho) ?_
    obtain ⟨xh, b1, b2⟩ := hsc.add s x c hs hx a2
    refine bind_eq' rfl fun c' hc' => ?_
    rw [b1] at hc'; injection hc' with hc'; subst hc'
    obtain ⟨s1, c1, c2, c3⟩ := hs.update hsc b2 hu dt
    refine bind_eq' rfl fun c' hc' => ?_
    rw [c1] at hc'; injection hc' with hc'; subst hc'
    refine bind_eq' rfl fun p1 _ => ?_
    obtain ⟨xl, e1, e2⟩ := hsc.sub s1 x c c2 hx a2
    refine bind_eq' rfl fun c' hc' => ?_
    rw [e1] at hc'; injection hc' with hc'; subst hc'
    obtain ⟨s2, f1, f2, f3⟩ := c2.update hsc e2 hu dt
    refine bind_eq' rfl fun c' hc' => ?_
    rw [f1] at hc'; injection hc' with hc'; subst hc'
    refine bind_eq' (by rw [f2.states]) fun p2 _ => ?_
    refine ih (i + 1) c s2 p2 (by omega) a2 f2 ?_
    show Selects s2.fm.activeStates _
    rw [f3.fm, c3.fm]; exact h1

theorem covLoop_congr {w : DVec} {f g : Nat → Option (DVec × DVec)} (h : ∀ i, f i = g i) : covLoop w f = covLoop w g := by
  rw [show f = g from funext h]

theorem activeStateSize_all {s : Sys NonlinSysData X} (hs : s.stateSize = n) (h1 : Selects s.activeStates (id : Fin n → Fin n)) :
    s.activeStateSize = n := by
  have := selects_id_length h1
  show (if s.fm.activeStates.isEmpty then s.fm.stateDims else s.fm.activeStates.length) = n
  rw [show s.fm.stateDims = n from hs]; exact this

theorem covLoop_get {w : DVec} {f : Nat → Option (DVec × DVec)} {A B : DMat} : ∀ (fuel i : Nat) (acc : DMat),
    covLoop w f fuel i acc = some B → acc.rows = A.rows → acc.cols = A.cols → B.rows = A.rows ∧ B.cols = A.cols := by
  intro fuel
  induction fuel with
  | zero => intro i acc h h1 h2; injection h with h; subst h; exact ⟨h1, h2⟩
  | succ fuel ih =>
    intro i acc h h1 h2
    unfold covLoop at h
    simp only [Option.bind_eq_bind, Option.bind_eq_some_iff] at h
    obtain ⟨ab, q1, wi, q2, acc', q3, q4⟩ := h
    have q5 := DMat.add_eq_some q3
    exact ih (i + 1) acc' q4 (by rw [q5.2.2.1, h1]) (by rw [q5.2.2.2, h2])

include hsc in
theorem ukfvsPredict_all {llt : DMat → Option DMat} (hllt : LltSize llt) (junk : Nat → Nat → ℝ) {s : Sys NonlinSysData X}
    (hs : s.Sized NonlinSysData.Sized n m)
    (h1 : Selects s.activeStates (id : Fin n → Fin n)) (h2 : Selects s.activeControls (id : Fin m → Fin m))
    {sp : SigmaParams} (hsp : SigmaSized n sp) {x u : DVec} {cov : DMat}
    (hx : Estimate n x cov) (hu : u.size = m) (dt : T) (back : Sys NonlinSysData X → Z) :
    ukfvsPredict llt junk sc sp s x cov u dt back = ukfPredict llt junk sc sp s x cov u dt back := by
  unfold ukfvsPredict ukfPredict
  dsimp only
  rw [activeStateSize_all hs.states h1, hs.states]
  refine bind_step (getSubset2_all h1 h1 hx.2) ?_
  refine bind_eq' rfl fun L hL => ?_
  have hLs := hllt (cov.smul (n + sp.lambda)) L n hx.2 hL
  obtain ⟨s1, c1, c2, c3⟩ := hs.update hsc hx.1 hu dt
  refine bind_eq' rfl fun c' hc' => ?_
  rw [c1] at hc'; injection hc' with hc'; subst hc'
  obtain ⟨p1, d1, d2⟩ := DMat.setCol_is (A := DMat.uninit junk n sp.num) (r := n) (c := 2 * n + 1)
    ⟨rfl, hsp.num⟩ (j := 0) (by omega) c2.der.1
  refine bind_eq' rfl fun c' hc' => ?_
  rw [d1] at hc'; injection hc' with hc'; subst hc'
  have h1' : Selects s1.activeStates (id : Fin n → Fin n) := by
    show Selects s1.fm.activeStates _
    rw [c3.fm]; exact h1
  rw [c2.states]
  refine bind_eq' (ukfvsPredictLoop_all hsc hLs hx.1 hu dt n 0 (.zero n) s1 p1 (by omega) rfl c2 h1') fun r hr => ?_
  rw [ukfvsPredictLoop_all hsc hLs hx.1 hu dt n 0 (.zero n) s1 p1 (by omega) rfl c2 h1'] at hr
  obtain ⟨s2, p2, e1, e2, e3, e4⟩ := ukfPredictLoop_is hsc s hLs hx.1 hu dt n 0 s1 p1 (by omega) c2 c3 d2
  rw [e1] at hr; injection hr with hr; subst hr
  dsimp only
  have h1'' : Selects s2.activeStates (id : Fin n → Fin n) := by
    show Selects s2.fm.activeStates _
    rw [e3.fm]; exact h1
  have h2'' : Selects s2.activeControls (id : Fin m → Fin m) := by rw [e3.activeControls]; exact h2
  obtain ⟨x', f1, f2⟩ := hsc.wsum s2 sp.wMean p2 e2 (by rw [hsp.wMean]; exact e4)
  refine bind_eq' rfl fun c' hc' => ?_
  rw [f1] at hc'; injection hc' with hc'; subst hc'
  refine bind_step (getSubsetSq_all h2'' e2.Rc) ?_
  refine bind_step (getSubset2_all h1'' selects_nil e2.P) ?_
  refine bind_step (getSubset2_all h1'' h2'' e2.V) ?_
  obtain ⟨cov1, g1, g2⟩ := noiseCov_is e2.P e2.Rp e2.V e2.Rc
  refine bind_eq' rfl fun c' hc' => ?_
  rw [g1] at hc'; injection hc' with hc'; subst hc'
  have hloop : ∀ i, (do
      let c ← p2.col? i
      let dx ← sc.sub s2 c x'
      let dxS ← getSubset dx s2.activeStates
      some (dxS, dxS)) = (do
      let c ← p2.col? i
      let dx ← sc.sub s2 c x'
      some (dx, dx)) := by
    intro i
    refine bind_eq' rfl fun cc hcc => bind_eq' rfl fun dx hdx => ?_
    by_cases hi : i < 2 * n + 1
    · obtain ⟨v, k1, k2⟩ := DMat.col_is e4 hi
      rw [k1] at hcc; injection hcc with hcc; subst hcc
      obtain ⟨d, l1, l2⟩ := hsc.sub s2 v x' e2 k2 f2
      rw [l1] at hdx; injection hdx with hdx; subst hdx
      exact bind_step (getSubset_all h1'' l2) rfl
    · unfold DMat.col? at hcc
      rw [dif_neg (by rw [e4.2]; exact hi)] at hcc; cases hcc
  rw [covLoop_congr hloop]
  refine bind_eq' rfl fun cov2 hcov2 => ?_
  have := covLoop_get (A := cov1) _ _ _ hcov2 rfl rfl
  exact bind_step (fullSq_all h1'' ⟨by rw [this.1, g2.1], by rw [this.2, g2.2]⟩ hx.2) rfl

include hsc hmc in
theorem ukfvsCorrectLoop_all {s : Sys NonlinSysData X} (hs : s.Sized NonlinSysData.Sized n m)
    (h1 : Selects s.activeStates (id : Fin n → Fin n))
    {L : DMat} (hL : L.Is n n) {x : DVec} (hx : x.size = n) (dt : T) :
    ∀ (fuel i : Nat) (off : DVec) (ms : Meas NonlinMeasData Y) (pts obs : DMat), i + fuel = n → off.size = n →
      ms.Sized NonlinMeasData.Sized n k →
      ukfvsCorrectLoop sc mc s L x dt fuel i off ms pts obs = ukfCorrectLoop sc mc s L x dt fuel i ms pts obs := by
  intro fuel
  induction fuel with
  | zero => intro i off ms pts obs _ _ _; rfl
  | succ fuel ih =>
    intro i off ms pts obs hi ho hms
    unfold ukfvsCorrectLoop ukfCorrectLoop
    rw [activeStateSize_all hs.states h1, hs.states]
    obtain ⟨c, a1, a2⟩ := DMat.col_is hL (j := i) (by omega)
    refine bind_eq' rfl fun c' hc' => ?_
    rw [a1] at hc'; injection hc' with hc'; subst hc'
    refine bind_step (full_all h1 a2 ho) ?_
    refine bind_eq' rfl fun xh _ => bind_eq' rfl fun p1 _ => bind_eq' rfl fun q1 hq1 => ?_
    refine bind_eq' rfl fun m1 hm1 => bind_eq' rfl fun o1 _ => bind_eq' rfl fun xl _ => bind_eq' rfl fun p2 _ =>
      bind_eq' rfl fun q2 hq2 => bind_eq' rfl fun m2 hm2 => bind_eq' rfl fun o2 _ => ?_
    have hsz : ∀ (a b : Meas NonlinMeasData Y) (q : DVec), a.Sized NonlinMeasData.Sized n k → a.update mc q dt = some b →
        b.Sized NonlinMeasData.Sized n k := by
      intro a b q ha hb
      have hq : q.size = n := by
        unfold Meas.update at hb
        by_cases hq : q.size = a.stateSize
        · rw [hq]; exact ha.states
        · rw [if_neg hq] at hb; cases hb
      obtain ⟨b', w1, w2, _⟩ := ha.update hmc hq dt
      rw [w1] at hb; injection hb with hb; subst hb; exact w2
    exact ih (i + 1) c m2 p2 o2 (by omega) a2 (hsz _ _ _ (hsz _ _ _ hms hm1) hm2)

include hsc hmc in
theorem ukfvsCorrect_all {llt : DMat → Option DMat} (hllt : LltSize llt) (junk : Nat → Nat → ℝ) {s : Sys NonlinSysData X}
    (hs : s.Sized NonlinSysData.Sized n m) {ms : Meas NonlinMeasData Y} (hms : ms.Sized NonlinMeasData.Sized n k)
    (h1 : Selects s.activeStates (id : Fin n → Fin n)) (h2 : Selects ms.activeMeasurements (id : Fin k → Fin k))
    {sp : SigmaParams} (hsp : SigmaSized n sp) {x z : DVec} {cov : DMat}
    (hx : Estimate n x cov) (hz : z.size = k) (dt : T) (back : Meas NonlinMeasData Y → Z) :
    ukfvsCorrect llt junk sc mc sp s ms x cov z dt back = ukfCorrect llt junk sc mc sp s ms x cov z dt back := by
  unfold ukfvsCorrect ukfCorrect
  dsimp only
  rw [activeStateSize_all hs.states h1, hs.states]
  refine bind_step (getSubsetSq_all h1 hx.2) ?_
  refine bind_eq' rfl fun L hL => ?_
  have hLs := hllt (cov.smul (n + sp.lambda)) L n hx.2 hL
  obtain ⟨p1, d1, d2⟩ := DMat.setCol_is (A := DMat.uninit junk n sp.num) (r := n) (c := 2 * n + 1)
    ⟨rfl, hsp.num⟩ (j := 0) (by omega) hx.1
  refine bind_eq' rfl fun c' hc' => ?_
  rw [d1] at hc'; injection hc' with hc'; subst hc'
  obtain ⟨m1, c1, c2, c3⟩ := hms.update hmc hx.1 dt
  refine bind_eq' rfl fun c' hc' => ?_
  rw [c1] at hc'; injection hc' with hc'; subst hc'
  obtain ⟨o1, o2, o3⟩ := DMat.setCol_is (A := DMat.uninit junk ms.measurementSize sp.num) (r := k) (c := 2 * n + 1)
    ⟨hms.meas, hsp.num⟩ (j := 0) (by omega) c2.der.1
  refine bind_eq' rfl fun c' hc' => ?_
  rw [o2] at hc'; injection hc' with hc'; subst hc'
  obtain ⟨m2, p2, obs2, e1, e2, e3, e4, e5⟩ := ukfCorrectLoop_is hsc hmc hs ms hLs hx.1 dt n 0 m1 p1 o1 (by omega) c2 c3 d2 o3
  have hl := ukfvsCorrectLoop_all hsc hmc hs h1 hLs hx.1 dt n 0 (.zero n) m1 p1 o1 (by omega) rfl c2
  refine bind_eq' hl fun r hr => ?_
  rw [hl, e1] at hr; injection hr with hr; subst hr
  dsimp only
  have h2' : Selects m2.activeMeasurements (id : Fin k → Fin k) := by rw [e3.activeMeasurements]; exact h2
  obtain ⟨zp, f1, f2⟩ := hmc.wsum m2 sp.wMean obs2 e2 (by rw [hsp.wMean]; exact e5)
  refine bind_eq' rfl fun c' hc' => ?_
  rw [f1] at hc'; injection hc' with hc'; subst hc'
  refine bind_step (getSubsetSq_all h2' e2.cov) ?_
  have hloop1 : ∀ i, (do
      let c ← obs2.col? i
      let dz ← mc.sub m2 c zp
      let dzS ← getSubset dz m2.activeMeasurements
      some (dzS, dzS)) = (do
      let c ← obs2.col? i
      let dz ← mc.sub m2 c zp
      some (dz, dz)) := by
    intro i
    refine bind_eq' rfl fun cc hcc => bind_eq' rfl fun dx hdx => ?_
    by_cases hi : i < 2 * n + 1
    · obtain ⟨v, k1, k2⟩ := DMat.col_is e5 hi
      rw [k1] at hcc; injection hcc with hcc; subst hcc
      obtain ⟨d, l1, l2⟩ := hmc.sub m2 v zp e2 k2 f2
      rw [l1] at hdx; injection hdx with hdx; subst hdx
      exact bind_step (getSubset_all h2' l2) rfl
    · unfold DMat.col? at hcc
      rw [dif_neg (by rw [e5.2]; exact hi)] at hcc; cases hcc
  have hloop2 : ∀ i, (do
      let p ← p2.col? i
      let p0 ← p2.col? 0
      let dx ← sc.sub s p p0
      let dxS ← getSubset dx s.activeStates
      let c ← obs2.col? i
      let dz ← mc.sub m2 c zp
      let dzS ← getSubset dz m2.activeMeasurements
      some (dxS, dzS)) = (do
      let p ← p2.col? i
      let p0 ← p2.col? 0
      let dx ← sc.sub s p p0
      let c ← obs2.col? i
      let dz ← mc.sub m2 c zp
      some (dx, dz)) := by
    intro i
    refine bind_eq' rfl fun pp hpp => bind_eq' rfl fun p0 hp0 => bind_eq' rfl fun dx hdx => ?_
    by_cases hi : i < 2 * n + 1
    · obtain ⟨v, k1, k2⟩ := DMat.col_is e4 hi
      rw [k1] at hpp; injection hpp with hpp; subst hpp
      obtain ⟨v0, j1, j2⟩ := DMat.col_is e4 (j := 0) (by omega)
      rw [j1] at hp0; injection hp0 with hp0; subst hp0
      obtain ⟨d, l1, l2⟩ := hsc.sub s v v0 hs k2 j2
      rw [l1] at hdx; injection hdx with hdx; subst hdx
      refine bind_step (getSubset_all h1 l2) ?_
      refine bind_eq' rfl fun cc hcc => bind_eq' rfl fun dz hdz => ?_
      obtain ⟨v', k1', k2'⟩ := DMat.col_is e5 hi
      rw [k1'] at hcc; injection hcc with hcc; subst hcc
      obtain ⟨d', l1', l2'⟩ := hmc.sub m2 v' zp e2 k2' f2
      rw [l1'] at hdz; injection hdz with hdz; subst hdz
      exact bind_step (getSubset_all h2' l2') rfl
    · unfold DMat.col? at hpp
      rw [dif_neg (by rw [e4.2]; exact hi)] at hpp; cases hpp
  rw [covLoop_congr hloop1, covLoop_congr hloop2]
  refine bind_eq' rfl fun S hS => ?_
  have hk : m2.activeMeasurementSize = k := by
    have := selects_id_length h2'
    show (if m2.activeMeasurements.isEmpty then m2.measDims else m2.activeMeasurements.length) = k
    rw [e2.meas]; exact this
  rw [hk, e2.states, show m2.measurementSize = k from e2.meas]
  refine bind_eq' rfl fun cr hcr => ?_
  have hcr' := covLoop_get (A := DMat.zero n k) _ _ _ hcr rfl rfl
  have hS' := covLoop_get (A := m2.cov) _ _ _ hS rfl rfl
  refine bind_eq' rfl fun Si _ => bind_eq' rfl fun G hG => ?_
  obtain ⟨dz, q1, q2⟩ := hmc.sub m2 z zp e2 hz f2
  refine bind_eq' rfl fun c' hc' => ?_
  rw [q1] at hc'; injection hc' with hc'; subst hc'
  refine bind_step (getSubset_all h2' q2) ?_
  refine bind_eq' rfl fun dx hdx => ?_
  have hGr : G.rows = n := by rw [(DMat.mul_eq_some hG).2.1, hcr'.1]; rfl
  have hdx' : dx.size = n := by rw [(DMat.mulVec_eq_some hdx).2, hGr]
  refine bind_step (zeroed_all h1 hdx') ?_
  refine bind_eq' rfl fun x' _ => bind_eq' rfl fun GS _ => bind_eq' rfl fun GSG _ => bind_eq' rfl fun cov' hcov' => ?_
  have hb := DMat.sub_eq_some hcov'
  exact bind_step (fullSq_all h1 ⟨by rw [hb.2.2.1, hx.2.1], by rw [hb.2.2.2, hx.2.2]⟩ hx.2) rfl

end Nonlinear

end StateEstimation
