import Verif.Lemmas.PlantSim
import Verif.Lemmas.Numeric
import Verif.Model.KF
import Verif.Examples.Linear
import Verif.Lemmas.KFSteps

/-!
# C33: on linear models the EKF is the Kalman filter

`LinearSys lsc nsc RS`: the nonlinear class `nsc` computes, on corresponding objects, the same thing as the linear class
`lsc`: `g() = A x + B u` and `G = A`.
-/

set_option linter.unusedSectionVars false

namespace StateEstimation

variable {T K X X' Y Y' : Type}

/-- The nonlinear system model class `nsc` is the linear one `lsc` in disguise (`RS` says which objects correspond): its
`update` succeeds exactly when the linear one and the product `A x + B u` do, and then `g() = A x + B u` and `G = A`. -/
structure LinearSys (lsc : SysClass T LinSysData X) (nsc : SysClass T NonlinSysData X')
    (RS : Sys LinSysData X → Sys NonlinSysData X' → Prop) : Prop where
  config : ∀ s s', RS s s' → s.fm = s'.fm ∧ s.controlDims = s'.controlDims ∧ s.Rp = s'.Rp ∧ s.Rc = s'.Rc
  setRc : ∀ s s' R, RS s s' → R.Is s.controlDims s.controlDims → RS { s with Rc := R } { s' with Rc := R }
  update : ∀ s s' x u dt, RS s s' → x.size = s.stateSize → u.size = s.controlDims →
    OptRel False (fun r t' => RS r.1 t' ∧ t'.der.g = r.2 ∧ t'.der.G = r.1.der.A ∧ t'.P = r.1.P ∧ t'.V = r.1.V)
      (do let t ← lsc.myUpdate s x u dt
          let Ax ← t.der.A.mulVec x
          let Bu ← t.der.B.mulVec u
          let y ← lsc.add t Ax Bu
          some (t, y))
      (nsc.myUpdate s' x u dt)
  add : ∀ s s' a b, RS s s' → lsc.add s a b = nsc.add s' a b
  stationary : ∀ s s' x u, RS s s' → OptRel False RS (lsc.processStationary s x u) (nsc.processStationary s' x u)

/-- The nonlinear measurement model class `nmc` is the linear one: `h() = C x`, `H = C`. -/
structure LinearMeas (lmc : MeasClass T LinMeasData Y) (nmc : MeasClass T NonlinMeasData Y')
    (RM : Meas LinMeasData Y → Meas NonlinMeasData Y' → Prop) : Prop where
  config : ∀ s s', RM s s' → s.fm = s'.fm ∧ s.measDims = s'.measDims ∧ s.cov = s'.cov
  setCov : ∀ s s' R, RM s s' → R.Is s.measDims s.measDims → RM { s with cov := R } { s' with cov := R }
  update : ∀ s s' x dt, RM s s' → x.size = s.stateSize →
    OptRel False (fun r t' => RM r.1 t' ∧ t'.der.h = r.2 ∧ t'.der.H = r.1.der.C)
      (do let t ← lmc.myUpdate s x dt
          let y ← t.der.C.mulVec x
          some (t, y))
      (nmc.myUpdate s' x dt)
  sub : ∀ s s' a b, RM s s' → lmc.sub s a b = nmc.sub s' a b
  stationary : ∀ s s' x z, RM s s' → OptRel False RM (lmc.processStationary s x z) (nmc.processStationary s' x z)

/-- All model objects correspond. -/
def LinearEnv (RS : Sys LinSysData X → Sys NonlinSysData X' → Prop)
    (RM : K → Meas LinMeasData Y → Meas NonlinMeasData Y' → Prop)
    (e : Env K LinSysData X LinMeasData Y) (e' : Env K NonlinSysData X' NonlinMeasData Y') : Prop :=
  RS e.sys e'.sys ∧ ∀ k, RM k (e.meas k) (e'.meas k)

variable [DecidableEq K]

theorem LinearEnv.setMeas {RS : Sys LinSysData X → Sys NonlinSysData X' → Prop}
    {RM : K → Meas LinMeasData Y → Meas NonlinMeasData Y' → Prop}
    {e : Env K LinSysData X LinMeasData Y} {e' : Env K NonlinSysData X' NonlinMeasData Y'} (h : LinearEnv RS RM e e')
    (k : K) {s s'} (hs : RM k s s') : LinearEnv RS RM (e.setMeas k s) (e'.setMeas k s') := by
  refine ⟨h.1, fun j => ?_⟩
  unfold Env.setMeas
  dsimp only
  by_cases hj : j = k
  · subst hj; rw [if_pos rfl, if_pos rfl]; exact hs
  · rw [if_neg hj, if_neg hj]; exact h.2 j

theorem linear_plantSim {lsc : SysClass T LinSysData X} {nsc : SysClass T NonlinSysData X'} {RS}
    (hS : LinearSys lsc nsc RS) {lmc : K → MeasClass T LinMeasData Y} {nmc : K → MeasClass T NonlinMeasData Y'}
    {RM : K → Meas LinMeasData Y → Meas NonlinMeasData Y' → Prop} (hM : ∀ k, LinearMeas (lmc k) (nmc k) (RM k)) [TimeOps T] :
    PlantSim (kfPlant lsc lmc) (ekfPlant nsc nmc) False (fun _ _ => True) (LinearEnv RS RM) (fun _ => True) (fun _ => True)
      (fun _ _ _ => True) where
  vsize := rfl
  emptyV := rfl
  zeroV := rfl
  empty := rfl
  controlSize e e' h := (hS.config _ _ h.1).2.1
  rc e e' h := ⟨(hS.config _ _ h.1).2.2.2, trivial⟩
  zero _ _ _ := trivial
  setRc e e' c h _ := by
    show OptRel False _ ((e.sys.setControlCovariance c).map _) ((e'.sys.setControlCovariance c).map _)
    unfold Sys.setControlCovariance
    have hc := (hS.config _ _ h.1).2.1
    by_cases hz : c.rows = e.sys.controlDims ∧ c.cols = e.sys.controlDims
    · rw [if_pos hz, if_pos (by rw [← hc]; exact hz)]
      exact ⟨hS.setRc _ _ c h.1 hz, h.2⟩
    · rw [if_neg hz, if_neg (by rw [← hc]; exact hz)]
      exact id
  sysSt e e' x c d h _ := by
    show (e.sys.fm.checkStationary && e.sys.fm.isStationary x d) = (e'.sys.fm.checkStationary && e'.sys.fm.isStationary x d)
    rw [(hS.config _ _ h.1).1]
  predict e e' x c u dt h _ _ := by
    show OptRel False _ (kfPredict lsc e.sys x c u dt _) (ekfPredict nsc e'.sys x c u dt _)
    unfold kfPredict ekfPredict Sys.update
    have hc := hS.config _ _ h.1
    have h1 : e'.sys.stateSize = e.sys.stateSize := by unfold Sys.stateSize; rw [hc.1]
    by_cases hsz : x.size = e.sys.stateSize ∧ u.size = e.sys.controlDims
    · rw [if_pos hsz, if_pos (by rw [h1, ← hc.2.1]; exact hsz)]
      have hu := hS.update e.sys e'.sys x u dt h.1 hsz.1 hsz.2
      have e1 : ∀ back : Sys LinSysData X → Env K LinSysData X LinMeasData Y, (do
          let s ← lsc.myUpdate e.sys x u dt
          let Ax ← s.der.A.mulVec x
          let Bu ← s.der.B.mulVec u
          let x' ← lsc.add s Ax Bu
          let cov' ← propagateCov s.der.A c s.P s.Rp s.V s.Rc
          some (x', cov', back s)) = (do
          let r ← (do let t ← lsc.myUpdate e.sys x u dt
                      let Ax ← t.der.A.mulVec x
                      let Bu ← t.der.B.mulVec u
                      let y ← lsc.add t Ax Bu
                      some (t, y))
          let cov' ← propagateCov r.1.der.A c r.1.P r.1.Rp r.1.V r.1.Rc
          some (r.2, cov', back r.1)) := by
        intro back
        simp only [Option.bind_eq_bind, Option.bind_assoc, Option.bind_some]
      rw [e1]
      generalize (do let t ← lsc.myUpdate e.sys x u dt
                     let Ax ← t.der.A.mulVec x
                     let Bu ← t.der.B.mulVec u
                     let y ← lsc.add t Ax Bu
                     some (t, y)) = o1 at hu ⊢
      generalize nsc.myUpdate e'.sys x u dt = o2 at hu ⊢
      rcases OptRel.elim hu with ⟨rfl, rfl, _⟩ | ⟨⟨t, y⟩, t', rfl, rfl, k1, k2, k3, k4, k5⟩
      · exact id
      · dsimp only at k1 k2 k3 k4 k5
        have hc' := hS.config _ _ k1
        simp only [Option.bind_eq_bind, Option.bind_some, k2, k3, k4, k5, ← hc'.2.2.1, ← hc'.2.2.2]
        cases propagateCov t.der.A c t.P t.Rp t.V t.Rc with
        | none => exact id
        | some r => exact ⟨rfl, rfl, trivial, k1, h.2⟩
    · rw [if_neg hsz, if_neg (by rw [h1, ← hc.2.1]; exact hsz)]
      exact id
  sysStationary e e' x c d h _ _ := by
    show OptRel False _ ((lsc.processStationary e.sys x d).map _) ((nsc.processStationary e'.sys x d).map _)
    refine OptRel.map (hS.stationary _ _ x d h.1) ?_
    intro t t' ht
    refine ⟨⟨ht, h.2⟩, ?_⟩
    show OptRel False _ (t.fm.makeStationary x c) (t'.fm.makeStationary x c)
    rw [(hS.config _ _ ht).1]
    cases t'.fm.makeStationary x c with
    | none => exact id
    | some r => exact ⟨rfl, trivial⟩
  setMeasCov e e' k z c h _ := by
    show OptRel False _ (((e.meas k).setCovariance c).map _) (((e'.meas k).setCovariance c).map _)
    unfold Meas.setCovariance
    have hc := (hM k).config _ _ (h.2 k)
    by_cases hsz : c.rows = (e.meas k).measDims ∧ c.cols = (e.meas k).measDims
    · rw [if_pos hsz, if_pos (by rw [← hc.2.1]; exact hsz)]
      have h0 : LinearEnv RS RM (e.setMeas k { e.meas k with cov := c }) (e'.setMeas k { e'.meas k with cov := c }) :=
        h.setMeas k ((hM k).setCov _ _ c (h.2 k) hsz)
      refine ⟨h0, ?_, ?_, ?_⟩
      · intro x p _
        show (((e.setMeas k { e.meas k with cov := c }).meas k).fm.checkStationary &&
            ((e.setMeas k { e.meas k with cov := c }).meas k).fm.isStationary x z)
          = (((e'.setMeas k { e'.meas k with cov := c }).meas k).fm.checkStationary &&
            ((e'.setMeas k { e'.meas k with cov := c }).meas k).fm.isStationary x z)
        rw [((hM k).config _ _ (h0.2 k)).1]
      · intro x p dt _
        generalize e.setMeas k { e.meas k with cov := c } = q at h0 ⊢
        generalize e'.setMeas k { e'.meas k with cov := c } = q' at h0 ⊢
        show OptRel False _ (kfCorrect lsc (lmc k) q.sys (q.meas k) x p z dt (q.setMeas k))
          (ekfCorrect nsc (nmc k) q'.sys (q'.meas k) x p z dt (q'.setMeas k))
        unfold kfCorrect ekfCorrect Meas.update
        have hc2 := (hM k).config _ _ (h0.2 k)
        have h1 : (q'.meas k).stateSize = (q.meas k).stateSize := by unfold Meas.stateSize; rw [hc2.1]
        by_cases hx : x.size = (q.meas k).stateSize
        · rw [if_pos hx, if_pos (by rw [h1]; exact hx)]
          have hu := (hM k).update (q.meas k) (q'.meas k) x dt (h0.2 k) hx
          generalize (lmc k).myUpdate (q.meas k) x dt = o1 at hu ⊢
          generalize (nmc k).myUpdate (q'.meas k) x dt = o2 at hu ⊢
          cases o1 with
          | none =>
            cases o2 with
            | none => exact id
            | some t' => exact absurd hu id
          | some t =>
            simp only [Option.bind_eq_bind, Option.bind_some] at hu ⊢
            cases hy : t.der.C.mulVec x with
            | none =>
              rw [hy] at hu
              cases o2 with
              | none =>
                cases kalmanGain p t.der.C t.cov with
                | none => exact id
                | some G => exact id
              | some t' => exact absurd hu id
            | some y =>
              rw [hy] at hu
              cases o2 with
              | none => exact absurd hu id
              | some t' =>
                obtain ⟨k1, k2, k3⟩ := hu
                dsimp only at k1 k2 k3
                have hc' := (hM k).config _ _ k1
                simp only [Option.bind_some, k2, k3, (hM k).sub _ _ _ _ k1, hS.add _ _ _ _ h0.1, ← hc'.2.2]
                cases kalmanGain p t.der.C t.cov with
                | none => exact id
                | some G =>
                  simp only [Option.bind_some]
                  cases (nmc k).sub t' z y with
                  | none => exact id
                  | some dz =>
                    simp only [Option.bind_some]
                    cases G.mulVec dz with
                    | none => exact id
                    | some dx =>
                      simp only [Option.bind_some]
                      cases nsc.add q'.sys x dx with
                      | none => exact id
                      | some x' =>
                        simp only [Option.bind_some]
                        cases shrinkCov x.size G t.der.C p with
                        | none => exact id
                        | some r => exact ⟨rfl, rfl, trivial, h0.setMeas k k1⟩
        · rw [if_neg hx, if_neg (by rw [h1]; exact hx)]
          exact id
      · intro x p _
        generalize e.setMeas k { e.meas k with cov := c } = q at h0 ⊢
        generalize e'.setMeas k { e'.meas k with cov := c } = q' at h0 ⊢
        show OptRel False _ (((lmc k).processStationary (q.meas k) x z).map _)
          (((nmc k).processStationary (q'.meas k) x z).map _)
        refine OptRel.map ((hM k).stationary _ _ x z (h0.2 k)) ?_
        intro t t' ht
        have h3 := h0.setMeas k ht
        refine ⟨h3, ?_⟩
        show OptRel False _ (((q.setMeas k t).meas k).fm.makeStationary x p) (((q'.setMeas k t').meas k).fm.makeStationary x p)
        rw [((hM k).config _ _ (h3.2 k)).1]
        cases ((q'.setMeas k t').meas k).fm.makeStationary x p with
        | none => exact id
        | some r => exact ⟨rfl, trivial⟩
    · rw [if_neg hsz, if_neg (by rw [← hc.2.1]; exact hsz)]
      exact id

/-! ### Wrapping a linear model as a nonlinear one -/

/-- Forget the wrapping. -/
def Sys.toLinear (s : Sys NonlinSysData (LinSysData × X)) : Sys LinSysData X :=
  { fm := s.fm, controlDims := s.controlDims, activeControls := s.activeControls, controlUsage := s.controlUsage, Rp := s.Rp,
    Rc := s.Rc, P := s.P, V := s.V, der := s.ext.1, ext := s.ext.2 }

/-- Forget the wrapping. -/
def Meas.toLinear (s : Meas NonlinMeasData (LinMeasData × Y)) : Meas LinMeasData Y :=
  { fm := s.fm, measDims := s.measDims, activeMeasurements := s.activeMeasurements, measurementUsage := s.measurementUsage,
    cov := s.cov, der := s.ext.1, ext := s.ext.2 }

/-- A user's nonlinear class that calls a linear one: `x_pred_ = A x + B u`, `G_ = A`. -/
def SysClass.asNonlinear (c : SysClass T LinSysData X) : SysClass T NonlinSysData (LinSysData × X) where
  myUpdate s x u dt := do
    let t ← c.myUpdate s.toLinear x u dt
    let Ax ← t.der.A.mulVec x
    let Bu ← t.der.B.mulVec u
    let g ← c.add t Ax Bu
    some { fm := t.fm, controlDims := t.controlDims, activeControls := t.activeControls, controlUsage := t.controlUsage,
           Rp := t.Rp, Rc := t.Rc, P := t.P, V := t.V, der := ⟨g, t.der.A⟩, ext := (t.der, t.ext) }
  add s := c.add s.toLinear
  sub s := c.sub s.toLinear
  wsum s := c.wsum s.toLinear
  processStationary s x u := do
    let t ← c.processStationary s.toLinear x u
    some { fm := t.fm, controlDims := t.controlDims, activeControls := t.activeControls, controlUsage := t.controlUsage,
           Rp := t.Rp, Rc := t.Rc, P := t.P, V := t.V, der := s.der, ext := (t.der, t.ext) }

/-- Same for measurements: `z_pred_ = C x`, `H_ = C`. -/
def MeasClass.asNonlinear (c : MeasClass T LinMeasData Y) : MeasClass T NonlinMeasData (LinMeasData × Y) where
  myUpdate s x dt := do
    let t ← c.myUpdate s.toLinear x dt
    let h ← t.der.C.mulVec x
    some { fm := t.fm, measDims := t.measDims, activeMeasurements := t.activeMeasurements,
           measurementUsage := t.measurementUsage, cov := t.cov, der := ⟨h, t.der.C⟩, ext := (t.der, t.ext) }
  sub s := c.sub s.toLinear
  wsum s := c.wsum s.toLinear
  processStationary s x z := do
    let t ← c.processStationary s.toLinear x z
    some { fm := t.fm, measDims := t.measDims, activeMeasurements := t.activeMeasurements,
           measurementUsage := t.measurementUsage, cov := t.cov, der := s.der, ext := (t.der, t.ext) }

/-- The wrapped class is linear. -/
theorem asNonlinear_sys (c : SysClass T LinSysData X) : LinearSys c c.asNonlinear (fun s s' => s = s'.toLinear) where
  config := by rintro _ s rfl; exact ⟨rfl, rfl, rfl, rfl⟩
  setRc := by rintro _ s R rfl _; rfl
  update := by
    rintro _ s x u dt rfl _ _
    simp only [SysClass.asNonlinear, Option.bind_eq_bind]
    cases c.myUpdate s.toLinear x u dt with
    | none => exact id
    | some t =>
      simp only [Option.bind_some]
      cases t.der.A.mulVec x with
      | none => exact id
      | some Ax =>
        simp only [Option.bind_some]
        cases t.der.B.mulVec u with
        | none => exact id
        | some Bu =>
          simp only [Option.bind_some]
          cases c.add t Ax Bu with
          | none => exact id
          | some y => exact ⟨rfl, rfl, rfl, rfl, rfl⟩
  add := by rintro _ s a b rfl; rfl
  stationary := by
    rintro _ s x u rfl
    simp only [SysClass.asNonlinear, Option.bind_eq_bind]
    cases c.processStationary s.toLinear x u with
    | none => exact id
    | some t => exact rfl

/-- The wrapped class is linear. -/
theorem asNonlinear_meas (c : MeasClass T LinMeasData Y) : LinearMeas c c.asNonlinear (fun s s' => s = s'.toLinear) where
  config := by rintro _ s rfl; exact ⟨rfl, rfl, rfl⟩
  setCov := by rintro _ s R rfl _; rfl
  update := by
    rintro _ s x dt rfl _
    simp only [MeasClass.asNonlinear, Option.bind_eq_bind]
    cases c.myUpdate s.toLinear x dt with
    | none => exact id
    | some t =>
      simp only [Option.bind_some]
      cases t.der.C.mulVec x with
      | none => exact id
      | some y => exact ⟨rfl, rfl, rfl⟩
  sub := by rintro _ s a b rfl; rfl
  stationary := by
    rintro _ s x u rfl
    simp only [MeasClass.asNonlinear, Option.bind_eq_bind]
    cases c.processStationary s.toLinear x u with
    | none => exact id
    | some t => exact rfl

namespace Props

/-- API calls with the same arguments; a measurement comes with a model; user changes to the models keep the
correspondence. -/
abbrev SameCall [TimeOps T] (RS : Sys LinSysData X → Sys NonlinSysData X' → Prop)
    (RM : K → Meas LinMeasData Y → Meas NonlinMeasData Y' → Prop) (lsc : SysClass T LinSysData X)
    (lmc : K → MeasClass T LinMeasData Y) :
    Op T DVec DMat K (Env K LinSysData X LinMeasData Y) → Op T DVec DMat K (Env K NonlinSysData X' NonlinMeasData Y') → Prop :=
  OpSame (kfPlant lsc lmc) False (fun _ _ => True) (LinearEnv RS RM) (fun _ => True) (fun _ _ _ => True)

/-- **C33.**  A Kalman filter with linear models and an EKF whose nonlinear models are those linear models in disguise,
constructed with the same parameters and initial estimate: every sequence of API calls (any time stamps, rewinds, queues,
parameters, sizes) fails on both or succeeds on both, and then all remembered states, covariances and time stamps are
equal. -/
theorem C33_ekf_eq_kf [TimeOps T] [SaneTime T] {lsc : SysClass T LinSysData X} {nsc : SysClass T NonlinSysData X'} {RS}
    (hS : LinearSys lsc nsc RS) {lmc : K → MeasClass T LinMeasData Y} {nmc : K → MeasClass T NonlinMeasData Y'}
    {RM : K → Meas LinMeasData Y → Meas NonlinMeasData Y' → Prop} (hM : ∀ k, LinearMeas (lmc k) (nmc k) (RM k))
    (sort : List (FilterInput T DVec DMat K) → List (FilterInput T DVec DMat K)) (hsort : ∀ l, (sort l).Perm l)
    (params : Params T) (e : Env K LinSysData X LinMeasData Y) (e' : Env K NonlinSysData X' NonlinMeasData Y')
    (he : LinearEnv RS RM e e') (x : DVec) (c : DMat) (t : T)
    {ops : List (Op T DVec DMat K (Env K LinSysData X LinMeasData Y))}
    {ops' : List (Op T DVec DMat K (Env K NonlinSysData X' NonlinMeasData Y'))}
    (hops : List.Forall₂ (SameCall RS RM lsc lmc) ops ops') :
    match (Filter.construct (kfPlant lsc lmc) params e x c t).run (kfPlant lsc lmc) sort ops,
          (Filter.construct (ekfPlant nsc nmc) params e' x c t).run (ekfPlant nsc nmc) sort ops' with
    | none, none => True
    | some g, some g' =>
        g.retained.map (fun s => (s.x, s.covariance, s.timestamp)) = g'.retained.map (fun s => (s.x, s.covariance, s.timestamp))
    | _, _ => False := by
  have h := (linear_plantSim hS hM).run sort hsort
    { params := params, state := (Filter.construct (kfPlant lsc lmc) params e x c t).state, history := [],
      prevControl := DVec.empty, prevControlCov := DMat.empty, controlQueue := [], measQueue := [], env := e }
    { params := params, state := (Filter.construct (ekfPlant nsc nmc) params e' x c t).state, history := [],
      prevControl := DVec.empty, prevControlCov := DMat.empty, controlQueue := [], measQueue := [], env := e' }
    rfl he rfl rfl (fun h => ⟨trivial, trivial⟩) x c t trivial hops
  have h' : OptRel False _ ((Filter.construct (kfPlant lsc lmc) params e x c t).run (kfPlant lsc lmc) sort ops)
      ((Filter.construct (ekfPlant nsc nmc) params e' x c t).run (ekfPlant nsc nmc) sort ops') := h
  rcases OptRel.elim h' with ⟨h1, h2, _⟩ | ⟨g, g', h1, h2, h3⟩
  · rw [h1, h2]; trivial
  · rw [h1, h2]; exact h3.2.2.2.2

open Examples in
/-- Non-vacuity: the constant-velocity model, wrapped. -/
example (ops) (ops') (hops : List.Forall₂ (SameCall (K := Unit) (T := ℝ) (fun s s' => s = s'.toLinear)
      (fun _ s s' => s = s'.toLinear) cvClass (fun _ => posClass)) ops ops') :=
  C33_ekf_eq_kf (asNonlinear_sys cvClass) (fun _ : Unit => asNonlinear_meas posClass) (fun l => l) (fun _ => .refl _)
    { allowPast := true, rewindHistory := true, historyWindow := 5 } cvEnv
    { sys := Sys.constructNonlinear 2 1 2 (⟨.zero 2 2, .zero 2 1⟩, ()), meas := fun _ => Meas.constructNonlinear 2 1 (⟨.zero 1 2⟩, ()) }
    ⟨rfl, fun _ => rfl⟩ (.zero 2) (.identity 2) 0 hops

open Examples in
example : List.Forall₂ (SameCall (K := Unit) (T := ℝ) (fun s s' => s = s'.toLinear)
      (fun _ s s' => s = s'.toLinear) cvClass (fun _ => posClass))
    [.predictControl (.const 1 3) 2, .correct (.const 1 7) (.identity 1) 1 (some ()),
      .userModel fun e => (e.sys.setProcessCovariance (.identity 2)).map fun s => { e with sys := s }]
    [.predictControl (.const 1 3) 2, .correct (.const 1 7) (.identity 1) 1 (some ()),
      .userModel fun e => (e.sys.setProcessCovariance (.identity 2)).map fun s => { e with sys := s }] := by
  refine .cons ⟨rfl, rfl, fun _ => trivial⟩ (.cons ⟨rfl, rfl, rfl, rfl, (), rfl, trivial⟩ (.cons ?_ .nil))
  intro e e' h
  have h1 : e.sys.Rp = e'.sys.Rp := by rw [h.1]; rfl
  unfold Sys.setProcessCovariance
  beta_reduce
  by_cases hz : (DMat.identity 2).rows = e.sys.Rp.rows ∧ (DMat.identity 2).cols = e.sys.Rp.cols
  · rw [if_pos hz, if_pos (by rw [← h1]; exact hz)]
    refine ⟨?_, h.2⟩
    show ({ e.sys with Rp := _ } : Sys LinSysData Unit) = Sys.toLinear { e'.sys with Rp := _ }
    rw [h.1]; rfl
  · rw [if_neg hz, if_neg (by rw [← h1]; exact hz)]
    exact id

end Props
end StateEstimation
