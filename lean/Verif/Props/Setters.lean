import Verif.Model.Setters
import Verif.Props.Subsets
import Verif.Props.Kalman
import Verif.Lemmas.KFApi
import Verif.Examples.Linear

/-!
# C118: a model that was configured with its setters does what it was told

Whatever the calls between the construction of a linear model and its use, and in whatever order: each setting is the last one
made of its kind, calls of one kind do not disturb the others, calls with matrices of the wrong size are caught, and the Kalman
filter computes with exactly these settings.
-/

set_option linter.unusedSectionVars false

namespace StateEstimation
namespace Props

open Filter Matrix Kalman

/-- The matrices have the sizes that a model with `n` states, `m` controls and `p` noise dimensions demands. -/
def _root_.StateEstimation.SysCall.Legal (n m p : Nat) : SysCall → Prop
  | .setA A => A.Is n n
  | .setB B => B.Is n m
  | .setProcessCovariance R => R.Is p p
  | .setControlCovariance R => R.Is m m
  | _ => True

/-- Same for a measurement model with `n` states and `k` measurements. -/
def _root_.StateEstimation.MeasCall.Legal (n k : Nat) : MeasCall → Prop
  | .setC C => C.Is k n
  | .setCovariance R => R.Is k k
  | _ => True

/-- The argument of the last call that `pick` recognises, or `d` if there is none. -/
def lastOf {C A : Type} (pick : C → Option A) (d : A) (calls : List C) : A := (calls.filterMap pick).getLastD d

def argA : SysCall → Option DMat | .setA A => some A | _ => none
def argB : SysCall → Option DMat | .setB B => some B | _ => none
def argRp : SysCall → Option DMat | .setProcessCovariance R => some R | _ => none
def argRc : SysCall → Option DMat | .setControlCovariance R => some R | _ => none
def argStates : SysCall → Option (List Nat) | .setActiveStates l => some l | _ => none
def argControls : SysCall → Option (List Nat) | .setActiveControls l => some l | _ => none
def argIs : SysCall → Option (Option (DVec → DVec → Bool)) | .setIsStationaryFunction f => some f | _ => none
def argMake : SysCall → Option (Option (DVec → DMat → Option (DVec × DMat))) | .setMakeStationaryFunction f => some f | _ => none
def argC : MeasCall → Option DMat | .setC C => some C | _ => none
def argCov : MeasCall → Option DMat | .setCovariance R => some R | _ => none
def argMeas : MeasCall → Option (List Nat) | .setActiveMeasurements l => some l | _ => none
def argMStates : MeasCall → Option (List Nat) | .setActiveStates l => some l | _ => none
def argMIs : MeasCall → Option (Option (DVec → DVec → Bool)) | .setIsStationaryFunction f => some f | _ => none
def argMMake : MeasCall → Option (Option (DVec → DMat → Option (DVec × DMat))) | .setMakeStationaryFunction f => some f | _ => none

private theorem lastOf_nil {C A : Type} (pick : C → Option A) (d : A) : lastOf pick d [] = d := rfl

private theorem lastOf_snoc {C A : Type} (pick : C → Option A) (d : A) (l : List C) (c : C) :
    lastOf pick d (l ++ [c]) = (pick c).getD (lastOf pick d l) := by
  unfold lastOf
  rw [List.filterMap_append]
  cases h : pick c with
  | none => simp [h]
  | some a => simp [h, List.getLastD_eq_getLast?]

/-- What is known of a configured system model. -/
structure Configured {X : Type} (n m p : Nat) (ext : X) (calls : List SysCall) (s : Sys LinSysData X) : Prop where
  states : s.stateSize = n
  controls : s.controlDims = m
  A : s.der.A = lastOf argA (.zero n n) calls
  B : s.der.B = lastOf argB (.zero n m) calls
  Rp : s.Rp = lastOf argRp (.zero p p) calls
  Rc : s.Rc = lastOf argRc (.zero m m) calls
  active : Normalised n (lastOf argStates [] calls) s.activeStates s.fm.stateUsage
  activeControls : Normalised m (lastOf argControls [] calls) s.activeControls s.controlUsage
  isStationary : s.fm.isStationaryF = lastOf argIs none calls
  makeStationary : s.fm.makeStationaryF = lastOf argMake none calls
  P : s.P = .zero n p
  V : s.V = .zero n m
  ext : s.ext = ext

/-- What is known of a configured measurement model. -/
structure MConfigured {X : Type} (n k : Nat) (ext : X) (calls : List MeasCall) (s : Meas LinMeasData X) : Prop where
  states : s.stateSize = n
  meas : s.measDims = k
  C : s.der.C = lastOf argC (.zero k n) calls
  cov : s.cov = lastOf argCov (.zero k k) calls
  activeMeasurements : Normalised k (lastOf argMeas [] calls) s.activeMeasurements s.measurementUsage
  active : Normalised n (lastOf argMStates [] calls) s.fm.activeStates s.fm.stateUsage
  isStationary : s.fm.isStationaryF = lastOf argMIs none calls
  makeStationary : s.fm.makeStationaryF = lastOf argMMake none calls
  ext : s.ext = ext

private theorem list_snoc {C : Type} {motive : List C → Prop} (nil : motive []) (snoc : ∀ l c, motive l → motive (l ++ [c]))
    (l : List C) : motive l := by
  have h : ∀ r : List C, motive r.reverse := by
    intro r
    induction r with
    | nil => exact nil
    | cons c r ih => rw [List.reverse_cons]; exact snoc _ _ ih
  simpa using h l.reverse

private theorem system_aux {X : Type} (n m p : Nat) (ext : X) (calls : List SysCall) (h : ∀ c ∈ calls, c.Legal n m p) :
    ∃ s, calls.foldlM SysCall.run (Sys.constructLinear n m p ext) = some s ∧ Configured n m p ext calls s ∧ s.Rp.Is p p := by
  induction calls using list_snoc with
  | nil =>
    have h1 := C44_states ⟨n, [], List.replicate n false, none, none⟩ [] (by simp)
    have h2 := C44_controls (⟨FilterModel.construct n, m, [], List.replicate m false, .zero p p, .zero m m, .zero n p, .zero n m,
      ⟨.zero n n, .zero n m⟩, ext⟩ : Sys LinSysData X) [] (by simp)
    exact ⟨_, rfl, ⟨rfl, rfl, rfl, rfl, rfl, rfl, h1, h2, rfl, rfl, rfl, rfl, rfl⟩, rfl, rfl⟩
  | snoc l c ih =>
    obtain ⟨s, hs, hc, hRp⟩ := ih fun c' hc' => h c' (List.mem_append_left _ hc')
    have hl := h c (List.mem_append_right _ (List.mem_singleton.mpr rfl))
    have hstep : ∀ s', SysCall.run s c = some s' → (l ++ [c]).foldlM SysCall.run (Sys.constructLinear n m p ext) = some s' := by
      intro s' e
      rw [List.foldlM_append, hs]
      simpa using e
    have hn : s.stateSize = n := hc.states
    cases c with
    | setA A =>
      refine ⟨{ s with der := { s.der with A := A } }, hstep _ ?_, ?_, hRp⟩
      · show s.setA A = _
        unfold Sys.setA
        rw [if_pos (by rw [hc.states]; exact ⟨hl.1, hl.2⟩)]
      · constructor <;> (try rw [lastOf_snoc]) <;> first
          | exact hc.states | exact hc.controls | exact hc.A | exact hc.B | exact hc.Rp | exact hc.Rc | exact hc.active
          | exact hc.activeControls | exact hc.isStationary | exact hc.makeStationary | exact hc.P | exact hc.V | exact hc.ext
          | rfl | exact hn
    | setB B =>
      refine ⟨{ s with der := { s.der with B := B } }, hstep _ ?_, ?_, hRp⟩
      · show s.setB B = _
        unfold Sys.setB
        rw [if_pos (by rw [hc.states, hc.controls]; exact ⟨hl.1, hl.2⟩)]
      · constructor <;> (try rw [lastOf_snoc]) <;> first
          | exact hc.states | exact hc.controls | exact hc.A | exact hc.B | exact hc.Rp | exact hc.Rc | exact hc.active
          | exact hc.activeControls | exact hc.isStationary | exact hc.makeStationary | exact hc.P | exact hc.V | exact hc.ext
          | rfl | exact hn
    | setProcessCovariance R =>
      refine ⟨{ s with Rp := R }, hstep _ ?_, ?_, hl⟩
      · show s.setProcessCovariance R = _
        unfold Sys.setProcessCovariance
        rw [if_pos (by rw [hRp.1, hRp.2]; exact ⟨hl.1, hl.2⟩)]
      · constructor <;> (try rw [lastOf_snoc]) <;> first
          | exact hc.states | exact hc.controls | exact hc.A | exact hc.B | exact hc.Rp | exact hc.Rc | exact hc.active
          | exact hc.activeControls | exact hc.isStationary | exact hc.makeStationary | exact hc.P | exact hc.V | exact hc.ext
          | rfl | exact hn
    | setControlCovariance R =>
      refine ⟨{ s with Rc := R }, hstep _ ?_, ?_, hRp⟩
      · show s.setControlCovariance R = _
        unfold Sys.setControlCovariance
        rw [if_pos (by rw [hc.controls]; exact ⟨hl.1, hl.2⟩)]
      · constructor <;> (try rw [lastOf_snoc]) <;> first
          | exact hc.states | exact hc.controls | exact hc.A | exact hc.B | exact hc.Rp | exact hc.Rc | exact hc.active
          | exact hc.activeControls | exact hc.isStationary | exact hc.makeStationary | exact hc.P | exact hc.V | exact hc.ext
          | rfl | exact hn
    | setActiveStates a =>
      have hm : s.fm.stateDims = n := hc.states
      have hn := C44_states s.fm a (hc.active.marks.trans hm.symm)
      rw [hm] at hn
      refine ⟨_, hstep _ rfl, ?_, hRp⟩
      · constructor <;> (try rw [lastOf_snoc]) <;> first
          | exact hc.states | exact hc.controls | exact hc.A | exact hc.B | exact hc.Rp | exact hc.Rc | exact hc.active
          | exact hc.activeControls | exact hc.isStationary | exact hc.makeStationary | exact hc.P | exact hc.V | exact hc.ext
          | rfl | exact hn
    | setActiveControls a =>
      have hn := C44_controls s a (hc.activeControls.marks.trans hc.controls.symm)
      rw [hc.controls] at hn
      refine ⟨_, hstep _ rfl, ?_, hRp⟩
      · constructor <;> (try rw [lastOf_snoc]) <;> first
          | exact hc.states | exact hc.controls | exact hc.A | exact hc.B | exact hc.Rp | exact hc.Rc | exact hc.active
          | exact hc.activeControls | exact hc.isStationary | exact hc.makeStationary | exact hc.P | exact hc.V | exact hc.ext
          | rfl | exact hn
    | setIsStationaryFunction g =>
      refine ⟨_, hstep _ rfl, ?_, hRp⟩
      · constructor <;> (try rw [lastOf_snoc]) <;> first
          | exact hc.states | exact hc.controls | exact hc.A | exact hc.B | exact hc.Rp | exact hc.Rc | exact hc.active
          | exact hc.activeControls | exact hc.isStationary | exact hc.makeStationary | exact hc.P | exact hc.V | exact hc.ext
          | rfl | exact hn
    | setMakeStationaryFunction g =>
      refine ⟨_, hstep _ rfl, ?_, hRp⟩
      · constructor <;> (try rw [lastOf_snoc]) <;> first
          | exact hc.states | exact hc.controls | exact hc.A | exact hc.B | exact hc.Rp | exact hc.Rc | exact hc.active
          | exact hc.activeControls | exact hc.isStationary | exact hc.makeStationary | exact hc.P | exact hc.V | exact hc.ext
          | rfl | exact hn

/-- **C118: the settings of a linear system model** after any calls with matrices of the right sizes. -/
theorem C118_system {X : Type} (n m p : Nat) (ext : X) (calls : List SysCall) (h : ∀ c ∈ calls, c.Legal n m p) :
    ∃ s, calls.foldlM SysCall.run (Sys.constructLinear n m p ext) = some s ∧ Configured n m p ext calls s := by
  obtain ⟨s, h1, h2, _⟩ := system_aux n m p ext calls h
  exact ⟨s, h1, h2⟩

/-- **C118: a matrix of the wrong size is caught** (system model). -/
theorem C118_system_checked {X : Type} (n m p : Nat) (ext : X) (calls : List SysCall) (h : ¬ ∀ c ∈ calls, c.Legal n m p) :
    calls.foldlM SysCall.run (Sys.constructLinear n m p ext) = none := by
  induction calls using list_snoc with
  | nil => exact absurd (fun c hc => absurd hc (by simp)) h
  | snoc l c ih =>
    rw [List.foldlM_append]
    by_cases hl : ∀ c ∈ l, c.Legal n m p
    · obtain ⟨s, hs, hc, hRp⟩ := system_aux n m p ext l hl
      have hbad : ¬ c.Legal n m p := fun hc' => h fun c'' hc'' => by
        rcases List.mem_append.mp hc'' with h1 | h1
        · exact hl _ h1
        · rw [List.mem_singleton.mp h1]; exact hc'
      rw [hs]
      have hrun : SysCall.run s c = none := by
        cases c with
        | setA A =>
          show s.setA A = _
          unfold Sys.setA
          rw [if_neg (by rw [hc.states]; exact fun e => hbad ⟨e.1, e.2⟩)]
        | setB B =>
          show s.setB B = _
          unfold Sys.setB
          rw [if_neg (by rw [hc.states, hc.controls]; exact fun e => hbad ⟨e.1, e.2⟩)]
        | setProcessCovariance R =>
          show s.setProcessCovariance R = _
          unfold Sys.setProcessCovariance
          rw [if_neg (by rw [hRp.1, hRp.2]; exact fun e => hbad ⟨e.1, e.2⟩)]
        | setControlCovariance R =>
          show s.setControlCovariance R = _
          unfold Sys.setControlCovariance
          rw [if_neg (by rw [hc.controls]; exact fun e => hbad ⟨e.1, e.2⟩)]
        | setActiveStates a => exact absurd trivial hbad
        | setActiveControls a => exact absurd trivial hbad
        | setIsStationaryFunction g => exact absurd trivial hbad
        | setMakeStationaryFunction g => exact absurd trivial hbad
      simp [hrun]
    · rw [ih hl]; rfl

/-- **C118: the settings of a linear measurement model** after any calls with matrices of the right sizes. -/
theorem C118_measurement {X : Type} (n k : Nat) (ext : X) (calls : List MeasCall) (h : ∀ c ∈ calls, c.Legal n k) :
    ∃ s, calls.foldlM MeasCall.run (Meas.constructLinear n k ext) = some s ∧ MConfigured n k ext calls s := by
  induction calls using list_snoc with
  | nil =>
    have h1 := C44_states ⟨n, [], List.replicate n false, none, none⟩ [] (by simp)
    have h2 := C44_measurements (⟨FilterModel.construct n, k, [], List.replicate k false, .zero k k, ⟨.zero k n⟩, ext⟩ :
      Meas LinMeasData X) [] (by simp)
    exact ⟨_, rfl, ⟨rfl, rfl, rfl, rfl, h2, h1, rfl, rfl, rfl⟩⟩
  | snoc l c ih =>
    obtain ⟨s, hs, hc⟩ := ih fun c' hc' => h c' (List.mem_append_left _ hc')
    have hl := h c (List.mem_append_right _ (List.mem_singleton.mpr rfl))
    have hstep : ∀ s', MeasCall.run s c = some s' → (l ++ [c]).foldlM MeasCall.run (Meas.constructLinear n k ext) = some s' := by
      intro s' e
      rw [List.foldlM_append, hs]
      simpa using e
    have hn : s.stateSize = n := hc.states
    cases c with
    | setC C =>
      refine ⟨{ s with der := ⟨C⟩ }, hstep _ ?_, ?_⟩
      · show s.setC C = _
        unfold Meas.setC
        rw [if_pos (by rw [hc.states, hc.meas]; exact ⟨hl.1, hl.2⟩)]
      · constructor <;> (try rw [lastOf_snoc]) <;> first
          | exact hc.states | exact hc.meas | exact hc.C | exact hc.cov | exact hc.active
          | exact hc.activeMeasurements | exact hc.isStationary | exact hc.makeStationary | exact hc.ext
          | rfl | exact hn
    | setCovariance R =>
      refine ⟨{ s with cov := R }, hstep _ ?_, ?_⟩
      · show s.setCovariance R = _
        unfold Meas.setCovariance
        rw [if_pos (by rw [hc.meas]; exact ⟨hl.1, hl.2⟩)]
      · constructor <;> (try rw [lastOf_snoc]) <;> first
          | exact hc.states | exact hc.meas | exact hc.C | exact hc.cov | exact hc.active
          | exact hc.activeMeasurements | exact hc.isStationary | exact hc.makeStationary | exact hc.ext
          | rfl | exact hn
    | setActiveMeasurements a =>
      have hn := C44_measurements s a (hc.activeMeasurements.marks.trans hc.meas.symm)
      rw [hc.meas] at hn
      refine ⟨_, hstep _ rfl, ?_⟩
      · constructor <;> (try rw [lastOf_snoc]) <;> first
          | exact hc.states | exact hc.meas | exact hc.C | exact hc.cov | exact hc.active
          | exact hc.activeMeasurements | exact hc.isStationary | exact hc.makeStationary | exact hc.ext
          | rfl | exact hn
    | setActiveStates a =>
      have hm : s.fm.stateDims = n := hc.states
      have hn := C44_states s.fm a (hc.active.marks.trans hm.symm)
      rw [hm] at hn
      refine ⟨_, hstep _ rfl, ?_⟩
      · constructor <;> (try rw [lastOf_snoc]) <;> first
          | exact hc.states | exact hc.meas | exact hc.C | exact hc.cov | exact hc.active
          | exact hc.activeMeasurements | exact hc.isStationary | exact hc.makeStationary | exact hc.ext
          | rfl | exact hn
    | setIsStationaryFunction g =>
      refine ⟨_, hstep _ rfl, ?_⟩
      · constructor <;> (try rw [lastOf_snoc]) <;> first
          | exact hc.states | exact hc.meas | exact hc.C | exact hc.cov | exact hc.active
          | exact hc.activeMeasurements | exact hc.isStationary | exact hc.makeStationary | exact hc.ext
          | rfl | exact hn
    | setMakeStationaryFunction g =>
      refine ⟨_, hstep _ rfl, ?_⟩
      · constructor <;> (try rw [lastOf_snoc]) <;> first
          | exact hc.states | exact hc.meas | exact hc.C | exact hc.cov | exact hc.active
          | exact hc.activeMeasurements | exact hc.isStationary | exact hc.makeStationary | exact hc.ext
          | rfl | exact hn

/-- **C118: a matrix of the wrong size is caught** (measurement model). -/
theorem C118_measurement_checked {X : Type} (n k : Nat) (ext : X) (calls : List MeasCall) (h : ¬ ∀ c ∈ calls, c.Legal n k) :
    calls.foldlM MeasCall.run (Meas.constructLinear n k ext) = none := by
  induction calls using list_snoc with
  | nil => exact absurd (fun c hc => absurd hc (by simp)) h
  | snoc l c ih =>
    rw [List.foldlM_append]
    by_cases hl : ∀ c ∈ l, c.Legal n k
    · obtain ⟨s, hs, hc⟩ := C118_measurement n k ext l hl
      have hbad : ¬ c.Legal n k := fun hc' => h fun c'' hc'' => by
        rcases List.mem_append.mp hc'' with h1 | h1
        · exact hl _ h1
        · rw [List.mem_singleton.mp h1]; exact hc'
      rw [hs]
      have hrun : MeasCall.run s c = none := by
        cases c with
        | setC C =>
          show s.setC C = _
          unfold Meas.setC
          rw [if_neg (by rw [hc.states, hc.meas]; exact fun e => hbad ⟨e.1, e.2⟩)]
        | setCovariance R =>
          show s.setCovariance R = _
          unfold Meas.setCovariance
          rw [if_neg (by rw [hc.meas]; exact fun e => hbad ⟨e.1, e.2⟩)]
        | setActiveMeasurements a => exact absurd trivial hbad
        | setActiveStates a => exact absurd trivial hbad
        | setIsStationaryFunction g => exact absurd trivial hbad
        | setMakeStationaryFunction g => exact absurd trivial hbad
      simp [hrun]
    · rw [ih hl]; rfl

/-- A user's class that leaves the settings alone and supplies constant noise Jacobians `W` (process) and `V` (control), as the
constructor makes them zero (system_model.cpp:6-15) and no setter exists. -/
noncomputable def settingsClass (T X : Type) {n m p : Nat} (W : Matrix (Fin n) (Fin p) ℝ) (V : Matrix (Fin n) (Fin m) ℝ) :
    SysClass T LinSysData X :=
  SysClass.plain fun s _ _ _ =>
    if s.stateSize = n ∧ s.controlDims = m ∧ s.Rp.rows = p then some { s with P := .of W, V := .of V } else some s

/-- A user's measurement class that leaves the settings alone. -/
noncomputable def settingsMeas (T Y : Type) : MeasClass T LinMeasData Y := MeasClass.plain fun s _ _ => some s

private theorem settings_contract {T X : Type} {n m p : Nat} (W : Matrix (Fin n) (Fin p) ℝ) (V : Matrix (Fin n) (Fin m) ℝ) :
    SysContract LinSysData.Sized (settingsClass T X W V) := by
  apply Examples.plain_contract
  intro n' m' s x u dt hs hx hu
  split
  next h =>
    obtain ⟨h1, h2, h3⟩ := h
    have hn : n' = n := by rw [← hs.states]; exact h1
    have hm : m' = m := by rw [← hs.controls]; exact h2
    subst hn hm
    exact ⟨_, rfl, ⟨hs.states, hs.controls, hs.der, ⟨rfl, h3.symm⟩, hs.Rp, ⟨rfl, rfl⟩, hs.Rc⟩, ⟨rfl, rfl, rfl, rfl, rfl⟩⟩
  next => exact ⟨s, rfl, hs, Sys.SameConfig.refl s⟩

private theorem settings_mcontract {T Y : Type} : MeasContract LinMeasData.Sized (settingsMeas T Y) := by
  apply Examples.plain_mcontract
  intro n k s x dt hs hx
  exact ⟨s, rfl, hs, Meas.SameConfig.refl s⟩

private theorem lastOf_legal {C A : Type} (pick : C → Option A) (d : A) (Q : A → Prop) (hd : Q d) (l : List C)
    (h : ∀ c ∈ l, ∀ a, pick c = some a → Q a) : Q (lastOf pick d l) := by
  induction l using list_snoc with
  | nil => exact hd
  | snoc l c ih =>
    rw [lastOf_snoc]
    cases e : pick c with
    | none => exact ih fun c' hc' => h c' (List.mem_append_left _ hc')
    | some a => exact h c (List.mem_append_right _ (List.mem_singleton.mpr rfl)) a e

private theorem configured_sized {X : Type} {n m p : Nat} {ext : X} {calls : List SysCall} {s : Sys LinSysData X}
    (h : ∀ c ∈ calls, c.Legal n m p) (hs : Configured n m p ext calls s) :
    s.Sized LinSysData.Sized n m ∧ s.Rp.rows = p := by
  have hA : s.der.A.Is n n := by
    rw [hs.A]
    refine lastOf_legal argA _ (fun M : DMat => M.Is n n) ⟨rfl, rfl⟩ calls fun c hc a e => ?_
    · cases c <;> simp only [argA, reduceCtorEq, Option.some.injEq] at e
      rw [← e]; exact h _ hc
  have hB : s.der.B.Is n m := by
    rw [hs.B]
    refine lastOf_legal argB _ (fun M : DMat => M.Is n m) ⟨rfl, rfl⟩ calls fun c hc a e => ?_
    · cases c <;> simp only [argB, reduceCtorEq, Option.some.injEq] at e
      rw [← e]; exact h _ hc
  have hRp : s.Rp.Is p p := by
    rw [hs.Rp]
    refine lastOf_legal argRp _ (fun M : DMat => M.Is p p) ⟨rfl, rfl⟩ calls fun c hc a e => ?_
    · cases c <;> simp only [argRp, reduceCtorEq, Option.some.injEq] at e
      rw [← e]; exact h _ hc
  have hRc : s.Rc.Is m m := by
    rw [hs.Rc]
    refine lastOf_legal argRc _ (fun M : DMat => M.Is m m) ⟨rfl, rfl⟩ calls fun c hc a e => ?_
    · cases c <;> simp only [argRc, reduceCtorEq, Option.some.injEq] at e
      rw [← e]; exact h _ hc
  refine ⟨⟨hs.states, hs.controls, ⟨hA, hB⟩, ?_, ?_, ?_, hRc⟩, hRp.1⟩
  · rw [hs.P]; exact ⟨rfl, hRp.1.symm⟩
  · exact ⟨rfl, hRp.2.trans hRp.1.symm⟩
  · rw [hs.V]; exact ⟨rfl, rfl⟩

section Use
variable {T K X Y : Type} [DecidableEq K] [LinearOrder T] [ExactTime T]

/-- **C118: `predict(u, t)` of the Kalman filter uses the matrices that were set last.** The model was constructed and then
configured by `calls`; `A`, `B`, `Rp`, `Rc` are the arguments of the last `setA`, `setB`, `setProcessCovariance`,
`setControlCovariance` (zero matrices where there was none). -/
theorem C118_kf_predict {n m p : Nat} (hm : 0 < m) (ext : X) (calls : List SysCall) (h : ∀ c ∈ calls, c.Legal n m p)
    (W : Matrix (Fin n) (Fin p) ℝ) (V : Matrix (Fin n) (Fin m) ℝ) (mc : K → MeasClass T LinMeasData Y)
    (f : Filter T DVec DMat K (Env K LinSysData X LinMeasData Y))
    (hf : calls.foldlM SysCall.run (Sys.constructLinear n m p ext) = some f.env.sys)
    (hst : lastOf argIs none calls = none)
    {A : Matrix (Fin n) (Fin n) ℝ} {B : Matrix (Fin n) (Fin m) ℝ} {Rp : Matrix (Fin p) (Fin p) ℝ}
    {Rc : Matrix (Fin m) (Fin m) ℝ}
    (hA : lastOf argA (.zero n n) calls = .of A) (hB : lastOf argB (.zero n m) calls = .of B)
    (hRp : lastOf argRp (.zero p p) calls = .of Rp) (hRc : lastOf argRc (.zero m m) calls = .of Rc)
    {x : Fin n → ℝ} {P : Matrix (Fin n) (Fin n) ℝ} (hx : f.getState = .of x) (hP : f.getCovariance = .of P)
    (u : Fin m → ℝ) (t : T) (ht : f.getStateTime ≤ t) :
    ∃ g, f.predictControl (kfPlant (settingsClass T X W V) mc) (.of u) t = some g ∧
      g.getState = .of (A *ᵥ x + B *ᵥ u) ∧ g.getCovariance = .of (A * P * Aᵀ + W * Rp * Wᵀ + V * Rc * Vᵀ) ∧
      g.getStateTime = t := by
  obtain ⟨s, hs, hc⟩ := C118_system n m p ext calls h
  rw [hf] at hs; injection hs with hs; subst hs
  obtain ⟨hz, hp⟩ := configured_sized h hc
  have hck : f.env.sys.fm.checkStationary = false := by
    unfold FilterModel.checkStationary
    rw [hc.isStationary, hst]; rfl
  obtain ⟨g, p', A', B', W', V', Rp', Rc', x', e1, e2, e3, e4, e5, e6, e7, e8, e9, e10, e11, _⟩ :=
    kf_predict_now (mc := mc) (settings_contract W V) f hz hx hP u hm t ht (by rw [hck]; rfl)
  have e2' : some { f.env.sys with P := .of W, V := .of V } = some g.env.sys := by
    rw [← e2]
    show _ = if _ then _ else _
    rw [if_pos ⟨hc.states, hc.controls, hp⟩]
  injection e2' with e2'
  rw [← e2'] at e3 e4 e5
  have e3' : f.env.sys.der = ⟨.of A', .of B'⟩ := e3
  have kA : (.of A : DMat) = .of A' := by rw [← hA, ← hc.A, e3']
  have kB : (.of B : DMat) = .of B' := by rw [← hB, ← hc.B, e3']
  obtain rfl := DMat.of_inj.mp kA
  obtain rfl := DMat.of_inj.mp kB
  have kp : p = p' := by
    have : (.of W : DMat).cols = (.of W' : DMat).cols := congrArg DMat.cols e4
    exact this
  subst kp
  obtain rfl := DMat.of_inj.mp e4
  obtain rfl := DMat.of_inj.mp e5
  have kRp : (.of Rp : DMat) = .of Rp' := by rw [← hRp, ← hc.Rp, e6]
  have kRc : (.of Rc : DMat) = .of Rc' := by rw [← hRc, ← hc.Rc, e7]
  obtain rfl := DMat.of_inj.mp kRp
  obtain rfl := DMat.of_inj.mp kRc
  have e8' : DVec.add (.of (A *ᵥ x)) (.of (B *ᵥ u)) = some (.of x') := e8
  rw [DVec.add_of] at e8'
  injection e8' with e8'
  exact ⟨g, e1, by rw [e9, ← e8'], e10, e11⟩

/-- **C118: `correct` of the Kalman filter uses the output matrix that was set last** (and the covariance given with the
measurement, whatever `setCovariance` said). -/
theorem C118_kf_correct {n m k : Nat} (ext : Y) (calls : List MeasCall) (h : ∀ c ∈ calls, c.Legal n k)
    {sc : SysClass T LinSysData X} (hsc : SysContract LinSysData.Sized sc) (hops : sc.PlainOps)
    (f : Filter T DVec DMat K (Env K LinSysData X LinMeasData Y)) (j : K) (hs : f.env.sys.Sized LinSysData.Sized n m)
    (hf : calls.foldlM MeasCall.run (Meas.constructLinear n k ext) = some (f.env.meas j))
    (hst : lastOf argMIs none calls = none) {C : Matrix (Fin k) (Fin n) ℝ} (hC : lastOf argC (.zero k n) calls = .of C)
    {x : Fin n → ℝ} {P : Matrix (Fin n) (Fin n) ℝ} (hx : f.getState = .of x) (hP : f.getCovariance = .of P)
    (hP' : P.PosSemidef) (z : Fin k → ℝ) (R : Matrix (Fin k) (Fin k) ℝ) (hR : R.PosDef) :
    ∃ g, f.correct (kfPlant sc fun _ => settingsMeas T Y) (.of z) (.of R) f.getStateTime (some j) = some g ∧
      g.getState = .of (x + (P * Cᵀ * (C * P * Cᵀ + R)⁻¹) *ᵥ (z - C *ᵥ x)) ∧
      g.getCovariance = .of ((1 - P * Cᵀ * (C * P * Cᵀ + R)⁻¹ * C) * P) := by
  obtain ⟨s, hs', hc⟩ := C118_measurement n k ext calls h
  rw [hf] at hs'; injection hs' with hs'; subst hs'
  have hck : (f.env.meas j).fm.checkStationary = false := by
    unfold FilterModel.checkStationary
    rw [hc.isStationary, hst]; rfl
  have hCs : (f.env.meas j).der.C = .of C := by rw [hc.C, hC]
  have hcov : (f.env.meas j).cov.Is k k := by
    rw [hc.cov]
    refine lastOf_legal argCov _ (fun M : DMat => M.Is k k) ⟨rfl, rfl⟩ calls fun c hc a e => ?_
    · cases c <;> simp only [argCov, reduceCtorEq, Option.some.injEq] at e
      rw [← e]; exact h _ hc
  have hm : (f.env.meas j).Sized LinMeasData.Sized n k :=
    ⟨hc.states, hc.meas, by show DMat.Is _ _ _; rw [hCs]; exact ⟨rfl, rfl⟩, hcov⟩
  obtain ⟨g, dz, x', e1, e2, e3, e4, e5, _⟩ := kf_correct_now (mc := fun _ => settingsMeas T Y) hsc (fun _ => settings_mcontract)
    f j hs hm hx hP z R (C := C) (ms := (f.env.meas j).withCov (.of R)) rfl hCs
    (pd_isUnit_det (innov_pd hP' C hR)) (by rw [hck]; rfl)
  have e2' : (DVec.sub (.of z) (.of (C *ᵥ x))) = some (.of dz) := e2
  rw [DVec.sub_of] at e2'
  injection e2' with e2'
  obtain rfl := DVec.of_inj.mp e2'
  rw [hops.add, DVec.add_of] at e3
  injection e3 with e3
  refine ⟨g, e1, ?_, ?_⟩
  · rw [e4, ← e3, Matrix.mul_assoc C P Cᵀ]; rfl
  · rw [e5, Matrix.mul_assoc C P Cᵀ]; rfl

end Use

/-- The calls of a user who configures a constant-velocity model and corrects a mistake. -/
noncomputable def cvCalls : List SysCall :=
  [.setA (.of !![1, 2; 0, 1]), .setB (.of !![(1 / 2 : ℝ); 1]), .setActiveStates [1], .setProcessCovariance (.identity 2),
   .setA (.of !![1, 1; 0, 1]), .setControlCovariance (.of !![(4 : ℝ)])]

/-- The hypotheses of the theorems on the system model hold for these calls; the last `setA` counts. -/
example : (∀ c ∈ cvCalls, c.Legal 2 1 2) ∧ lastOf argIs none cvCalls = none ∧
    lastOf argA (.zero 2 2) cvCalls = .of !![1, 1; 0, 1] ∧ lastOf argB (.zero 2 1) cvCalls = .of !![(1 / 2 : ℝ); 1] ∧
    lastOf argStates [] cvCalls = [1] ∧ ¬ (SysCall.setB (.identity 2)).Legal 2 1 2 := by
  refine ⟨?_, rfl, rfl, rfl, rfl, fun h => absurd h.2 (by decide)⟩
  intro c hc
  simp only [cvCalls, List.mem_cons, List.not_mem_nil, or_false] at hc
  rcases hc with rfl | rfl | rfl | rfl | rfl | rfl <;> first | exact ⟨rfl, rfl⟩ | trivial

/-- …and of the theorem on the filter: the new position is `1·0 + 1·3 + ½·2 = 4`. -/
example (f : Filter ℝ DVec DMat Unit (Env Unit LinSysData Unit LinMeasData Unit))
    (hf : cvCalls.foldlM SysCall.run (Sys.constructLinear 2 1 2 ()) = some f.env.sys)
    (hx : f.getState = .of ![0, 3]) (hP : f.getCovariance = .of (1 : Matrix (Fin 2) (Fin 2) ℝ)) (ht : f.getStateTime = 0) :
    ∃ g, f.predictControl (kfPlant (settingsClass ℝ Unit (1 : Matrix (Fin 2) (Fin 2) ℝ) !![(1 / 2 : ℝ); 1])
      fun _ => settingsMeas ℝ Unit) (.of ![2]) 1 = some g ∧ g.getState = .of ![4, 5] := by
  obtain ⟨g, h1, h2, _⟩ := C118_kf_predict (K := Unit) (by norm_num) () cvCalls (by
      intro c hc
      simp only [cvCalls, List.mem_cons, List.not_mem_nil, or_false] at hc
      rcases hc with rfl | rfl | rfl | rfl | rfl | rfl <;> first | exact ⟨rfl, rfl⟩ | trivial)
    (1 : Matrix (Fin 2) (Fin 2) ℝ) !![(1 / 2 : ℝ); 1] (fun _ => settingsMeas ℝ Unit) f hf rfl
    (A := !![1, 1; 0, 1]) (B := !![(1 / 2 : ℝ); 1]) (Rp := 1) (Rc := !![(4 : ℝ)]) rfl rfl rfl rfl hx hP ![2] 1
    (by rw [ht]; norm_num)
  refine ⟨g, h1, ?_⟩
  rw [h2]
  congr 1
  funext i
  fin_cases i <;> simp [Matrix.mulVec, dotProduct, Fin.sum_univ_two] <;> norm_num

end Props
end StateEstimation
