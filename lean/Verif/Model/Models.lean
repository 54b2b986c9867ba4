import Verif.Model.Eigen
import Verif.Model.FilterBase
import Mathlib.Data.List.Sort

/-!
# Model classes: `FilterModel`, `SystemModel`, `MeasurementModel`, linear and nonlinear base classes

An object is the data of its base classes, the data of the derived base class (`D`: `A_, B_` or `x_pred_, G_`;
`C_` or `z_pred_, H_`), and the data of the user's subclass (`X`).  The virtual functions form a separate record
(`SysClass`, `MeasClass`): they may do anything, including failing.  `T` is the type of time differences.
`tf_`, `tf_set_` (filter_model.h) are only used by the 6-D models and are modelled there.
-/

namespace StateEstimation

/-- Data members of `FilterModel`, filter_model.h (protected: `state_dims_`, `active_states_`, `state_usage_`; private:
the two `std::function`s, empty = `none`). -/
structure FilterModel where
  stateDims : Nat
  activeStates : List Nat
  stateUsage : List Bool
  isStationaryF : Option (DVec → DVec → Bool)
  makeStationaryF : Option (DVec → DMat → Option (DVec × DMat))

/-- The loop that keeps the valid indices, filter_model.cpp:42-47, system_model.cpp:41-46, measurement_model.cpp:33-38. -/
def validIndices (n : Nat) : List Nat → List Nat
  | [] => []
  | i :: is => if i < n then i :: validIndices n is else validIndices n is

/-- `usage[index] = v`. -/
def markUsed : List Bool → Nat → List Bool
  | [], _ => []
  | _ :: us, 0 => true :: us
  | u :: us, i + 1 => u :: markUsed us i

/-- The usage marks, filter_model.cpp:49-57, system_model.cpp:49-57, measurement_model.cpp:41-49. -/
def usageOf (usage : List Bool) (valid : List Nat) : List Bool :=
  if !valid.isEmpty then
    valid.foldl markUsed (usage.map fun _ => false)
  else usage.map fun _ => true

/-- `std::sort` of the index list, filter_model.cpp:60, system_model.cpp:60, measurement_model.cpp:52. -/
def sortIndices (l : List Nat) : List Nat := l.insertionSort (· ≤ ·)

namespace FilterModel

/-- `setActiveStates`, filter_model.cpp:40-61. -/
def setActiveStates (f : FilterModel) (l : List Nat) : FilterModel :=
  let valid := validIndices f.stateDims l
  { f with activeStates := sortIndices valid, stateUsage := usageOf f.stateUsage valid }

/-- Constructor, filter_model.cpp:7-13. -/
def construct (n : Nat) : FilterModel :=
  setActiveStates
    { stateDims := n, activeStates := [], stateUsage := List.replicate n false,
      isStationaryF := none, makeStationaryF := none } []

/-- `activeStateSize()`, filter_model.cpp:28-30. -/
def activeStateSize (f : FilterModel) : Nat :=
  if f.activeStates.isEmpty then f.stateDims else f.activeStates.length

/-- `checkStationary()`, filter_model.cpp:63-65. -/
def checkStationary (f : FilterModel) : Bool := f.isStationaryF.isSome

/-- `isStationary(x, data)`, filter_model.cpp:67-69 (only called when the function is set). -/
def isStationary (f : FilterModel) (x data : DVec) : Bool :=
  match f.isStationaryF with
  | none => false
  | some p => p x data

/-- `makeStationary(&x, &cov)`, filter_model.cpp:71-75. -/
def makeStationary (f : FilterModel) (x : DVec) (cov : DMat) : Option (DVec × DMat) :=
  match f.makeStationaryF with
  | none => some (x, cov)
  | some g => g x cov

end FilterModel

/-- `weightedSum` loop, filter_model.cpp:100-103: `X_sum += w(i) * X.col(i)` for `i` from `k` upwards. -/
noncomputable def weightedSumLoop (w : DVec) (X : DMat) : Nat → Nat → DVec → Option DVec
  | 0, _, acc => some acc
  | fuel + 1, i, acc => do
    let wi ← w.get? i
    let xi ← X.col? i
    let acc ← acc.add (xi.smul wi)
    weightedSumLoop w X fuel (i + 1) acc

/-- Default `weightedSum(w, X)`, filter_model.cpp:97-106. -/
noncomputable def weightedSum (w : DVec) (X : DMat) : Option DVec :=
  if w.size = X.cols then weightedSumLoop w X w.size 0 (DVec.zero X.rows) else none

/-- A system model object: members of `FilterModel` and `SystemModel` (system_model.h), of the linear or nonlinear base
class (`der`) and of the user's class (`ext`). -/
structure Sys (D X : Type) where
  fm : FilterModel
  controlDims : Nat
  activeControls : List Nat
  controlUsage : List Bool
  Rp : DMat
  Rc : DMat
  P : DMat
  V : DMat
  der : D
  ext : X

/-- Members of `LinearSystemModel`, linear_system_model.h. -/
structure LinSysData where
  A : DMat
  B : DMat

/-- Members of `NonlinearSystemModel`, nonlinear_system_model.h (`x_pred_` is what `g()` returns). -/
structure NonlinSysData where
  g : DVec
  G : DMat

/-- A measurement model object: members of `FilterModel` and `MeasurementModel` (measurement_model.h), of the linear or
nonlinear base class and of the user's class. -/
structure Meas (D X : Type) where
  fm : FilterModel
  measDims : Nat
  activeMeasurements : List Nat
  measurementUsage : List Bool
  cov : DMat
  der : D
  ext : X

/-- Member of `LinearMeasurementModel`. -/
structure LinMeasData where
  C : DMat

/-- Members of `NonlinearMeasurementModel` (`z_pred_` is what `h()` returns). -/
structure NonlinMeasData where
  h : DVec
  H : DMat

/-- The virtual functions of a system model class: `myUpdate` (system_model.h), `addVectors`, `subtractVectors`,
`weightedSum`, `processStationaryInput` (filter_model.h). -/
structure SysClass (T D X : Type) where
  myUpdate : Sys D X → DVec → DVec → T → Option (Sys D X)
  add : Sys D X → DVec → DVec → Option DVec
  sub : Sys D X → DVec → DVec → Option DVec
  wsum : Sys D X → DVec → DMat → Option DVec
  processStationary : Sys D X → DVec → DVec → Option (Sys D X)

/-- The virtual functions of a measurement model class. -/
structure MeasClass (T D X : Type) where
  myUpdate : Meas D X → DVec → T → Option (Meas D X)
  sub : Meas D X → DVec → DVec → Option DVec
  wsum : Meas D X → DVec → DMat → Option DVec
  processStationary : Meas D X → DVec → DVec → Option (Meas D X)

/-- A system model class that only overrides `myUpdate`: the defaults of filter_model.cpp:87-106 and the empty
`processStationaryInput` of filter_model.h. -/
noncomputable def SysClass.plain {T D X : Type} (up : Sys D X → DVec → DVec → T → Option (Sys D X)) :
    SysClass T D X where
  myUpdate := up
  add _ := DVec.add
  sub _ := DVec.sub
  wsum _ := weightedSum
  processStationary s _ _ := some s

/-- A measurement model class that only overrides `myUpdate`. -/
noncomputable def MeasClass.plain {T D X : Type} (up : Meas D X → DVec → T → Option (Meas D X)) :
    MeasClass T D X where
  myUpdate := up
  sub _ := DVec.sub
  wsum _ := weightedSum
  processStationary s _ _ := some s

namespace Sys

variable {T D X : Type}

/-- `stateSize()`, filter_model.cpp:24-26. -/
def stateSize (s : Sys D X) : Nat := s.fm.stateDims
/-- `activeStates()`, filter_model.cpp:32-34. -/
def activeStates (s : Sys D X) : List Nat := s.fm.activeStates
/-- `activeStateSize()`, filter_model.cpp:28-30. -/
def activeStateSize (s : Sys D X) : Nat := s.fm.activeStateSize

/-- `setActiveStates` on a system model. -/
def setActiveStates (s : Sys D X) (l : List Nat) : Sys D X := { s with fm := s.fm.setActiveStates l }

/-- `setActiveControls`, system_model.cpp:39-61. -/
def setActiveControls (s : Sys D X) (l : List Nat) : Sys D X :=
  let valid := validIndices s.controlDims l
  { s with activeControls := sortIndices valid, controlUsage := usageOf s.controlUsage valid }

/-- `activeControlSize()`, system_model.cpp:27-29. -/
def activeControlSize (s : Sys D X) : Nat :=
  if s.activeControls.isEmpty then s.controlDims else s.activeControls.length

/-- Constructor `SystemModel(n, m, p)`, system_model.cpp:6-15, with the derived parts supplied by the subclass. -/
def construct (n m p : Nat) (der : D) (ext : X) : Sys D X :=
  setActiveControls
    { fm := FilterModel.construct n, controlDims := m, activeControls := [],
      controlUsage := List.replicate m false, Rp := .zero p p, Rc := .zero m m, P := .zero n p, V := .zero n m,
      der := der, ext := ext } []

/-- `update(x, u, dt)`, system_model.cpp:17-21. -/
def update (s : Sys D X) (c : SysClass T D X) (x u : DVec) (dt : T) : Option (Sys D X) :=
  if x.size = s.stateSize ∧ u.size = s.controlDims then c.myUpdate s x u dt else none

/-- `setProcessCovariance`, system_model.cpp:63-66. -/
def setProcessCovariance (s : Sys D X) (R : DMat) : Option (Sys D X) :=
  if R.rows = s.Rp.rows ∧ R.cols = s.Rp.cols then some { s with Rp := R } else none

/-- `setControlCovariance`, system_model.cpp:68-71. -/
def setControlCovariance (s : Sys D X) (R : DMat) : Option (Sys D X) :=
  if R.rows = s.controlDims ∧ R.cols = s.controlDims then some { s with Rc := R } else none

/-- `LinearSystemModel` constructor, linear_system_model.cpp:7-10. -/
def constructLinear (n m p : Nat) (ext : X) : Sys LinSysData X :=
  construct n m p ⟨.zero n n, .zero n m⟩ ext

/-- `NonlinearSystemModel` constructor, nonlinear_system_model.cpp:6-13. -/
def constructNonlinear (n m p : Nat) (ext : X) : Sys NonlinSysData X :=
  construct n m p ⟨.zero n, .zero n n⟩ ext

/-- `setA`, linear_system_model.cpp:16-19. -/
def setA (s : Sys LinSysData X) (A : DMat) : Option (Sys LinSysData X) :=
  if A.rows = s.stateSize ∧ A.cols = s.stateSize then some { s with der := { s.der with A := A } } else none

/-- `setB`, linear_system_model.cpp:25-28. -/
def setB (s : Sys LinSysData X) (B : DMat) : Option (Sys LinSysData X) :=
  if B.rows = s.stateSize ∧ B.cols = s.controlDims then some { s with der := { s.der with B := B } } else none

end Sys

namespace Meas

variable {T D X : Type}

/-- `measurementSize()`, measurement_model.cpp:19-21. -/
def measurementSize (m : Meas D X) : Nat := m.measDims
/-- `stateSize()`, filter_model.cpp:24-26. -/
def stateSize (m : Meas D X) : Nat := m.fm.stateDims

/-- `setActiveMeasurements`, measurement_model.cpp:31-53. -/
def setActiveMeasurements (m : Meas D X) (l : List Nat) : Meas D X :=
  let valid := validIndices m.measDims l
  { m with activeMeasurements := sortIndices valid, measurementUsage := usageOf m.measurementUsage valid }

/-- `activeMeasurementSize()`, measurement_model.cpp:23-25. -/
def activeMeasurementSize (m : Meas D X) : Nat :=
  if m.activeMeasurements.isEmpty then m.measDims else m.activeMeasurements.length

/-- Constructor `MeasurementModel(n, k)`, measurement_model.cpp:6-12. -/
def construct (n k : Nat) (der : D) (ext : X) : Meas D X :=
  setActiveMeasurements
    { fm := FilterModel.construct n, measDims := k, activeMeasurements := [],
      measurementUsage := List.replicate k false, cov := .zero k k, der := der, ext := ext } []

/-- `LinearMeasurementModel` constructor, linear_measurement_model.cpp:6-8. -/
def constructLinear (n k : Nat) (ext : X) : Meas LinMeasData X := construct n k ⟨.zero k n⟩ ext

/-- `NonlinearMeasurementModel` constructor, nonlinear_measurement_model.cpp:6-10. -/
def constructNonlinear (n k : Nat) (ext : X) : Meas NonlinMeasData X := construct n k ⟨.zero k, .zero k n⟩ ext

/-- `update(x, dt)`, measurement_model.cpp:14-17. -/
def update (m : Meas D X) (c : MeasClass T D X) (x : DVec) (dt : T) : Option (Meas D X) :=
  if x.size = m.stateSize then c.myUpdate m x dt else none

/-- `setCovariance`, measurement_model.cpp:63-66. -/
def setCovariance (m : Meas D X) (R : DMat) : Option (Meas D X) :=
  if R.rows = m.measDims ∧ R.cols = m.measDims then some { m with cov := R } else none

/-- `setC`, linear_measurement_model.cpp:14-17. -/
def setC (m : Meas LinMeasData X) (C : DMat) : Option (Meas LinMeasData X) :=
  if C.rows = m.measDims ∧ C.cols = m.stateSize then some { m with der := ⟨C⟩ } else none

end Meas

/-- The model objects behind a filter: the system model and the measurement models, by handle. -/
structure Env (K DS XS DM XM : Type) where
  sys : Sys DS XS
  meas : K → Meas DM XM

/-- Store a measurement model. -/
def Env.setMeas {K DS XS DM XM : Type} [DecidableEq K] (e : Env K DS XS DM XM) (k : K) (m : Meas DM XM) :
    Env K DS XS DM XM :=
  { e with meas := fun j => if j = k then m else e.meas j }

/-- The part of the plant that is the same for every filter class: everything `FilterBase` calls on the models. -/
noncomputable def mkPlant {T K DS XS DM XM : Type} [DecidableEq K] (sc : SysClass T DS XS)
    (mc : K → MeasClass T DM XM)
    (predict : Env K DS XS DM XM → DVec → DMat → DVec → T → Option (DVec × DMat × Env K DS XS DM XM))
    (correct : Env K DS XS DM XM → DVec → DMat → DVec → K → T → Option (DVec × DMat × Env K DS XS DM XM)) :
    Plant T DVec DMat K (Env K DS XS DM XM) where
  vsize := DVec.size
  emptyV := DVec.empty
  emptyM := DMat.empty
  zeroV := DVec.zero
  controlSize e := e.sys.controlDims
  rc e := e.sys.Rc
  setRc e R := (e.sys.setControlCovariance R).map fun s => { e with sys := s }
  sysCheck e := e.sys.fm.checkStationary
  sysIsStationary e := e.sys.fm.isStationary
  sysProcess e x u := (sc.processStationary e.sys x u).map fun s => { e with sys := s }
  sysMake e := e.sys.fm.makeStationary
  setMeasCov e k R := ((e.meas k).setCovariance R).map (e.setMeas k)
  measCheck e k := (e.meas k).fm.checkStationary
  measIsStationary e k := (e.meas k).fm.isStationary
  measProcess e k x z := ((mc k).processStationary (e.meas k) x z).map (e.setMeas k)
  measMake e k := (e.meas k).fm.makeStationary
  myPredict := predict
  myCorrect := correct

end StateEstimation
