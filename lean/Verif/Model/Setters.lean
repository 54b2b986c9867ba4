import Verif.Model.Models

/-!
# The remaining setters of the model classes, and sequences of calls on a model object
-/

namespace StateEstimation

/-- `setIsStationaryFunction(f)`, filter_model.cpp:77-80 (an empty `std::function` is `none`). -/
def FilterModel.setIsStationaryFunction (fm : FilterModel) (f : Option (DVec → DVec → Bool)) : FilterModel :=
  { fm with isStationaryF := f }

/-- `setMakeStationaryFunction(f)`, filter_model.cpp:82-85. -/
def FilterModel.setMakeStationaryFunction (fm : FilterModel) (f : Option (DVec → DMat → Option (DVec × DMat))) : FilterModel :=
  { fm with makeStationaryF := f }

/-- The calls that configure a linear system model: linear_system_model.h, system_model.h, filter_model.h (public setters;
`setTf` concerns the 6-D models only). -/
inductive SysCall where
  | setA (A : DMat)
  | setB (B : DMat)
  | setProcessCovariance (R : DMat)
  | setControlCovariance (R : DMat)
  | setActiveStates (l : List Nat)
  | setActiveControls (l : List Nat)
  | setIsStationaryFunction (f : Option (DVec → DVec → Bool))
  | setMakeStationaryFunction (f : Option (DVec → DMat → Option (DVec × DMat)))

/-- One call on the object: the functions cited above; `none`: an assertion fails. -/
def SysCall.run {X : Type} (s : Sys LinSysData X) : SysCall → Option (Sys LinSysData X)
  | .setA A => s.setA A
  | .setB B => s.setB B
  | .setProcessCovariance R => s.setProcessCovariance R
  | .setControlCovariance R => s.setControlCovariance R
  | .setActiveStates l => some (s.setActiveStates l)
  | .setActiveControls l => some (s.setActiveControls l)
  | .setIsStationaryFunction f => some { s with fm := s.fm.setIsStationaryFunction f }
  | .setMakeStationaryFunction f => some { s with fm := s.fm.setMakeStationaryFunction f }

/-- The calls that configure a linear measurement model: linear_measurement_model.h, measurement_model.h, filter_model.h. -/
inductive MeasCall where
  | setC (C : DMat)
  | setCovariance (R : DMat)
  | setActiveMeasurements (l : List Nat)
  | setActiveStates (l : List Nat)
  | setIsStationaryFunction (f : Option (DVec → DVec → Bool))
  | setMakeStationaryFunction (f : Option (DVec → DMat → Option (DVec × DMat)))

/-- One call on the object. -/
def MeasCall.run {X : Type} (s : Meas LinMeasData X) : MeasCall → Option (Meas LinMeasData X)
  | .setC C => s.setC C
  | .setCovariance R => s.setCovariance R
  | .setActiveMeasurements l => some (s.setActiveMeasurements l)
  | .setActiveStates l => some { s with fm := s.fm.setActiveStates l }
  | .setIsStationaryFunction f => some { s with fm := s.fm.setIsStationaryFunction f }
  | .setMakeStationaryFunction f => some { s with fm := s.fm.setMakeStationaryFunction f }

end StateEstimation
