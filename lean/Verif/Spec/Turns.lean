import Verif.Spec.Units
import Verif.Spec.Filter
import Verif.Model.UKF
import Verif.Model.Angles

/-!
# Specification vocabulary: full turns

Some components of the states and of the measurements are angles.  Two vectors are the same *up to full turns* if they agree
in all components, except that angles may differ by multiples of `2π`.
-/

namespace StateEstimation
namespace Turns

open Units (Both)

variable {T K X Y : Type}

/-- The same up to full turns in the components of which `J` holds. -/
def Vec (J : Nat → Prop) (a b : DVec) : Prop :=
  a.size = b.size ∧ ∀ i (h : i < a.size) (h' : i < b.size), ∃ k : ℤ,
    b.val ⟨i, h'⟩ = a.val ⟨i, h⟩ + k * (2 * Real.pi) ∧ (k = 0 ∨ J i)

/-- The same for the columns of a matrix. -/
def Mat (J : Nat → Prop) (A B : DMat) : Prop :=
  A.rows = B.rows ∧ A.cols = B.cols ∧ ∀ i j (hi : i < A.rows) (hj : j < A.cols) (hi' : i < B.rows) (hj' : j < B.cols), ∃ k : ℤ,
    B.val ⟨i, hi'⟩ ⟨j, hj'⟩ = A.val ⟨i, hi⟩ ⟨j, hj⟩ + k * (2 * Real.pi) ∧ (k = 0 ∨ J i)

/-- Two system model objects that agree in everything but full turns in the last predicted state, without stationary
predicate. -/
structure SysSame (J : Nat → Prop) (s s' : Sys NonlinSysData X) : Prop where
  same : s' = { s with der := s'.der }
  g : Vec J s.der.g s'.der.g
  G : s'.der.G = s.der.G
  quiet : s.fm.checkStationary = false

/-- Two measurement model objects that agree in everything but full turns in the last expected measurement, without
stationary predicate. -/
structure MeasSame (J : Nat → Prop) (s s' : Meas NonlinMeasData Y) : Prop where
  same : s' = { s with der := s'.der }
  h : Vec J s.der.h s'.der.h
  H : s'.der.H = s.der.H
  quiet : s.fm.checkStationary = false

/-- A system model class for which full turns are nothing: predictions of the same state are the same, with the same
derivatives, and adding to the same states gives the same state. -/
structure SysClassOk (J : Nat → Prop) (sc : SysClass T NonlinSysData X) : Prop where
  update : ∀ s s' x x' u dt, SysSame J s s' → Vec J x x' → Both (SysSame J) (sc.myUpdate s x u dt) (sc.myUpdate s' x' u dt)
  add : ∀ s s' x x' d, SysSame J s s' → Vec J x x' → Both (Vec J) (sc.add s x d) (sc.add s' x' d)

/-- What the unscented filter needs in addition: the differences of the same states are equal and averages of the same states
are the same. -/
structure SysAveragesOk (J : Nat → Prop) (sc : SysClass T NonlinSysData X) : Prop where
  sub : ∀ s s' x x' y y', SysSame J s s' → Vec J x x' → Vec J y y' → sc.sub s x y = sc.sub s' x' y'
  wsum : ∀ s s' w A A', SysSame J s s' → Mat J A A' → Both (Vec J) (sc.wsum s w A) (sc.wsum s' w A')

/-- A measurement model class for which full turns are nothing: the same state lets expect the same measurement, with the same
derivatives, and the differences of the same measurements are equal. -/
structure MeasClassOk (J Jz : Nat → Prop) (mc : MeasClass T NonlinMeasData Y) : Prop where
  update : ∀ s s' x x' dt, MeasSame Jz s s' → Vec J x x' → Both (MeasSame Jz) (mc.myUpdate s x dt) (mc.myUpdate s' x' dt)
  sub : ∀ s s' x x' y y', MeasSame Jz s s' → Vec Jz x x' → Vec Jz y y' → mc.sub s x y = mc.sub s' x' y'

/-- What the unscented filter needs in addition: averages of the same measurements are the same. -/
structure MeasAveragesOk (Jz : Nat → Prop) (mc : MeasClass T NonlinMeasData Y) : Prop where
  wsum : ∀ s s' w A A', MeasSame Jz s s' → Mat Jz A A' → Both (Vec Jz) (mc.wsum s w A) (mc.wsum s' w A')

/-- All model objects agree. -/
def EnvSame (J : Nat → Prop) (Jz : K → Nat → Prop) (e e' : Env K NonlinSysData X NonlinMeasData Y) : Prop :=
  SysSame J e.sys e'.sys ∧ ∀ k, MeasSame (Jz k) (e.meas k) (e'.meas k)

/-- The same call, up to full turns in the initial states and in the measurements. -/
def Call {E : Type} (J : Nat → Prop) (Jz : K → Nat → Prop) (RE : E → E → Prop) : Op T DVec DMat K E → Op T DVec DMat K E → Prop
  | .init x c t, .init x' c' t' => t = t' ∧ Vec J x x' ∧ c = c'
  | .predictTime t, .predictTime t' => t = t'
  | .predictControl v t, .predictControl v' t' => t = t' ∧ v = v'
  | .correct z c t k, .correct z' c' t' k' => t = t' ∧ ∃ j, k = some j ∧ k' = some j ∧ Vec (Jz j) z z' ∧ c = c'
  | .enqueueControl v t, .enqueueControl v' t' => t = t' ∧ v = v'
  | .enqueueMeasurement z c t k, .enqueueMeasurement z' c' t' k' => t = t' ∧ ∃ j, k = some j ∧ k' = some j ∧ Vec (Jz j) z z' ∧ c = c'
  | .processQueues, .processQueues => True
  | .clearControlQueue, .clearControlQueue => True
  | .clearMeasurementQueue, .clearMeasurementQueue => True
  | .revertToState t, .revertToState t' => t = t'
  | .setParams p, .setParams p' => p = p'
  | .userModel g, .userModel g' => ∀ e e', RE e e' → Both RE (g e) (g' e')
  | _, _ => False

/-- Both runs fail, or both complete, at the same time, with the same state up to full turns and equal covariances, now and
at every remembered moment. -/
def SameOutcome {E : Type} (J : Nat → Prop) (o o' : Option (Filter T DVec DMat K E)) : Prop :=
  Both (fun f g => f.getStateTime = g.getStateTime ∧ Vec J f.getState g.getState ∧ f.getCovariance = g.getCovariance ∧
    List.Forall₂ (fun s s' => s.timestamp = s'.timestamp ∧ Vec J s.x s'.x ∧ s.covariance = s'.covariance) f.retained g.retained) o o'

/-- The angle among the planar states. -/
def PlanarAngle (i : Nat) : Prop := i = Planar2d.PSI

/-- Two angles that point in exactly opposite directions. -/
def Opposite (a b : ℝ) : Prop := ∃ k : ℤ, a - b = Real.pi + k * (2 * Real.pi)

/-- Two planar states that head in exactly opposite directions. -/
def OppositeHeadings (x y : DVec) : Prop := ∃ a b, x.get? Planar2d.PSI = some a ∧ y.get? Planar2d.PSI = some b ∧ Opposite a b

end Turns
end StateEstimation
