import Verif.Spec.Units
import Verif.Spec.Filter
import Verif.Model.UKF

/-!
# Specification vocabulary: offsets

A constant `d` is added to the states and constants `δ k` are added to the readings of the sensors `k`.
-/

namespace StateEstimation
namespace Offset

open Units (Both)

variable {T K X Y : Type}

/-- `a + d` (component `i` of the offset is `d i`). -/
noncomputable def shift (d : Nat → ℝ) (a : DVec) : DVec := ⟨a.size, fun i => a.val i + d i⟩

/-- The offset added to every column. -/
noncomputable def shiftCols (d : Nat → ℝ) (A : DMat) : DMat := ⟨A.rows, A.cols, fun i j => A.val i j + d i⟩

/-- Two system model objects (`n` states, `l` controls, `np` process noises) that agree in everything but the last predicted state; no stationary predicate. -/
structure SysSame (n l np : Nat) (s s' : Sys NonlinSysData X) : Prop where
  same : s' = { s with der := s'.der }
  G : s'.der.G = s.der.G
  states : s.fm.stateDims = n
  controls : s.controlDims = l
  noises : s.Rp.rows = np
  quiet : s.fm.checkStationary = false

/-- Two measurement model objects (`n` states, `k` measurements, the user's members are `ext`) that agree in everything but the
last expected measurement; no stationary predicate. -/
structure MeasSame (n k : Nat) (ext : Y) (s s' : Meas NonlinMeasData Y) : Prop where
  same : s' = { s with der := s'.der }
  H : s'.der.H = s.der.H
  states : s.fm.stateDims = n
  meas : s.measDims = k
  ext : s.ext = ext
  h : s.der.h.size = k
  h' : s'.der.h.size = k
  quiet : s.fm.checkStationary = false

/-- A system model class that carries the offset `d` along: from a state with the offset it predicts the same with the offset, with
the same derivatives, and a correction added to a state with the offset gives the result with the offset. -/
structure SysCarries (n l np : Nat) (d : Nat → ℝ) (sc : SysClass T NonlinSysData X) : Prop where
  update : ∀ s s' x u dt, SysSame n l np s s' → x.size = n →
    Both (fun r r' => SysSame n l np r r' ∧ r'.der.g = shift d r.der.g) (sc.myUpdate s x u dt) (sc.myUpdate s' (shift d x) u dt)
  add : ∀ s s' x y, SysSame n l np s s' → Both (fun a b => b = shift d a) (sc.add s x y) (sc.add s' (shift d x) y)

/-- What the unscented filter needs in addition. -/
structure SysAverages (n l np : Nat) (d : Nat → ℝ) (sc : SysClass T NonlinSysData X) : Prop where
  sub : ∀ s s' x y, SysSame n l np s s' → sc.sub s' (shift d x) (shift d y) = sc.sub s x y
  down : ∀ s s' x y, SysSame n l np s s' → Both (fun a b => b = shift d a) (sc.sub s x y) (sc.sub s' (shift d x) y)
  wsum : ∀ s s' w A, SysSame n l np s s' → ∑ i, w.val i = 1 →
    Both (fun a b => b = shift d a) (sc.wsum s w A) (sc.wsum s' w (shiftCols d A))

/-- A sensor whose expected reading has the offset `δ` if the state has the offset `d`, with the same derivatives. -/
structure MeasCarries (n k : Nat) (ext : Y) (d δ : Nat → ℝ) (mc : MeasClass T NonlinMeasData Y) : Prop where
  update : ∀ s s' x dt, MeasSame n k ext s s' → x.size = n →
    Both (fun r r' => MeasSame n k ext r r' ∧ r'.der.h = shift δ r.der.h) (mc.myUpdate s x dt) (mc.myUpdate s' (shift d x) dt)
  sub : ∀ s s' x y, MeasSame n k ext s s' → mc.sub s' (shift δ x) (shift δ y) = mc.sub s x y

/-- What the unscented filter needs in addition. -/
structure MeasAverages (n k : Nat) (ext : Y) (δ : Nat → ℝ) (mc : MeasClass T NonlinMeasData Y) : Prop where
  wsum : ∀ s s' w A, MeasSame n k ext s s' → ∑ i, w.val i = 1 →
    Both (fun a b => b = shift δ a) (mc.wsum s w A) (mc.wsum s' w (shiftCols δ A))

/-- All model objects agree. -/
def EnvSame (n l np : Nat) (kd : K → Nat) (ext : K → Y) (e e' : Env K NonlinSysData X NonlinMeasData Y) : Prop :=
  SysSame n l np e.sys e'.sys ∧ ∀ k, MeasSame n (kd k) (ext k) (e.meas k) (e'.meas k)

/-- The same call, with the offsets added to initial states and measurements. -/
def Call {E : Type} (d : Nat → ℝ) (δ : K → Nat → ℝ) (RE : E → E → Prop) : Op T DVec DMat K E → Op T DVec DMat K E → Prop
  | .init x c t, .init x' c' t' => t = t' ∧ x' = shift d x ∧ c = c'
  | .predictTime t, .predictTime t' => t = t'
  | .predictControl v t, .predictControl v' t' => t = t' ∧ v = v'
  | .correct z c t k, .correct z' c' t' k' => t = t' ∧ ∃ j, k = some j ∧ k' = some j ∧ z' = shift (δ j) z ∧ c = c'
  | .enqueueControl v t, .enqueueControl v' t' => t = t' ∧ v = v'
  | .enqueueMeasurement z c t k, .enqueueMeasurement z' c' t' k' =>
    t = t' ∧ ∃ j, k = some j ∧ k' = some j ∧ z' = shift (δ j) z ∧ c = c'
  | .processQueues, .processQueues => True
  | .clearControlQueue, .clearControlQueue => True
  | .clearMeasurementQueue, .clearMeasurementQueue => True
  | .revertToState t, .revertToState t' => t = t'
  | .setParams p, .setParams p' => p = p'
  | .userModel g, .userModel g' => ∀ e e', RE e e' → Both RE (g e) (g' e')
  | _, _ => False

/-- Both runs fail, or both complete, at the same time, the second estimate being the first plus `d`, with equal covariances, now
and at every remembered moment. -/
def OffsetOutcome {E : Type} (d : Nat → ℝ) (o o' : Option (Filter T DVec DMat K E)) : Prop :=
  Both (fun f g => f.getStateTime = g.getStateTime ∧ g.getState = shift d f.getState ∧ f.getCovariance = g.getCovariance ∧
    List.Forall₂ (fun s s' => s.timestamp = s'.timestamp ∧ s'.x = shift d s.x ∧ s.covariance = s'.covariance) f.retained g.retained) o o'

/-- Sigma point parameters for `n` states whose mean weights sum to one (as `setSigmaPointParameters` makes them). -/
def Weights (n : Nat) (sp : SigmaParams) : Prop := sp.num = 2 * n + 1 ∧ ∑ i, sp.wMean.val i = 1

end Offset
end StateEstimation
