import Verif.Model.Models
import Verif.Model.Geometry

/-!
# The 6-D rates models: definitions/six_d_rates.cpp, system_models/six_d_rates.cpp, measurement_models/six_d_rates_odom.cpp,
measurement_models/six_d_rates_imu.cpp, and `setTf` of filters/filter_model.cpp

Simplification: exact real arithmetic; time differences are real numbers.
-/

namespace StateEstimation

open Matrix

/-- `v.segment(i, 3)`; out of range is an `eigen_assert`. -/
def DVec.seg3? (v : DVec) (i : Nat) : Option V3 :=
  if h : i + 3 ≤ v.size then some fun k => v.val ⟨i + k.val, by omega⟩ else none

/-- `v.segment(i, 3) = s`. -/
def DVec.setSeg3? (v : DVec) (i : Nat) (s : V3) : Option DVec :=
  if i + 3 ≤ v.size then
    some ⟨v.size, fun j => if h : i ≤ j.val ∧ j.val < i + 3 then s ⟨j.val - i, by omega⟩ else v.val j⟩
  else none

/-- `A.block<3, 3>(i, j) = B`. -/
def DMat.setBlock33? (A : DMat) (i j : Nat) (B : M3) : Option DMat :=
  if i + 3 ≤ A.rows ∧ j + 3 ≤ A.cols then
    some ⟨A.rows, A.cols, fun a b =>
      if h : (i ≤ a.val ∧ a.val < i + 3) ∧ (j ≤ b.val ∧ b.val < j + 3) then
        B ⟨a.val - i, by omega⟩ ⟨b.val - j, by omega⟩ else A.val a b⟩
  else none

/-- `A.block<1, 3>(i, j) = r`. -/
def DMat.setBlock13? (A : DMat) (i j : Nat) (r : V3) : Option DMat :=
  if i + 1 ≤ A.rows ∧ j + 3 ≤ A.cols then
    some ⟨A.rows, A.cols, fun a b =>
      if h : a.val = i ∧ (j ≤ b.val ∧ b.val < j + 3) then r ⟨b.val - j, by omega⟩ else A.val a b⟩
  else none

namespace SixDRates

/-! State indices, definitions/six_d_rates.h:12-46. -/
/-- linear velocity -/
abbrev VX : Nat := 0
/-- linear acceleration -/
abbrev AX : Nat := 3
/-- angular velocity -/
abbrev VPHI : Nat := 6
/-- gravity -/
abbrev GX : Nat := 9
/-- accelerometer bias -/
abbrev B_AX : Nat := 12
/-- gyroscope bias -/
abbrev B_WX : Nat := 15
/-- number of states -/
abbrev DIMS : Nat := 18

/-- `9.8062 * v.normalized()`. -/
noncomputable def rescaled (v : V3) : V3 := (9.8062 : ℝ) • normalized v

/-- `addState(lhs, rhs, usage)`, definitions/six_d_rates.cpp:7-12 (`usage` is not used). -/
noncomputable def addState (lhs rhs : DVec) : Option DVec := do
  let r ← lhs.add rhs
  let g ← r.seg3? GX
  r.setSeg3? GX (rescaled g)

/-- `subtractState(lhs, rhs, usage)`, definitions/six_d_rates.cpp:14-19. -/
noncomputable def subtractState (lhs rhs : DVec) : Option DVec := do
  let r ← lhs.sub rhs
  let g ← r.seg3? GX
  r.setSeg3? GX (rescaled g)

/-- The loop of `weightedSumOfStates`, definitions/six_d_rates.cpp:26-30. -/
noncomputable def weightedLoop (w : DVec) (X : DMat) : Nat → Nat → DVec → Option DVec
  | 0, _, acc => some acc
  | fuel + 1, i, acc => do
    let wi ← w.get? i
    let xi ← X.col? i
    let delta := xi.smul wi
    let g ← delta.seg3? GX
    let delta ← delta.setSeg3? GX (rescaled g)
    let acc ← acc.add delta
    weightedLoop w X fuel (i + 1) acc

/-- `weightedSumOfStates(w, X, usage)`, definitions/six_d_rates.cpp:21-33. -/
noncomputable def weightedSumOfStates (w : DVec) (X : DMat) : Option DVec :=
  if w.size = X.cols then weightedLoop w X w.size 0 (DVec.zero X.rows) else none

/-- Members not covered by `Sys`: `compute_jacobian_`, `update_covariance_` (nonlinear_system_model.h). -/
structure Flags where
  computeJacobian : Bool
  updateCovariance : Bool

/-- A `SixDRates` object. -/
abbrev Obj := Sys NonlinSysData Flags

/-- Constructor, system_models/six_d_rates.cpp:11-17: 18 states, no controls, 15 process noises, `G_` the identity. -/
noncomputable def construct (computeJacobian updateCovariance : Bool) : Obj :=
  let s := Sys.constructNonlinear DIMS 0 15 ⟨computeJacobian, updateCovariance⟩
  { s with der := { s.der with G := DMat.identity DIMS } }

/-- `stateUsage()[i]` as a number.  Simplification: the vector has 18 entries (filter_model.cpp:9), so the default is
not used. -/
def used (s : Obj) (i : Nat) : ℝ := if s.fm.stateUsage.getD i false then 1 else 0

/-- `x(i) += c`. -/
def addAt (x : DVec) (i : Nat) (c : ℝ) : Option DVec := do
  let a ← x.get? i
  x.set? i (a + c)

/-- `myUpdate`: the state prediction, system_models/six_d_rates.cpp:20-39. -/
noncomputable def predictState (s : Obj) (x : DVec) (dt : ℝ) : Option DVec := do
  let gi ← x.seg3? GX
  let wi ← x.seg3? VPHI
  let a ← x.seg3? AX
  let qDelta := deltaQuaternion dt wi
  let dv := integrateVelocityRK4 dt a wi 0
  let xp ← addAt x 0 (used s 0 * dv 0)
  let xp ← addAt xp 1 (used s 1 * dv 1)
  let xp ← addAt xp 2 (used s 2 * dv 2)
  if s.fm.stateUsage.getD 9 false && s.fm.stateUsage.getD 10 false && s.fm.stateUsage.getD 11 false then
    xp.setSeg3? GX (qDelta.rot gi)
  else some xp

/-- The block of `G_` for gravity with respect to angular velocity, system_models/six_d_rates.cpp:50-54.
`w_i.transpose() * g_i * I3` is the inner product times the identity. -/
noncomputable def jacGravityRate (dt : ℝ) (g w : V3) : M3 :=
  (-(deltaQuaternion dt w).w * dt) • skew g +
    (0.5 * dt ^ 2) • ((w ⬝ᵥ g) • (1 : M3) + vecMulVec w g - vecMulVec g w)

/-- The block of `G_` for gravity with respect to itself, system_models/six_d_rates.cpp:56-59. -/
noncomputable def jacGravityGravity (dt : ℝ) (w : V3) : M3 :=
  let q := deltaQuaternion dt w
  (q.w ^ 2 + q.vec ⬝ᵥ q.vec) • (1 : M3) + vecMulVec q.vec q.vec + (2 * q.w) • skew q.vec

/-- The Jacobian update, system_models/six_d_rates.cpp:41-60. -/
noncomputable def updateJacobian (G : DMat) (x : DVec) (dt : ℝ) : Option DMat := do
  let gi ← x.seg3? GX
  let wi ← x.seg3? VPHI
  let G ← G.set? 0 3 dt
  let G ← G.set? 1 4 dt
  let G ← G.set? 2 5 dt
  let G ← G.setBlock33? GX VPHI (jacGravityRate dt gi wi)
  G.setBlock33? GX GX (jacGravityGravity dt wi)

/-- The block of `P_` for gravity with respect to angular acceleration, system_models/six_d_rates.cpp:96-100. -/
noncomputable def noiseGravity (dt : ℝ) (g w : V3) : M3 :=
  (0.5 * dt ^ 2) • ((-(deltaQuaternion dt w).w) • skew g + dt • (vecMulVec w g + (w ⬝ᵥ g) • (1 : M3))
    - (0.5 * dt) • vecMulVec w g)

/-- The noise Jacobian update, system_models/six_d_rates.cpp:62-101. -/
noncomputable def updateNoise (P : DMat) (x : DVec) (dt : ℝ) : Option DMat := do
  let gi ← x.seg3? GX
  let wi ← x.seg3? VPHI
  let P ← P.set? 0 0 (0.5 * dt ^ 2)
  let P ← P.set? 1 1 (0.5 * dt ^ 2)
  let P ← P.set? 2 2 (0.5 * dt ^ 2)
  let P ← P.set? 0 3 (0.5 * dt ^ 2)
  let P ← P.set? 1 4 (0.5 * dt ^ 2)
  let P ← P.set? 2 5 (0.5 * dt ^ 2)
  let P ← P.set? 3 0 dt
  let P ← P.set? 4 1 dt
  let P ← P.set? 5 2 dt
  let P ← P.set? 3 3 dt
  let P ← P.set? 4 4 dt
  let P ← P.set? 5 5 dt
  let P ← P.set? 6 6 dt
  let P ← P.set? 7 7 dt
  let P ← P.set? 8 8 dt
  let P ← P.set? 6 9 dt
  let P ← P.set? 7 10 dt
  let P ← P.set? 8 11 dt
  P.setBlock33? GX 12 (noiseGravity dt gi wi)

/-- `myUpdate(x, u, dt)`, system_models/six_d_rates.cpp:19-102 (`u` is not used). -/
noncomputable def myUpdate (s : Obj) (x _u : DVec) (dt : ℝ) : Option Obj := do
  let xp ← predictState s x dt
  let G ← if s.ext.computeJacobian then updateJacobian s.der.G x dt else some s.der.G
  let P ← if s.ext.updateCovariance then updateNoise s.P x dt else some s.P
  some { s with der := ⟨xp, G⟩, P := P }

/-- The sizes every `SixDRates` object has: fixed by the constructor, changed by no member function. -/
def Shape (s : Obj) : Prop := s.fm.stateDims = 18 ∧ s.controlDims = 0 ∧ s.Rp.rows = 15

open Classical in
/-- The class `SixDRates`: system_models/six_d_rates.cpp.  The general theorems about filters speak about classes whose
objects may have any size; on objects which are not of the shape of `SixDRates` (there are none) the class is
continued by the defaults of the base class. -/
noncomputable def cls : SysClass ℝ NonlinSysData Flags where
  myUpdate s x u dt := if Shape s then myUpdate s x u dt else some s
  add s a b := if Shape s then addState a b else a.add b
  sub s a b := if Shape s then subtractState a b else a.sub b
  wsum s w X := if Shape s then weightedSumOfStates w X else weightedSum w X
  processStationary s _ _ := some s

end SixDRates

/-- Members of the measurement models not covered by `Meas`: `tf_`, `tf_set_` (filter_model.h) and `compute_jacobian_`
(nonlinear_measurement_model.h). -/
structure TfData where
  tf : Iso
  tfSet : Bool
  computeJacobian : Bool

/-- A nonlinear measurement model with a transform. -/
abbrev TfMeas := Meas NonlinMeasData TfData

open Classical in
/-- `setTf(tf)`, filter_model.cpp:15-22; `post` is the virtual `postTfUpdate`. -/
noncomputable def TfMeas.setTf (post : TfMeas → Option TfMeas) (m : TfMeas) (tf : Iso) : Option TfMeas :=
  let m := { m with ext := { m.ext with tf := tf, tfSet := !decide (tf.R = 1 ∧ tf.t = 0) } }
  if m.ext.tfSet then post m else some m

namespace SixDRatesOdom

/-- `myUpdate(x, dt)`, six_d_rates_odom.cpp:18-25. -/
noncomputable def myUpdate (m : TfMeas) (x : DVec) (_dt : ℝ) : Option TfMeas := do
  let v ← x.seg3? SixDRates.VX
  let w ← x.seg3? SixDRates.VPHI
  let z ← m.der.h.setSeg3? 0 (transformLinearVelocity v w m.ext.tf)
  let z ← z.set? 3 (transformAngularVelocity w m.ext.tf.R 2)
  some { m with der := { m.der with h := z } }

/-- `postTfUpdate()`, six_d_rates_odom.cpp:27-41. -/
noncomputable def postTfUpdate (m : TfMeas) : Option TfMeas :=
  if m.ext.computeJacobian then do
    let H ← m.der.H.setBlock33? 0 SixDRates.VX m.ext.tf.R
    let H ← H.setBlock33? 0 SixDRates.VPHI (-skew m.ext.tf.t * m.ext.tf.R)
    let H ← H.setBlock13? 3 SixDRates.VPHI (m.ext.tf.R 2)
    some { m with der := { m.der with H := H } }
  else some m

/-- Constructor, six_d_rates_odom.cpp:12-16. -/
noncomputable def construct (computeJacobian : Bool) : Option TfMeas :=
  postTfUpdate (Meas.constructNonlinear SixDRates.DIMS 4 ⟨Iso.identity, false, computeJacobian⟩)

/-- The sizes every object has. -/
def Shape (m : TfMeas) : Prop := m.fm.stateDims = 18 ∧ m.measDims = 4

open Classical in
/-- The class `SixDRatesOdom`, continued by doing nothing on objects of another shape (there are none). -/
noncomputable def cls : MeasClass ℝ NonlinMeasData TfData :=
  MeasClass.plain fun m x dt => if Shape m then myUpdate m x dt else some m

end SixDRatesOdom

namespace SixDRatesImu

/-- `myUpdate(x, dt)`, six_d_rates_imu.cpp:18-29. -/
noncomputable def myUpdate (m : TfMeas) (x : DVec) (_dt : ℝ) : Option TfMeas := do
  let a ← x.seg3? SixDRates.AX
  let ba ← x.seg3? SixDRates.B_AX
  let g ← x.seg3? SixDRates.GX
  let z ← m.der.h.setSeg3? 0 (a - ba + g)
  let w ← x.seg3? SixDRates.VPHI
  let bw ← x.seg3? SixDRates.B_WX
  let z ← z.setSeg3? 3 (w - bw)
  let z ← if m.ext.tfSet then do
      let za ← z.seg3? 0
      let z ← z.setSeg3? 0 (m.ext.tf.R *ᵥ za)
      let zw ← z.seg3? 3
      z.setSeg3? 3 (m.ext.tf.R *ᵥ zw)
    else some z
  some { m with der := { m.der with h := z } }

/-- `postTfUpdate()`, six_d_rates_imu.cpp:31-47. -/
noncomputable def postTfUpdate (m : TfMeas) : Option TfMeas :=
  if m.ext.computeJacobian then do
    let H ← m.der.H.setBlock33? 0 SixDRates.AX m.ext.tf.R
    let H ← H.setBlock33? 0 SixDRates.B_AX (-m.ext.tf.R)
    let H ← H.setBlock33? 0 SixDRates.GX m.ext.tf.R
    let H ← H.setBlock33? 3 SixDRates.VPHI m.ext.tf.R
    let H ← H.setBlock33? 3 SixDRates.B_WX (-m.ext.tf.R)
    some { m with der := { m.der with H := H } }
  else some m

/-- Constructor, six_d_rates_imu.cpp:10-16. -/
noncomputable def construct (computeJacobian : Bool) : Option TfMeas :=
  postTfUpdate (Meas.constructNonlinear SixDRates.DIMS 6 ⟨Iso.identity, false, computeJacobian⟩)

/-- The sizes every object has. -/
def Shape (m : TfMeas) : Prop := m.fm.stateDims = 18 ∧ m.measDims = 6

open Classical in
/-- The class `SixDRatesImu`, continued by doing nothing on objects of another shape (there are none). -/
noncomputable def cls : MeasClass ℝ NonlinMeasData TfData :=
  MeasClass.plain fun m x dt => if Shape m then myUpdate m x dt else some m

end SixDRatesImu

end StateEstimation
