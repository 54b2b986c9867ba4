import Verif.Model.Angles
import Mathlib.LinearAlgebra.CrossProduct
import Mathlib.Analysis.SpecialFunctions.Sqrt

/-!
# Geometry: integration.cpp, math_utilities.cpp, transformation_utilities.cpp, imu_utilities.cpp, plotting_utilities.cpp

Simplification: exact real arithmetic.  Fixed-size Eigen vectors and matrices are functions on `Fin`.
-/

namespace StateEstimation

open Matrix Real

/-- `Eigen::Vector3d`. -/
abbrev V3 := Fin 3 → ℝ
/-- `Eigen::Matrix3d`. -/
abbrev M3 := Matrix (Fin 3) (Fin 3) ℝ

/-- `v.squaredNorm()`. -/
def sqNorm (v : V3) : ℝ := v 0 * v 0 + v 1 * v 1 + v 2 * v 2
/-- `v.norm()`. -/
noncomputable def norm3 (v : V3) : ℝ := sqrt (sqNorm v)
/-- `v.normalized()` / `v.normalize()`: Eigen divides by the norm if the squared norm is positive and leaves the vector
as it is otherwise (Eigen/src/Core/Dot.h). -/
noncomputable def normalized (v : V3) : V3 := if sqNorm v > 0 then (1 / sqrt (sqNorm v)) • v else v

/-- `skew(v)`, math_utilities.cpp:5-10. -/
def skew (v : V3) : M3 := !![0, -v 2, v 1; v 2, 0, -v 0; -v 1, v 0, 0]

/-- `Eigen::Quaterniond`. -/
@[ext] structure Quat where
  w : ℝ
  x : ℝ
  y : ℝ
  z : ℝ

namespace Quat

/-- `Identity()`. -/
def identity : Quat := ⟨1, 0, 0, 0⟩
/-- `vec()`. -/
def vec (q : Quat) : V3 := ![q.x, q.y, q.z]
/-- `q * p`, Eigen/src/Geometry/Quaternion.h `quat_product`. -/
def mul (a b : Quat) : Quat :=
  ⟨a.w * b.w - a.x * b.x - a.y * b.y - a.z * b.z,
   a.w * b.x + a.x * b.w + a.y * b.z - a.z * b.y,
   a.w * b.y + a.y * b.w + a.z * b.x - a.x * b.z,
   a.w * b.z + a.z * b.w + a.x * b.y - a.y * b.x⟩
/-- `q * v`, Eigen/src/Geometry/Quaternion.h `_transformVector`: `uv = vec x v; uv += uv; v + w uv + vec x uv`. -/
def rot (q : Quat) (v : V3) : V3 :=
  let uv := crossProduct q.vec v
  let uv := uv + uv
  v + q.w • uv + crossProduct q.vec uv

end Quat

/-- `deltaQuaternion(dt, w)`, integration.cpp:6-17. -/
noncomputable def deltaQuaternion (dt : ℝ) (w : V3) : Quat :=
  let wNorm := norm3 w
  if wNorm > 1e-9 then
    let thetaHalf := 0.5 * dt * wNorm
    let c := sin thetaHalf / wNorm
    ⟨cos thetaHalf, c * w 0, c * w 1, c * w 2⟩
  else Quat.identity

/-- `integrate(dt, q, w)`, integration.cpp:19-21. -/
noncomputable def integrate (dt : ℝ) (q : Quat) (w : V3) : Quat := q.mul (deltaQuaternion dt w)

/-- `integrateVelocityRK4(dt, a, w, &v)`, integration.cpp:23-40: the new `*v`. -/
noncomputable def integrateVelocityRK4 (dt : ℝ) (a w v : V3) : V3 :=
  let qMid := deltaQuaternion (0.5 * dt) w
  let qEnd := deltaQuaternion dt w
  let k1v := a
  let k2v := qMid.rot a
  let k3v := k2v
  let k4v := qEnd.rot a
  v + (1 / 6 : ℝ) • (dt • (k1v + (2 : ℝ) • k2v + (2 : ℝ) • k3v + k4v))

/-- `integratePositionRK4(dt, v_i, a, w, &p, &v)`, integration.cpp:42-66: the new `(*p, *v)`. -/
noncomputable def integratePositionRK4 (dt : ℝ) (vi a w p v : V3) : V3 × V3 :=
  let qMid := deltaQuaternion (0.5 * dt) w
  let qEnd := deltaQuaternion dt w
  let k1v := a
  let k2v := qMid.rot a
  let k3v := k2v
  let k4v := qEnd.rot a
  let v := v + (1 / 6 : ℝ) • (dt • (k1v + (2 : ℝ) • k2v + (2 : ℝ) • k3v + k4v))
  let k1p := vi
  let k2p := qMid.rot (vi + (0.5 * dt) • k1v)
  let k3p := qMid.rot (vi + (0.5 * dt) • k2v)
  let k4p := qEnd.rot (vi + dt • k3v)
  (p + (1 / 6 : ℝ) • (dt • (k1p + (2 : ℝ) • k2p + (2 : ℝ) • k3p + k4p)), v)

/-- `Eigen::Isometry3d`: `linear()` and `translation()`.  The type does not enforce that the linear part is a rotation. -/
structure Iso where
  R : M3
  t : V3

/-- `Isometry3d::Identity()`. -/
def Iso.identity : Iso := ⟨1, 0⟩
/-- `a * b`. -/
def Iso.mul (a b : Iso) : Iso := ⟨a.R * b.R, a.R *ᵥ b.t + a.t⟩

/-- `transformLinearAcceleration(a, w, tf)`, transformation_utilities.cpp:5-8. -/
def transformLinearAcceleration (a w : V3) (tf : Iso) : V3 :=
  tf.R *ᵥ (a + crossProduct w (crossProduct w tf.t))

/-- `transformLinearVelocity(v, w, tf)`, transformation_utilities.cpp:10-13. -/
def transformLinearVelocity (v w : V3) (tf : Iso) : V3 :=
  tf.R *ᵥ v + crossProduct (tf.R *ᵥ w) tf.t

/-- `transformAngularVelocity(w, R)`, transformation_utilities.cpp:15-17. -/
def transformAngularVelocity (w : V3) (R : M3) : V3 := R *ᵥ w

/-- `transformCovariance(cov, R)`, transformation_utilities.cpp:19-21. -/
def transformCovariance (cov R : M3) : M3 := R * cov * Rᵀ

/-- `orientationFromGravityVector(g)`, transformation_utilities.cpp:23-39.  Simplification: division by zero, which is
infinite or NaN in the program, is `none`. -/
noncomputable def orientationFromGravityVector (g : V3) : Option Quat :=
  let g := normalized g
  let gNormSq := sqNorm g
  if gNormSq > 1e-9 then
    let w := sqrt (0.5 * (-g 2 + sqrt gNormSq))
    if w = 0 then none
    else some ⟨w, g 1 / (2 * w), -g 0 / (2 * w), 0⟩
  else some Quat.identity

/-- `predictAccelMeasurement(a, w, tf, include_gravity, orientation, g)`, imu_utilities.cpp:7-17. -/
def predictAccelMeasurement (a w : V3) (tf : Iso) (includeGravity : Bool) (orientation : Quat) (g : ℝ) : V3 :=
  if includeGravity then transformLinearAcceleration (a + orientation.rot ![0, 0, g]) w tf
  else transformLinearAcceleration a w tf

/-- `predictGyroMeasurement(w, R)`, imu_utilities.cpp:19-22. -/
def predictGyroMeasurement (w : V3) (R : M3) : V3 := transformAngularVelocity w R

/-- `gyroMeasurementJacobian(R)`, imu_utilities.cpp:24-28. -/
def gyroMeasurementJacobian (R : M3) : M3 := R

/-- `accelMeasurementJacobian(w, tf, include_gravity, rpy, g)`, imu_utilities.cpp:30-84: the nine columns. -/
noncomputable def accelMeasurementJacobian (w : V3) (tf : Iso) (includeGravity : Bool) (rpy : V3) (g : ℝ) :
    Matrix (Fin 3) (Fin 9) ℝ :=
  let R := tf.R
  let t := tf.t
  let i : V3 := ![1, 0, 0]
  let j : V3 := ![0, 1, 0]
  let k : V3 := ![0, 0, 1]
  let c6 := R *ᵥ (crossProduct i (crossProduct w t) + crossProduct w (crossProduct i t))
  let c7 := R *ᵥ (crossProduct j (crossProduct w t) + crossProduct w (crossProduct j t))
  let c8 := R *ᵥ (crossProduct k (crossProduct w t) + crossProduct w (crossProduct k t))
  let sphi := sin (rpy 0)
  let cphi := cos (rpy 0)
  let stheta := sin (rpy 1)
  let ctheta := cos (rpy 1)
  let spsi := sin (rpy 2)
  let cpsi := cos (rpy 2)
  let dphi : V3 := ![-sphi * stheta * cpsi + cphi * spsi, -sphi * stheta * spsi - cphi * cpsi, -sphi * ctheta]
  let dtheta : V3 := ![cphi * ctheta * cpsi, cphi * ctheta * spsi, -cphi * stheta]
  let dpsi : V3 := ![-cphi * stheta * spsi + sphi * cpsi, cphi * stheta * cpsi + sphi * spsi, 0]
  let c3 := if includeGravity then (g • R) *ᵥ dphi else 0
  let c4 := if includeGravity then (g • R) *ᵥ dtheta else 0
  let c5 := if includeGravity then (g • R) *ᵥ dpsi else 0
  Matrix.of fun row => ![R row 0, R row 1, R row 2, c3 row, c4 row, c5 row, c6 row, c7 row, c8 row]

/-- `Eigen::Vector2d`. -/
abbrev V2 := Fin 2 → ℝ

/-- `Rotation2D(angle) * v`. -/
noncomputable def rotate2 (angle : ℝ) (v : V2) : V2 :=
  ![cos angle * v 0 - sin angle * v 1, sin angle * v 0 + cos angle * v 1]

/-- One point of the loop in `getEllipsePoints`, plotting_utilities.cpp:14-19. -/
noncomputable def ellipsePoint (a b : ℝ) (offset : V2) (angle : ℝ) (numPts i : Nat) : V2 :=
  let theta := i * 2 * π / numPts
  rotate2 angle ![a * cos theta, b * sin theta] + offset

/-- `getEllipsePoints(a, b, offset, angle, num_pts)`, plotting_utilities.cpp:7-22: the loop writes entry `i` for
`i = 0, ..., num_pts - 1`.  Simplification: the `int` counter does not overflow (`num_pts < 2^31`). -/
noncomputable def getEllipsePoints (a b : ℝ) (offset : V2) (angle : ℝ) (numPts : Nat) : List V2 :=
  (List.range numPts).map (ellipsePoint a b offset angle numPts)

/-- Result of `Eigen::SelfAdjointEigenSolver`. -/
structure EigenResult (n : Nat) where
  values : Fin n → ℝ
  vectors : Matrix (Fin n) (Fin n) ℝ

/-- `get2DCovarianceEllipsePoints(cov, offset, num_pts)`, plotting_utilities.cpp:24-39; `solver` is Eigen's. -/
noncomputable def get2DCovarianceEllipsePoints (solver : Matrix (Fin 2) (Fin 2) ℝ → EigenResult 2)
    (cov : Matrix (Fin 2) (Fin 2) ℝ) (offset : V2) (numPts : Nat) : List V2 :=
  let r := solver cov
  let a := r.values 0
  let b := r.values 1
  let angle := atan2 (r.vectors 1 0) (r.vectors 0 0)
  getEllipsePoints a b offset angle numPts

/-- `q.coeffs()`: x, y, z, w. -/
def Quat.coeffs (q : Quat) : Fin 4 → ℝ := ![q.x, q.y, q.z, q.w]

/-- The loop of `weightedQuaternion`, angle_utilities.h:78-81. -/
def quatMomentLoop : List ℝ → List Quat → Matrix (Fin 4) (Fin 4) ℝ → Matrix (Fin 4) (Fin 4) ℝ
  | w :: ws, q :: qs, m => quatMomentLoop ws qs (m + w • vecMulVec q.coeffs q.coeffs)
  | _, _, m => m

/-- `weightedQuaternion(w, q_set)`, angle_utilities.h:72-88; `solver` is Eigen's.  The weights are a list here. -/
noncomputable def weightedQuaternion (solver : Matrix (Fin 4) (Fin 4) ℝ → EigenResult 4) (w : List ℝ) (q : List Quat) :
    Option Quat :=
  if w.length = q.length then
    let m := quatMomentLoop w q 0
    let v := (solver m).vectors
    some ⟨v 3 3, v 0 3, v 1 3, v 2 3⟩
  else none

/-- What is assumed of `Eigen::SelfAdjointEigenSolver` on a symmetric matrix: orthonormal eigenvectors as columns,
eigenvalues in increasing order. -/
structure EigenSpec {n : Nat} (solver : Matrix (Fin n) (Fin n) ℝ → EigenResult n) : Prop where
  eigen : ∀ A : Matrix (Fin n) (Fin n) ℝ, Aᵀ = A → ∀ j, A *ᵥ (solver A).vectors.col j = (solver A).values j • (solver A).vectors.col j
  orthonormal : ∀ A : Matrix (Fin n) (Fin n) ℝ, Aᵀ = A → (solver A).vectorsᵀ * (solver A).vectors = 1
  sorted : ∀ A : Matrix (Fin n) (Fin n) ℝ, Aᵀ = A → Monotone (solver A).values

end StateEstimation
