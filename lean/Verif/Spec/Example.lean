import Verif.Model.Example
import Verif.Spec.Models

/-! # Specification vocabulary for the example program -/

namespace StateEstimation.Example

/-- An estimate of 18 states with a positive semidefinite covariance; gravity is (0, 0, 9.8062) and the biases are zero, and these
nine have the variances they started with and are uncorrelated with everything. -/
def Kept (x : DVec) (c : DMat) : Prop :=
  ∃ (v : Fin 18 → ℝ) (P : Matrix (Fin 18) (Fin 18) ℝ), x = .of v ∧ c = .of P ∧ P.PosSemidef ∧
    (∀ i : Fin 18, 9 ≤ i.val → v i = ![0, 0, 9.8062, 0, 0, 0, 0, 0, 0] ⟨i.val - 9, by omega⟩) ∧
    ∀ a b : Fin 18, 9 ≤ a.val ∨ 9 ≤ b.val →
      P a b = if a = b then ![1e-9, 1e-9, 1e-9, 1e-6, 1e-6, 1e-6, 1e-3, 1e-3, 1e-3] ⟨a.val - 9, by omega⟩ else 0

/-- A reading of a vehicle at rest: forward speed and turn rate of the odometry below 0.05, forward acceleration and turn rate of the IMU
below 0.30. -/
def Idle (m : Reading) : Prop :=
  match m.kind with
  | .odom => |(m.z.get? 0).getD 0| < 0.05 ∧ |(m.z.get? 3).getD 0| < 0.05
  | .imu => |(m.z.get? 0).getD 0| < 0.30 ∧ |(m.z.get? 5).getD 0| < 0.30

end StateEstimation.Example
