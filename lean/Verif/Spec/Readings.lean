import Verif.Model.Models
import Mathlib.Data.Matrix.Mul

/-!
# Specification vocabulary: readings of sensors

A list of readings, of any sensors, all stamped with the same time, and what can be concluded from them without a filter.
-/

namespace StateEstimation

open Matrix

/-- A reading: which sensor, what it read, with which covariance. -/
structure Reading (K : Type) (kd : K → Nat) where
  sensor : K
  z : Fin (kd sensor) → ℝ
  R : Matrix (Fin (kd sensor)) (Fin (kd sensor)) ℝ

/-- The call `correct(z, R, t, sensor)`. -/
def Reading.call {K : Type} {kd : K → Nat} {T E : Type} (t : T) (r : Reading K kd) : Op T DVec DMat K E :=
  .correct (.of r.z) (.of r.R) t (some r.sensor)

/-- A linear combination of readings: a weight for each number read. -/
abbrev Combination (K : Type) (kd : K → Nat) := List (Σ r : Reading K kd, Fin (kd r.sensor) → ℝ)

namespace Combination

variable {K : Type} {kd : K → Nat} {n : Nat}

/-- The readings used. -/
def readings (l : Combination K kd) : List (Reading K kd) := l.map Sigma.fst

/-- When sensor `j` reads `C j x + noise`, the combination reads `w · x + noise` with this `w`. -/
def estimates (C : (j : K) → Matrix (Fin (kd j)) (Fin n) ℝ) (l : Combination K kd) : Fin n → ℝ :=
  (l.map fun r => (C r.1.sensor)ᵀ *ᵥ r.2).sum

/-- ... and this is the variance of the noise, when the readings are independent. -/
def variance (l : Combination K kd) : ℝ := (l.map fun r => r.2 ⬝ᵥ (r.1.R *ᵥ r.2)).sum

end Combination
end StateEstimation
