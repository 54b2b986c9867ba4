import Verif.Spec.History
import Verif.Spec.Models

/-!
# Specification vocabulary: a user's linear models, and the readings they get

`LinearUse` is what a user of the Kalman filter decides: a linear system whose matrices depend on the time step, the noise
covariances, and for each sensor `j` a matrix `C j`.  `sysClass`, `measClass`, `env` are the model classes the user derives
from `LinearSystemModel` and `LinearMeasurementModel` for them, and the objects.
-/

namespace StateEstimation

open Matrix

/-- `n` states, `m` controls, `p` process noises, sensors `K` with `kd j` measurements. -/
structure LinearUse (T K : Type) (n m p : Nat) (kd : K → Nat) where
  A : T → Matrix (Fin n) (Fin n) ℝ
  B : T → Matrix (Fin n) (Fin m) ℝ
  W : T → Matrix (Fin n) (Fin p) ℝ
  V : T → Matrix (Fin n) (Fin m) ℝ
  Rp : Matrix (Fin p) (Fin p) ℝ
  Rc : Matrix (Fin m) (Fin m) ℝ
  C : ∀ j, Matrix (Fin (kd j)) (Fin n) ℝ

/-- A measurement: time, sensor, value, covariance. -/
structure TimedReading (T : Type) {K : Type} (kd : K → Nat) where
  t : T
  j : K
  z : Fin (kd j) → ℝ
  R : Matrix (Fin (kd j)) (Fin (kd j)) ℝ

namespace LinearUse

variable {T K : Type} {n m p : Nat} {kd : K → Nat} (L : LinearUse T K n m p kd)

/-- Derived from `LinearSystemModel`: `myUpdate` sets `A`, `B`, the noise matrix `P` and the control noise matrix `V`.
(On an object of other sizes it does nothing; there are none.) -/
noncomputable def sysClass : SysClass T LinSysData Unit :=
  SysClass.plain fun s _ _ dt =>
    if s.stateSize = n ∧ s.controlDims = m ∧ s.Rp.rows = p then
      some { s with der := ⟨.of (L.A dt), .of (L.B dt)⟩, P := .of (L.W dt), V := .of (L.V dt) }
    else some s

/-- Derived from `LinearMeasurementModel`: `myUpdate` sets `C`. -/
noncomputable def measClass (j : K) : MeasClass T LinMeasData Unit :=
  MeasClass.plain fun s _ _ => if s.stateSize = n ∧ s.measDims = kd j then some { s with der := ⟨.of (L.C j)⟩ } else some s

/-- The objects, as constructed, with the noise covariances set. -/
noncomputable def env : Env K LinSysData Unit LinMeasData Unit where
  sys := { Sys.constructLinear n m p () with Rp := .of L.Rp, Rc := .of L.Rc }
  meas j := Meas.constructLinear n (kd j) ()

/-- What the readings in time order say, newest first: the system moved without control to the time of the reading, then the
measurement was made.  `evs` is what was known at time `t`. -/
def story [TimeOps T] : T → List (TimedReading T kd) → List (Event n m) → List (Event n m)
  | _, [], evs => evs
  | t, r :: rs, evs => story r.t rs (.measure (L.C r.j) r.R r.z ::
      .move (L.A (TimeOps.sub r.t t)) (L.B (TimeOps.sub r.t t)) (L.W (TimeOps.sub r.t t)) (L.V (TimeOps.sub r.t t)) L.Rp L.Rc 0
        :: evs)

end LinearUse

/-- The call `correct(z, R, t, j)`. -/
def TimedReading.call {T K E : Type} {kd : K → Nat} (r : TimedReading T kd) : Op T DVec DMat K E := .correct (.of r.z) (.of r.R) r.t (some r.j)

end StateEstimation
