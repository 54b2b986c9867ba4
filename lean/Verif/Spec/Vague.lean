import Verif.Model.KF
import Verif.Spec.Models

/-!
# Specification vocabulary: a sensor whose readings become worthless

`Fades`: as the covariance `r • R0` handed in with a measurement grows, the estimate after the correction tends to the estimate
without it.  `Believed`: as it shrinks, the estimate comes to agree with the measurement.
-/

namespace StateEstimation

open Filter

/-- What an update of the sensor `m` computes (`look` picks the part in question: the predicted measurement, its Jacobian, ...)
is a function of the state and the elapsed time only: it does not depend on the covariance set in the object, nor on what the
object computed before. -/
def MeasClass.Determines {T D Y A : Type} (mc : MeasClass T D Y) (dz : Nat → Nat → D → Prop) (m : Meas D Y) (n k : Nat)
    (look : D → A) : Prop :=
  ∃ val : (Fin n → ℝ) → T → A, ∀ (m' r : Meas D Y) (x : Fin n → ℝ) (dt : T), m'.Sized dz n k → m'.fm = m.fm →
    m'.activeMeasurements = m.activeMeasurements → mc.myUpdate m' (.of x) dt = some r → look r.der = val x dt

/-- What an update of the sensor at the state `x` after the time `dt` computes, whatever covariance is set and whatever the object
computed before. -/
def MeasClass.Yields {T D Y : Type} (mc : MeasClass T D Y) (dz : Nat → Nat → D → Prop) (me : Meas D Y) {n : Nat} (k : Nat)
    (x : Fin n → ℝ) (dt : T) (d : D → Prop) : Prop :=
  ∀ m' r : Meas D Y, m'.Sized dz n k → m'.fm = me.fm → m'.activeMeasurements = me.activeMeasurements →
    mc.myUpdate m' (.of x) dt = some r → d r.der

/-- With the covariance `r • R0`, `r` large enough, `correct(z, ·, t, sensor)` of the filter `f` succeeds at the time `t` and
leaves each component of the state within `ε` of `x`, and each entry of the covariance within `ε` of `P`. -/
def Fades {T K E : Type} [TimeOps T] (plant : Plant T DVec DMat K E) (f : Filter T DVec DMat K E) (j : K) (t : T) {n k : Nat}
    (z : Fin k → ℝ) (R0 : Matrix (Fin k) (Fin k) ℝ) (x : Fin n → ℝ) (P : Matrix (Fin n) (Fin n) ℝ) : Prop :=
  ∀ ε : ℝ, 0 < ε → ∃ r0 : ℝ, 0 < r0 ∧ ∀ r : ℝ, r0 ≤ r →
    ∃ (g : Filter T DVec DMat K E) (x' : Fin n → ℝ) (P' : Matrix (Fin n) (Fin n) ℝ),
      f.correct plant (.of z) (.of (r • R0)) t (some j) = some g ∧ g.getStateTime = t ∧
      g.getState = .of x' ∧ g.getCovariance = .of P' ∧
      (∀ a, |x' a - x a| ≤ ε) ∧ ∀ a b, |P' a b - P a b| ≤ ε

/-- With the covariance `r • R0`, `r > 0` small enough, `correct(z, ·, t, sensor)` of the filter `f` succeeds at the time `t` and
leaves a state whose predicted reading `pred` is within `ε` of `target` in every component, and a covariance that makes the
predicted reading's covariance `unc` less than `ε` in every entry. -/
def Believed {T K E : Type} [TimeOps T] (plant : Plant T DVec DMat K E) (f : Filter T DVec DMat K E) (j : K) (t : T) {n k a : Nat}
    (z : Fin k → ℝ) (R0 : Matrix (Fin k) (Fin k) ℝ) (pred : (Fin n → ℝ) → Fin a → ℝ)
    (unc : Matrix (Fin n) (Fin n) ℝ → Matrix (Fin a) (Fin a) ℝ) (target : Fin a → ℝ) : Prop :=
  ∀ ε : ℝ, 0 < ε → ∃ r0 : ℝ, 0 < r0 ∧ ∀ r : ℝ, 0 < r → r ≤ r0 →
    ∃ (g : Filter T DVec DMat K E) (x' : Fin n → ℝ) (P' : Matrix (Fin n) (Fin n) ℝ),
      f.correct plant (.of z) (.of (r • R0)) t (some j) = some g ∧ g.getStateTime = t ∧
      g.getState = .of x' ∧ g.getCovariance = .of P' ∧
      (∀ i, |pred x' i - target i| ≤ ε) ∧ ∀ i l, |unc P' i l| ≤ ε

end StateEstimation
