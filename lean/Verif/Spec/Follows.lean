import Verif.Spec.WorstCase
import Verif.Spec.Sigma

/-! # Specification vocabulary: a true state that obeys nonlinear models approximately -/

namespace StateEstimation

open Matrix

/-- Euclidean length. -/
noncomputable def len {a : Nat} (v : Fin a → ℝ) : ℝ := √(∑ i, v i ^ 2)

/-- Bounds on a run: `gain` on the Jacobian of the motion, `noise` from below on the modelled noise of each motion, `sensor`
from below on the measurement covariances, `cov` from above on the reported covariances, `bend` and `bendH` on the
nonlinearity of `g` and `h` up to the distance `reach`, `disturb` and `err` on disturbances and measurement errors, and
`often` on the number of measurements per motion. -/
structure TrackLimits where
  (gain noise sensor cov bend bendH reach disturb err : ℝ)
  often : Nat

variable {T K X Y : Type}

/-- `g()` bends at most by `bend`: within the distance `reach` it differs from its linearisation by at most `bend` times the
square of the distance. -/
def SysBends (sc : SysClass T NonlinSysData X) (n m : Nat) (s0 : Sys NonlinSysData X) (u : DVec) (dt : T) (bend reach : ℝ) :
    Prop :=
  ∀ (x y gx gy : Fin n → ℝ) (G : Matrix (Fin n) (Fin n) ℝ) (t t' : Sys NonlinSysData X),
    s0.UpdatedAt sc n m (.of x) u dt t → s0.UpdatedAt sc n m (.of y) u dt t' → t.der.g = .of gx → t.der.G = .of G →
    t'.der.g = .of gy → len (y - x) ≤ reach → len (gy - gx - G *ᵥ (y - x)) ≤ bend * len (y - x) ^ 2

/-- Same for `h()`. -/
def MeasBends (mc : MeasClass T NonlinMeasData Y) (n k : Nat) (s0 : Meas NonlinMeasData Y) (dt : T) (bend reach : ℝ) : Prop :=
  ∀ (x y : Fin n → ℝ) (hx hy : Fin k → ℝ) (H : Matrix (Fin k) (Fin n) ℝ) (t t' : Meas NonlinMeasData Y),
    s0.UpdatedAt mc n k (.of x) dt t → s0.UpdatedAt mc n k (.of y) dt t' → t.der.h = .of hx → t.der.H = .of H →
    t'.der.h = .of hy → len (y - x) ≤ reach → len (hy - hx - H *ᵥ (y - x)) ≤ bend * len (y - x) ^ 2

variable [DecidableEq K] [LinearOrder T] [ExactTime T]

/-- `Follows lim sc mc n m kd s0 f y k c`: after some calls the EKF is `f` and the true state is `y`; there were `k` motions, and
`c` measurements since the last one.

* `start`: the filter is constructed with a belief such that the true state is within `s0` standard deviations;
* `move`: `predict(u, t)`; the true state moves to `g(y)` of the filter's model, up to a disturbance;
* `measure`: `correct(z, R, t, j)` at the current time; the sensor reads `h(y)` of the model, up to an error. -/
inductive Follows (lim : TrackLimits) (sc : SysClass T NonlinSysData X) (mc : K → MeasClass T NonlinMeasData Y) (n m : Nat)
    (kd : K → Nat) (s0 : ℝ) :
    Filter T DVec DMat K (Env K NonlinSysData X NonlinMeasData Y) → (Fin n → ℝ) → Nat → Nat → Prop
  | start (params : Params T) (e : Env K NonlinSysData X NonlinMeasData Y) (x0 y0 : Fin n → ℝ) (P0 : Matrix (Fin n) (Fin n) ℝ)
      (t : T) :
      e.sys.Sized NonlinSysData.Sized n m → (∀ j, (e.meas j).Sized NonlinMeasData.Sized n (kd j)) →
      e.sys.fm.checkStationary = false → (∀ j, (e.meas j).fm.checkStationary = false) →
      P0.PosSemidef → (lim.cov • (1 : Matrix (Fin n) (Fin n) ℝ) - P0).PosSemidef → WithinSigmas s0 P0 (y0 - x0) →
      Follows lim sc mc n m kd s0 (Filter.construct (ekfPlant sc mc) params e (.of x0) (.of P0) t) y0 0 lim.often
  | move {f y k c} (g : Filter T DVec DMat K (Env K NonlinSysData X NonlinMeasData Y)) (u : Fin m → ℝ) (t : T)
      (gy d : Fin n → ℝ) {p : Nat} (G P : Matrix (Fin n) (Fin n) ℝ) (W : Matrix (Fin n) (Fin p) ℝ) (V : Matrix (Fin n) (Fin m) ℝ)
      (Rp : Matrix (Fin p) (Fin p) ℝ) (Rc : Matrix (Fin m) (Fin m) ℝ) :
      Follows lim sc mc n m kd s0 f y k c → 0 < m → f.getStateTime ≤ t →
      f.predictControl (ekfPlant sc mc) (.of u) t = some g →
      SysBends sc n m f.env.sys (.of u) (TimeOps.sub t f.getStateTime) lim.bend lim.reach →
      SysImage sc n m f.env.sys (.of y) (.of u) (TimeOps.sub t f.getStateTime) gy → len d ≤ lim.disturb →
      g.env.sys.der.G = .of G → g.env.sys.P = .of W → g.env.sys.V = .of V → f.env.sys.Rp = .of Rp → f.env.sys.Rc = .of Rc →
      (lim.gain ^ 2 • (1 : Matrix (Fin n) (Fin n) ℝ) - G * Gᵀ).PosSemidef →
      (W * Rp * Wᵀ + V * Rc * Vᵀ - lim.noise • (1 : Matrix (Fin n) (Fin n) ℝ)).PosSemidef →
      g.getCovariance = .of P → (lim.cov • (1 : Matrix (Fin n) (Fin n) ℝ) - P).PosSemidef →
      Follows lim sc mc n m kd s0 g (gy + d) (k + 1) 0
  | measure {f y k c} (g : Filter T DVec DMat K (Env K NonlinSysData X NonlinMeasData Y)) (j : K)
      (R : Matrix (Fin (kd j)) (Fin (kd j)) ℝ) (hy e : Fin (kd j) → ℝ) :
      Follows lim sc mc n m kd s0 f y k c → c < lim.often →
      f.correct (ekfPlant sc mc) (.of (hy + e)) (.of R) f.getStateTime (some j) = some g →
      MeasBends (mc j) n (kd j) { f.env.meas j with cov := .of R } (TimeOps.sub f.getStateTime f.getStateTime) lim.bendH
        lim.reach →
      MeasImage (mc j) n (kd j) { f.env.meas j with cov := .of R } (.of y) (TimeOps.sub f.getStateTime f.getStateTime) hy →
      len e ≤ lim.err →
      (R - lim.sensor • (1 : Matrix (Fin (kd j)) (Fin (kd j)) ℝ)).PosSemidef →
      Follows lim sc mc n m kd s0 g y k (c + 1)

end StateEstimation
