import Verif.Spec.DataFree
import Verif.Model.KF

/-!
# Specification vocabulary: what a Kalman filter has been told

`Recorded … f ctl evs`: the filter `f` was constructed and then used by in-order calls (any number, any of `predict(u, t)`,
`predict(t)`, `correct(z, R, t, j)`); `evs` lists, newest first, the motions and measurements these calls stand for, with
the matrices the models had; `ctl` is the control in use.
-/

namespace StateEstimation

open Matrix

variable {T K X Y : Type} [DecidableEq K] [LinearOrder T] [ExactTime T]

/-- Something the filter has been told about a state of `n` numbers moved by `m` controls. -/
inductive Event (n m : Nat) where
  /-- the state moved: `x := A x + B u + W w + V v`, with process noise `w` of covariance `Rp` and control noise `v` of
  covariance `Rc` -/
  | move {p : Nat} (A : Matrix (Fin n) (Fin n) ℝ) (B : Matrix (Fin n) (Fin m) ℝ) (W : Matrix (Fin n) (Fin p) ℝ)
      (V : Matrix (Fin n) (Fin m) ℝ) (Rp : Matrix (Fin p) (Fin p) ℝ) (Rc : Matrix (Fin m) (Fin m) ℝ) (u : Fin m → ℝ)
  /-- `z = C x` plus noise of covariance `R` was measured -/
  | measure {k : Nat} (C : Matrix (Fin k) (Fin n) ℝ) (R : Matrix (Fin k) (Fin k) ℝ) (z : Fin k → ℝ)

/-- Noise covariances are covariances: positive semidefinite, that of a measurement positive definite. -/
def Event.Ok {n m : Nat} : Event n m → Prop
  | .move _ _ _ _ Rp Rc _ => Rp.PosSemidef ∧ Rc.PosSemidef
  | .measure _ R _ => R.PosDef

/-- The matrices a system model object holds. -/
structure Sys.Holds {n m p : Nat} (s : Sys LinSysData X) (A : Matrix (Fin n) (Fin n) ℝ) (B : Matrix (Fin n) (Fin m) ℝ)
    (W : Matrix (Fin n) (Fin p) ℝ) (V : Matrix (Fin n) (Fin m) ℝ) (Rp : Matrix (Fin p) (Fin p) ℝ)
    (Rc : Matrix (Fin m) (Fin m) ℝ) : Prop where
  A : s.der.A = .of A
  B : s.der.B = .of B
  W : s.P = .of W
  V : s.V = .of V
  Rp : s.Rp = .of Rp
  Rc : s.Rc = .of Rc

/-- See the head of the file.  `x0`, `P0` are the arguments of the constructor.  The matrices of a call are those the model
objects hold after it. -/
inductive Recorded (sc : SysClass T LinSysData X) (mc : K → MeasClass T LinMeasData Y) (n m : Nat) (kd : K → Nat)
    (x0 : Fin n → ℝ) (P0 : Matrix (Fin n) (Fin n) ℝ) :
    Filter T DVec DMat K (Env K LinSysData X LinMeasData Y) → (Fin m → ℝ) → List (Event n m) → Prop
  | start (params : Params T) (e : Env K LinSysData X LinMeasData Y) (t : T) :
      e.sys.Sized LinSysData.Sized n m → (∀ j, (e.meas j).Sized LinMeasData.Sized n (kd j)) → Quiet e →
      Recorded sc mc n m kd x0 P0 (Filter.construct (kfPlant sc mc) params e (.of x0) (.of P0) t) 0 []
  /-- `predict(u, t)`, `t` not in the past, `u` not empty -/
  | predict {f ctl evs g} (u : Fin m → ℝ) (t : T) {p : Nat} {A B W V Rp Rc} :
      Recorded sc mc n m kd x0 P0 f ctl evs → 0 < m → f.getStateTime ≤ t →
      f.predictControl (kfPlant sc mc) (.of u) t = some g → g.env.sys.Holds (p := p) A B W V Rp Rc →
      Recorded sc mc n m kd x0 P0 g u (.move A B W V Rp Rc u :: evs)
  /-- `predict(t)`, `t` in the future: moves with the control in use -/
  | predictTime {f ctl evs g} (t : T) {p : Nat} {A B W V Rp Rc} :
      Recorded sc mc n m kd x0 P0 f ctl evs → f.getStateTime < t →
      f.predictTime (kfPlant sc mc) t = some g → g.env.sys.Holds (p := p) A B W V Rp Rc →
      Recorded sc mc n m kd x0 P0 g ctl (.move A B W V Rp Rc ctl :: evs)
  /-- `correct(z, R, t, j)` at the current time -/
  | correct {f ctl evs g} (j : K) (z : Fin (kd j) → ℝ) (R : Matrix (Fin (kd j)) (Fin (kd j)) ℝ)
      {C : Matrix (Fin (kd j)) (Fin n) ℝ} :
      Recorded sc mc n m kd x0 P0 f ctl evs →
      f.correct (kfPlant sc mc) (.of z) (.of R) f.getStateTime (some j) = some g → (g.env.meas j).der.C = .of C →
      Recorded sc mc n m kd x0 P0 g ctl (.measure C R z :: evs)
  /-- `correct(z, R, t, j)`, `t` in the future: moves with the control in use, then measures -/
  | correctLater {f ctl evs g} (j : K) (z : Fin (kd j) → ℝ) (R : Matrix (Fin (kd j)) (Fin (kd j)) ℝ) (t : T)
      {C : Matrix (Fin (kd j)) (Fin n) ℝ} {p : Nat} {A B W V Rp Rc} :
      Recorded sc mc n m kd x0 P0 f ctl evs → f.getStateTime < t →
      f.correct (kfPlant sc mc) (.of z) (.of R) t (some j) = some g → (g.env.meas j).der.C = .of C →
      g.env.sys.Holds (p := p) A B W V Rp Rc →
      Recorded sc mc n m kd x0 P0 g ctl (.measure C R z :: .move A B W V Rp Rc ctl :: evs)

/-! ### How well a history explains what the filter has been told -/

/-- The cost of a noise vector `w` under covariance `Q`: `wᵀ Q⁻¹ w` for invertible `Q` (`misfit_inv` in `Props/LeastSquares`).
For singular `Q` only vectors in its range are possible; those `w = Q a` cost `aᵀ Q a`.  A set, which is empty or a
singleton. -/
def Misfit {a : Nat} (Q : Matrix (Fin a) (Fin a) ℝ) (w : Fin a → ℝ) : Set ℝ := {c | ∃ b, w = Q *ᵥ b ∧ c = b ⬝ᵥ (Q *ᵥ b)}

/-- `Explains x0 P0 evs y c`: there is a history, i.e. a first state and noises, that ends in the state `y`, agrees with
the events, and whose misfits (of the first state to the initial belief, of all process and control noises and of all
measurement errors) add up to `c`. -/
inductive Explains {n m : Nat} (x0 : Fin n → ℝ) (P0 : Matrix (Fin n) (Fin n) ℝ) :
    List (Event n m) → (Fin n → ℝ) → ℝ → Prop
  | start {y c} : c ∈ Misfit P0 (y - x0) → Explains x0 P0 [] y c
  | move {evs y c p A B W V Rp Rc u} {w : Fin p → ℝ} {v : Fin m → ℝ} {cw cv} : Explains x0 P0 evs y c →
      cw ∈ Misfit Rp w → cv ∈ Misfit Rc v →
      Explains x0 P0 (.move A B W V Rp Rc u :: evs) (A *ᵥ y + B *ᵥ u + W *ᵥ w + V *ᵥ v) (c + cw + cv)
  | measure {evs y c k} {C : Matrix (Fin k) (Fin n) ℝ} {R z cz} : Explains x0 P0 evs y c → cz ∈ Misfit R (z - C *ᵥ y) →
      Explains x0 P0 (.measure C R z :: evs) y (c + cz)

/-! ### Superposed histories -/

/-- The same event three times, with any data in the first two and `a` times the first plus `b` times the second in the
third. -/
inductive Event.Mix {n m : Nat} (a b : ℝ) : Event n m → Event n m → Event n m → Prop
  | move {p : Nat} (A B W V Rp Rc u u') :
      Event.Mix a b (.move (p := p) A B W V Rp Rc u) (.move A B W V Rp Rc u') (.move A B W V Rp Rc (a • u + b • u'))
  | measure {k : Nat} (C R z z') :
      Event.Mix a b (.measure (k := k) C R z) (.measure C R z') (.measure C R (a • z + b • z'))

/-- Event by event. -/
inductive Mixed {n m : Nat} (a b : ℝ) : List (Event n m) → List (Event n m) → List (Event n m) → Prop
  | nil : Mixed a b [] [] []
  | cons {e e' e'' l l' l''} : Event.Mix a b e e' e'' → Mixed a b l l' l'' → Mixed a b (e :: l) (e' :: l') (e'' :: l'')

end StateEstimation
