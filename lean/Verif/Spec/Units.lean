import Verif.Spec.Models
import Verif.Model.KF

/-!
# Specification vocabulary: the same problem in other units

`Units` is a linear change of the coordinates of the state (`T`), the control (`U`), the process noise (`N`) and of each
sensor (`D k`).  The other definitions say what the same estimate, model, input or call looks like in the new
coordinates: a vector `v` becomes `T v`, a covariance `P` becomes `T P Tᵀ`, a Jacobian `A` from state to state becomes
`T A T⁻¹` (written without the inverse).
-/

namespace StateEstimation

open Matrix

/-- A change of coordinates for `n` states, `m` controls, `p` process noises and sensors with `kd k` measurements.  The
state and sensor changes are invertible. -/
structure Units (n m p : Nat) {K : Type} (kd : K → Nat) where
  T : Matrix (Fin n) (Fin n) ℝ
  U : Matrix (Fin m) (Fin m) ℝ
  N : Matrix (Fin p) (Fin p) ℝ
  D : ∀ k, Matrix (Fin (kd k)) (Fin (kd k)) ℝ
  hT : IsUnit T.det
  hD : ∀ k, IsUnit (D k).det

namespace Units

variable {T K X Y : Type} {n m p : Nat} {kd : K → Nat}

/-- Lower triangular with a positive diagonal.  In particular: a positive conversion factor for each component. -/
def LowerPos {a : Nat} (A : Matrix (Fin a) (Fin a) ℝ) : Prop := (∀ i j, i < j → A i j = 0) ∧ ∀ i, 0 < A i i

/-- `w` is the vector `v` in coordinates `A`. -/
def VecIn {a : Nat} (A : Matrix (Fin a) (Fin a) ℝ) (v w : DVec) : Prop :=
  ∃ x : Fin a → ℝ, v = .of x ∧ w = .of (A *ᵥ x)

/-- `Q` is the covariance `P` in coordinates `A`. -/
def CovIn {a : Nat} (A : Matrix (Fin a) (Fin a) ℝ) (P Q : DMat) : Prop :=
  ∃ M : Matrix (Fin a) (Fin a) ℝ, P = .of M ∧ Q = .of (A * M * Aᵀ)

/-- `J'` is the matrix `J` (from vectors in coordinates `B` to vectors in coordinates `A`) in the new coordinates:
`J' B = A J`. -/
def MatIn {a b : Nat} (A : Matrix (Fin a) (Fin a) ℝ) (B : Matrix (Fin b) (Fin b) ℝ) (J J' : DMat) : Prop :=
  ∃ M M' : Matrix (Fin a) (Fin b) ℝ, J = .of M ∧ J' = .of M' ∧ M' * B = A * M

/-- The estimate in the new coordinates. -/
def StateIn (u : Units n m p kd) (x : DVec) (c : DMat) (x' : DVec) (c' : DMat) : Prop :=
  VecIn u.T x x' ∧ CovIn u.T c c'

/-- Control data: absent on both sides, or the same control in the new coordinates. -/
def DataIn (u : Units n m p kd) (d d' : DVec) : Prop :=
  (0 < d.size ∧ VecIn u.U d d') ∨ (d.size = 0 ∧ d'.size = 0)

/-- The stationary functions of two models answer the same question: the predicate agrees on corresponding arguments and
the substitute estimates correspond. `R` says what corresponding data are. -/
structure StationaryIn (u : Units n m p kd) (R : DVec → DVec → Prop) (f f' : FilterModel) : Prop where
  check : f.checkStationary = f'.checkStationary
  is : ∀ x c x' c' d d', u.StateIn x c x' c' → R d d' → f.isStationary x d = f'.isStationary x' d'
  make : ∀ x c x' c', u.StateIn x c x' c' →
    match f.makeStationary x c, f'.makeStationary x' c' with
    | some r, some r' => u.StateIn r.1 r.2 r'.1 r'.2
    | none, none => True
    | _, _ => False

/-- Two system models describe the same system, `s'` in the new coordinates; `dr` says so of the linear or nonlinear
part. -/
structure SysIn {D : Type} (u : Units n m p kd) (dr : D → D → Prop) (s s' : Sys D X) : Prop where
  states : s.stateSize = n
  states' : s'.stateSize = n
  controls : s.controlDims = m
  controls' : s'.controlDims = m
  der : dr s.der s'.der
  P : MatIn u.T u.N s.P s'.P
  Rp : CovIn u.N s.Rp s'.Rp
  V : MatIn u.T u.U s.V s'.V
  Rc : CovIn u.U s.Rc s'.Rc
  fm : u.StationaryIn u.DataIn s.fm s'.fm

/-- Two measurement models describe the same sensor, `s'` in the new coordinates. -/
structure MeasIn {D : Type} (u : Units n m p kd) (k : K) (dr : D → D → Prop) (s s' : Meas D Y) : Prop where
  states : s.stateSize = n
  states' : s'.stateSize = n
  meas : s.measDims = kd k
  meas' : s'.measDims = kd k
  der : dr s.der s'.der
  cov : CovIn (u.D k) s.cov s'.cov
  fm : u.StationaryIn (VecIn (u.D k)) s.fm s'.fm

/-- Linear systems: `A' T = T A` and `B' U = T B`. -/
def LinSysIn (u : Units n m p kd) (d d' : LinSysData) : Prop := MatIn u.T u.T d.A d'.A ∧ MatIn u.T u.U d.B d'.B
/-- Nonlinear systems: `g' = T g` and `G' T = T G`. -/
def NonlinSysIn (u : Units n m p kd) (d d' : NonlinSysData) : Prop := VecIn u.T d.g d'.g ∧ MatIn u.T u.T d.G d'.G
/-- Linear sensors: `C' T = D C`. -/
def LinMeasIn (u : Units n m p kd) (k : K) (d d' : LinMeasData) : Prop := MatIn (u.D k) u.T d.C d'.C
/-- Nonlinear sensors: `h' = D h` and `H' T = D H`. -/
def NonlinMeasIn (u : Units n m p kd) (k : K) (d d' : NonlinMeasData) : Prop :=
  VecIn (u.D k) d.h d'.h ∧ MatIn (u.D k) u.T d.H d'.H

/-- Both calls fail, or both succeed with corresponding results. -/
def Both {α β : Type} (R : α → β → Prop) : Option α → Option β → Prop
  | none, none => True
  | some a, some b => R a b
  | _, _ => False

/-- Two system model classes compute the same thing in their own coordinates. -/
structure SysClassIn {D : Type} (u : Units n m p kd) (dr : D → D → Prop) (c c' : SysClass T D X) : Prop where
  ops : c.PlainOps
  ops' : c'.PlainOps
  update : ∀ s s' x v dt, u.SysIn dr s s' →
    Both (u.SysIn dr) (c.myUpdate s (.of x) (.of v) dt) (c'.myUpdate s' (.of (u.T *ᵥ x)) (.of (u.U *ᵥ v)) dt)
  stationary : ∀ s s' x d d', u.SysIn dr s s' → u.DataIn d d' →
    Both (u.SysIn dr) (c.processStationary s (.of x) d) (c'.processStationary s' (.of (u.T *ᵥ x)) d')

/-- Two measurement model classes compute the same thing in their own coordinates. -/
structure MeasClassIn {D : Type} (u : Units n m p kd) (k : K) (dr : D → D → Prop) (c c' : MeasClass T D Y) : Prop where
  ops : c.PlainOps
  ops' : c'.PlainOps
  update : ∀ s s' x dt, u.MeasIn k dr s s' →
    Both (u.MeasIn k dr) (c.myUpdate s (.of x) dt) (c'.myUpdate s' (.of (u.T *ᵥ x)) dt)
  stationary : ∀ s s' x z, u.MeasIn k dr s s' →
    Both (u.MeasIn k dr) (c.processStationary s (.of x) (.of z))
      (c'.processStationary s' (.of (u.T *ᵥ x)) (.of (u.D k *ᵥ z)))

/-- All model objects correspond. -/
def EnvIn {DS DM : Type} (u : Units n m p kd) (ds : DS → DS → Prop) (dm : K → DM → DM → Prop) (e e' : Env K DS X DM Y) : Prop :=
  u.SysIn ds e.sys e'.sys ∧ ∀ k, u.MeasIn k (dm k) (e.meas k) (e'.meas k)

/-- The same call in the new coordinates. -/
def CallIn {E : Type} (u : Units n m p kd) (RE : E → E → Prop) : Op T DVec DMat K E → Op T DVec DMat K E → Prop
  | .init x c t, .init x' c' t' => t = t' ∧ u.StateIn x c x' c'
  | .predictTime t, .predictTime t' => t = t'
  | .predictControl v t, .predictControl v' t' => t = t' ∧ u.DataIn v v'
  | .correct z c t k, .correct z' c' t' k' =>
      t = t' ∧ ∃ j, k = some j ∧ k' = some j ∧ VecIn (u.D j) z z' ∧ CovIn (u.D j) c c'
  | .enqueueControl v t, .enqueueControl v' t' => t = t' ∧ u.DataIn v v'
  | .enqueueMeasurement z c t k, .enqueueMeasurement z' c' t' k' =>
      t = t' ∧ ∃ j, k = some j ∧ k' = some j ∧ VecIn (u.D j) z z' ∧ CovIn (u.D j) c c'
  | .processQueues, .processQueues => True
  | .clearControlQueue, .clearControlQueue => True
  | .clearMeasurementQueue, .clearMeasurementQueue => True
  | .revertToState t, .revertToState t' => t = t'
  | .setParams p, .setParams p' => p = p'
  | .userModel g, .userModel g' => ∀ e e', RE e e' → Both RE (g e) (g' e')
  | _, _ => False

end Units
end StateEstimation
