import Verif.Model.UKF
import Verif.Spec.Models
import Mathlib.Algebra.BigOperators.Group.Finset.Basic

/-! # Specification vocabulary for the unscented filters -/

namespace StateEstimation

open Matrix

/-- What is assumed of `Eigen::LLT`: on a positive definite matrix the factor `L` satisfies `L Lᵀ = M`. -/
def LltSpec (llt : DMat → Option DMat) : Prop :=
  ∀ {n : Nat} (M : Matrix (Fin n) (Fin n) ℝ), M.PosDef → ∃ L : Matrix (Fin n) (Fin n) ℝ, llt (.of M) = some (.of L) ∧ L * Lᵀ = M

/-- `sp` is what `setSigmaPointParameters` computes for some admissible parameters: `n + lambda > 0`, i.e.
`alpha² (n + kappa) > 0`, and `beta ≥ alpha²`. -/
def SigmaAdmissible (n : Nat) (sp : SigmaParams) : Prop :=
  ∃ alpha kappa beta : ℝ, setSigma n n alpha kappa beta = some sp ∧ 0 < alpha ^ 2 * (n + kappa) ∧ alpha ^ 2 ≤ beta

/-- `p` process noises; positive definite process noise, positive semidefinite control noise. -/
def NoisePD (p : Nat) (Rp Rc : DMat) : Prop := Rp.Is p p ∧ Rp.PD ∧ Rc.PSD

/-- The process noise reaches every state: after every update the rows of the process noise Jacobian `P` are linearly
independent. -/
def SysClass.SpreadsNoise {T D X : Type} (dz : Nat → Nat → D → Prop) (sc : SysClass T D X) (n m p : Nat) : Prop :=
  ∀ (s : Sys D X) (x u : DVec) (dt : T) (s' : Sys D X) (W : Matrix (Fin n) (Fin p) ℝ),
    s.Sized dz n m → s.Rp.Is p p → x.size = n → u.size = m → sc.myUpdate s x u dt = some s' → s'.P = .of W →
    ∀ v : Fin n → ℝ, v ᵥ* W = 0 → v = 0

/-! ### The unscented transform -/

namespace Sigma

variable {ι κ : Type}

/-- mean weights -/
noncomputable def wm (n : Nat) (lam : ℝ) (j : Nat) : ℝ := if j = 0 then lam / (n + lam) else 0.5 / (n + lam)
/-- covariance weights; `d = beta - alpha²` -/
noncomputable def wc (n : Nat) (lam d : ℝ) (j : Nat) : ℝ :=
  if j = 0 then lam / (n + lam) + 1 + d else 0.5 / (n + lam)

/-- weighted mean -/
noncomputable def mean (n : Nat) (lam : ℝ) (y : Nat → ι → ℝ) : ι → ℝ := ∑ j ∈ Finset.range (2 * n + 1), wm n lam j • y j

/-- weighted cross covariance of `x` (about `x 0`… or any point `a`) and `y` about `b` -/
noncomputable def cross (n : Nat) (lam d : ℝ) (x : Nat → ι → ℝ) (y : Nat → κ → ℝ) (a : ι → ℝ) (b : κ → ℝ) :
    Matrix ι κ ℝ := ∑ j ∈ Finset.range (2 * n + 1), wc n lam d j • vecMulVec (x j - a) (y j - b)

/-- columns of a square matrix, by natural number -/
noncomputable def colsOf {n m : Nat} (L : Matrix (Fin n) (Fin m) ℝ) (i : Nat) : Fin n → ℝ :=
  if h : i < m then fun a => L a ⟨i, h⟩ else 0

end Sigma

section
variable {T X Y : Type}

/-- `s'` is a model as `update(q, u, dt)` leaves it, called on some well-formed object with the configuration of `s0`. -/
def Sys.UpdatedAt (sc : SysClass T NonlinSysData X) (n m : Nat) (s0 : Sys NonlinSysData X) (q u : DVec) (dt : T)
    (s' : Sys NonlinSysData X) : Prop :=
  ∃ s, s.Sized NonlinSysData.Sized n m ∧ s0.SameConfig s ∧ sc.myUpdate s q u dt = some s'

/-- Same for measurement models. -/
def Meas.UpdatedAt (mc : MeasClass T NonlinMeasData Y) (n k : Nat) (s0 : Meas NonlinMeasData Y) (q : DVec) (dt : T)
    (s' : Meas NonlinMeasData Y) : Prop :=
  ∃ s, s.Sized NonlinMeasData.Sized n k ∧ s0.SameConfig s ∧ mc.myUpdate s q dt = some s'

/-- `y` is a value of `g()` at `q`. -/
def SysImage (sc : SysClass T NonlinSysData X) (n m : Nat) (s0 : Sys NonlinSysData X) (q u : DVec) (dt : T) (y : Fin n → ℝ) :
    Prop := ∃ s', s0.UpdatedAt sc n m q u dt s' ∧ s'.der.g = .of y

/-- `y` is a value of `h()` at `q`. -/
def MeasImage (mc : MeasClass T NonlinMeasData Y) (n k : Nat) (s0 : Meas NonlinMeasData Y) (q : DVec) (dt : T) (y : Fin k → ℝ) :
    Prop := ∃ s', s0.UpdatedAt mc n k q dt s' ∧ s'.der.h = .of y

/-- A nonlinear model class that is linear in the state: for given controls and elapsed time, `g() = A x + b`, `G = A`, and
the noise Jacobians, are the same whatever the state (`A`, `b`, ... may depend on the configuration of the object). -/
def SysClass.Affine (sc : SysClass T NonlinSysData X) (n m : Nat) : Prop :=
  ∀ (s0 : Sys NonlinSysData X) (u : DVec) (dt : T), s0.Sized NonlinSysData.Sized n m → u.size = m →
    ∃ (A : Matrix (Fin n) (Fin n) ℝ) (b : Fin n → ℝ) (W V : DMat), ∀ (q : Fin n → ℝ) (t : Sys NonlinSysData X),
      s0.UpdatedAt sc n m (.of q) u dt t → t.der.g = .of (A *ᵥ q + b) ∧ t.der.G = .of A ∧ t.P = W ∧ t.V = V

/-- Same for measurement models: `h() = C x + b`, `H = C`. -/
def MeasClass.Affine (mc : MeasClass T NonlinMeasData Y) (n k : Nat) : Prop :=
  ∀ (s0 : Meas NonlinMeasData Y) (dt : T), s0.Sized NonlinMeasData.Sized n k →
    ∃ (C : Matrix (Fin k) (Fin n) ℝ) (b : Fin k → ℝ), ∀ (q : Fin n → ℝ) (t : Meas NonlinMeasData Y),
      s0.UpdatedAt mc n k (.of q) dt t → t.der.h = .of (C *ᵥ q + b) ∧ t.der.H = .of C

end

end StateEstimation
