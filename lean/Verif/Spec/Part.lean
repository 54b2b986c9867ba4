import Verif.Spec.Subset
import Verif.Spec.DataFree
import Verif.Model.KF
import Verif.Spec.Filter

/-!
# Specification vocabulary: a filter for some of the states

Out of `n` states, `m` controls and `kd k` components of the sensors the ones listed by `σ`, `τ` and `ρ k` are used.  The unprimed
objects are the whole ones, the primed ones their parts.
-/

namespace StateEstimation

open Matrix Filter

variable {T K X X' Y Y' D DS DM XS XS' XM XM' : Type} {n ns m ms : Nat} {kd ks : K → Nat}

/-- `x'` consists of the listed entries of `x`. -/
def VecPart (σ : Fin ns → Fin n) (x x' : DVec) : Prop := ∃ v : Fin n → ℝ, x = .of v ∧ x' = .of (v ∘ σ)

/-- `A'` consists of the listed rows and columns of `A`. -/
def MatPart {r c k l : Nat} (σ : Fin k → Fin r) (τ : Fin l → Fin c) (A A' : DMat) : Prop :=
  ∃ M : Matrix (Fin r) (Fin c) ℝ, A = .of M ∧ A' = .of (M.submatrix σ τ)

/-- What linear and nonlinear models compute. -/
def LinSysData.Part (σ : Fin ns → Fin n) (τ : Fin ms → Fin m) (d d' : LinSysData) : Prop :=
  MatPart σ σ d.A d'.A ∧ MatPart σ τ d.B d'.B
def NonlinSysData.Part (σ : Fin ns → Fin n) (d d' : NonlinSysData) : Prop := VecPart σ d.g d'.g ∧ MatPart σ σ d.G d'.G
def LinMeasData.Part {k l : Nat} (ρ : Fin l → Fin k) (σ : Fin ns → Fin n) (d d' : LinMeasData) : Prop := MatPart ρ σ d.C d'.C
def NonlinMeasData.Part {k l : Nat} (ρ : Fin l → Fin k) (σ : Fin ns → Fin n) (d d' : NonlinMeasData) : Prop :=
  VecPart ρ d.h d'.h ∧ MatPart ρ σ d.H d'.H

/-- A system model for the listed states and controls: the same process noise, its effect on the listed states. -/
structure Sys.Part (σ : Fin ns → Fin n) (τ : Fin ms → Fin m) (DA : D → D → Prop) (s : Sys D X) (s' : Sys D X') : Prop where
  Rp : s'.Rp = s.Rp
  Rc : MatPart τ τ s.Rc s'.Rc
  P : MatPart σ (id : Fin s.Rp.rows → Fin s.Rp.rows) s.P s'.P
  V : MatPart σ τ s.V s'.V
  der : DA s.der s'.der

/-- A sensor model for the listed components. -/
structure Meas.Part {k l : Nat} (ρ : Fin l → Fin k) (DB : D → D → Prop) (s : Meas D Y) (s' : Meas D Y') : Prop where
  cov : MatPart ρ ρ s.cov s'.cov
  der : DB s.der s'.der

/-- The class `sc'` is a model of the listed states and controls alone: whatever the others are, from a part it makes a part of
what `sc` makes.  Both classes add vectors in the default way. -/
structure SysClass.HasPart (dz : Nat → Nat → D → Prop) (σ : Fin ns → Fin n) (τ : Fin ms → Fin m) (DA : D → D → Prop)
    (sc : SysClass T D X) (sc' : SysClass T D X') : Prop where
  plain : sc.PlainOps
  plain' : sc'.PlainOps
  update : ∀ s s' x x' u u' dt r r', s.Sized dz n m → s'.Sized dz ns ms → s.Part σ τ DA s' → VecPart σ x x' → VecPart τ u u' →
    sc.myUpdate s x u dt = some r → sc'.myUpdate s' x' u' dt = some r' → r.Part σ τ DA r'

/-- The same for a sensor. -/
structure MeasClass.HasPart {k l : Nat} (dz : Nat → Nat → D → Prop) (σ : Fin ns → Fin n) (ρ : Fin l → Fin k) (DB : D → D → Prop)
    (mc : MeasClass T D Y) (mc' : MeasClass T D Y') : Prop where
  plain : mc.PlainOps
  plain' : mc'.PlainOps
  update : ∀ s s' x x' dt r r', s.Sized dz n k → s'.Sized dz ns l → s.Part ρ DB s' → VecPart σ x x' →
    mc.myUpdate s x dt = some r → mc'.myUpdate s' x' dt = some r' → r.Part ρ DB r'

/-- All models: in the whole ones the listed states, controls and sensor components are the active ones; nobody set a standstill
predicate. -/
structure Env.Part (σ : Fin ns → Fin n) (τ : Fin ms → Fin m) (ρ : ∀ k, Fin (ks k) → Fin (kd k)) (DA : DS → DS → Prop)
    (DB : K → DM → DM → Prop) (e : Env K DS XS DM XM) (e' : Env K DS XS' DM XM') : Prop where
  states : Selects e.sys.activeStates σ
  controls : Selects e.sys.activeControls τ
  measured : ∀ k, Selects (e.meas k).activeMeasurements (ρ k)
  sys : e.sys.Part σ τ DA e'.sys
  meas : ∀ k, (e.meas k).Part (ρ k) (DB k) (e'.meas k)
  quiet : e.sys.fm.checkStationary = false ∧ ∀ k, (e.meas k).fm.checkStationary = false
  quiet' : e'.sys.fm.checkStationary = false ∧ ∀ k, (e'.meas k).fm.checkStationary = false

/-- The same call about the listed states, controls and sensor components. -/
def PartCall (σ : Fin ns → Fin n) (τ : Fin ms → Fin m) (ρ : ∀ k, Fin (ks k) → Fin (kd k))
    {E E' : Type} (EA : E → E' → Prop) : Op T DVec DMat K E → Op T DVec DMat K E' → Prop
  | .init x c t, .init x' c' t' => VecPart σ x x' ∧ MatPart σ σ c c' ∧ t' = t
  | .predictTime t, .predictTime t' => t' = t
  | .predictControl u t, .predictControl u' t' => (VecPart τ u u' ∨ u.size = 0 ∧ u'.size = 0) ∧ t' = t
  | .correct z R t k, .correct z' R' t' k' =>
      t' = t ∧ k' = k ∧ ∀ j, k = some j → VecPart (ρ j) z z' ∧ MatPart (ρ j) (ρ j) R R'
  | .enqueueControl u t, .enqueueControl u' t' => (VecPart τ u u' ∨ u.size = 0 ∧ u'.size = 0) ∧ t' = t
  | .enqueueMeasurement z R t k, .enqueueMeasurement z' R' t' k' =>
      t' = t ∧ k' = k ∧ ∀ j, k = some j → VecPart (ρ j) z z' ∧ MatPart (ρ j) (ρ j) R R'
  | .processQueues, .processQueues => True
  | .clearControlQueue, .clearControlQueue => True
  | .clearMeasurementQueue, .clearMeasurementQueue => True
  | .revertToState t, .revertToState t' => t' = t
  | .setParams r, .setParams r' => r' = r
  | .userModel g, .userModel g' => ∀ e e' r r', EA e e' → g e = some r → g' e' = some r' → EA r r'
  | _, _ => False

/-- Both runs complete; now and at every remembered moment the state and the covariance of the second are the listed entries of
those of the first, and the times are the same. -/
def PartOf (σ : Fin ns → Fin n) {E E' : Type} (a : Option (Filter T DVec DMat K E)) (b : Option (Filter T DVec DMat K E')) : Prop :=
  ∃ f g, a = some f ∧ b = some g ∧ VecPart σ f.getState g.getState ∧ MatPart σ σ f.getCovariance g.getCovariance ∧
    g.getStateTime = f.getStateTime ∧
    List.Forall₂ (fun s s' => s'.timestamp = s.timestamp ∧ VecPart σ s.x s'.x ∧ MatPart σ σ s.covariance s'.covariance)
      f.retained g.retained

end StateEstimation
