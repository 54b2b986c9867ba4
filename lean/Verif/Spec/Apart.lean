import Verif.Spec.Filter
import Verif.Spec.Models
import Verif.Model.KF

/-!
# A filter for two unrelated subsystems

The states (and the controls, process noises and sensor components) are divided into two sides by `side : Nat → Bool`: `true` is
the side that is looked at, `false` the other one.  Two runs are compared which have everything on the `true` side in common
and differ as they like on the `false` side.
-/

namespace StateEstimation

variable {T K X Y D DS XS DM XM : Type}

/-- Two vectors of the same length with the same entries on the side that is looked at. -/
def AgreeOn (p : Nat → Bool) (x x' : DVec) : Prop :=
  x'.size = x.size ∧ ∀ i, p i = true → x'.get? i = x.get? i

/-- Two matrices of the same size that both have zeros wherever the sides of row and column differ, and the same entries where
both are on the side that is looked at. -/
structure ApartMat (r c : Nat → Bool) (A A' : DMat) : Prop where
  rows : A'.rows = A.rows
  cols : A'.cols = A.cols
  cross : ∀ i j v, r i ≠ c j → A.get? i j = some v → v = 0
  cross' : ∀ i j v, r i ≠ c j → A'.get? i j = some v → v = 0
  same : ∀ i j, r i = true → c j = true → A'.get? i j = A.get? i j

/-- The sides of the states, of the controls and of the process noises. -/
structure Sides where
  states : Nat → Bool
  controls : Nat → Bool
  noises : Nat → Bool

/-- What a linear system model computes, for the two runs: neither side acts on the other. -/
def LinSysData.Apart (p : Sides) (d d' : LinSysData) : Prop :=
  ApartMat p.states p.states d.A d'.A ∧ ApartMat p.states p.controls d.B d'.B

/-- Same for a nonlinear one. -/
def NonlinSysData.Apart (p : Sides) (d d' : NonlinSysData) : Prop :=
  AgreeOn p.states d.g d'.g ∧ ApartMat p.states p.states d.G d'.G

/-- A linear sensor; `q` gives the sides of its components. -/
def LinMeasData.Apart (p : Sides) (q : Nat → Bool) (d d' : LinMeasData) : Prop := ApartMat q p.states d.C d'.C

/-- A nonlinear sensor. -/
def NonlinMeasData.Apart (p : Sides) (q : Nat → Bool) (d d' : NonlinMeasData) : Prop :=
  AgreeOn q d.h d'.h ∧ ApartMat q p.states d.H d'.H

/-- The system models of the two runs: noise on one side does not enter the other, and they are configured alike. -/
structure Sys.Apart (p : Sides) (DA : D → D → Prop) (s s' : Sys D X) : Prop where
  fm : s'.fm = s.fm
  controls : s'.controlDims = s.controlDims
  ext : s'.ext = s.ext
  Rp : ApartMat p.noises p.noises s.Rp s'.Rp
  Rc : ApartMat p.controls p.controls s.Rc s'.Rc
  P : ApartMat p.states p.noises s.P s'.P
  V : ApartMat p.states p.controls s.V s'.V
  der : DA s.der s'.der

/-- A sensor in the two runs: its noise does not connect the sides. -/
structure Meas.Apart (q : Nat → Bool) (DA : D → D → Prop) (m m' : Meas D Y) : Prop where
  fm : m'.fm = m.fm
  dims : m'.measDims = m.measDims
  ext : m'.ext = m.ext
  cov : ApartMat q q m.cov m'.cov
  der : DA m.der m'.der

/-- A system model class that keeps the sides apart: from models, states and controls that agree on the side looked at, `update`
makes models that do (and it leaves the base class part alone). -/
structure SysClass.KeepsApart (p : Sides) (DA : D → D → Prop) (sc : SysClass T D X) : Prop where
  plain : sc.PlainOps
  update : ∀ s s' x x' u u' dt r r', s.Apart p DA s' → AgreeOn p.states x x' → AgreeOn p.controls u u' →
    sc.myUpdate s x u dt = some r → sc.myUpdate s' x' u' dt = some r' → r.Apart p DA r'
  fm : ∀ s x u dt r, sc.myUpdate s x u dt = some r → r.fm = s.fm

/-- The same for a measurement model class. -/
structure MeasClass.KeepsApart (p : Sides) (q : Nat → Bool) (DA : D → D → Prop) (mc : MeasClass T D Y) : Prop where
  plain : mc.PlainOps
  update : ∀ m m' x x' dt r r', m.Apart q DA m' → AgreeOn p.states x x' →
    mc.myUpdate m x dt = some r → mc.myUpdate m' x' dt = some r' → r.Apart q DA r'
  fm : ∀ m x dt r, mc.myUpdate m x dt = some r → r.fm = m.fm

/-- All models of the two runs; nobody set a standstill predicate. -/
structure Env.Apart (p : Sides) (q : K → Nat → Bool) (DA : DS → DS → Prop) (DB : K → DM → DM → Prop)
    (e e' : Env K DS XS DM XM) : Prop where
  sys : e.sys.Apart p DA e'.sys
  meas : ∀ k, (e.meas k).Apart (q k) (DB k) (e'.meas k)
  quiet : e.sys.fm.checkStationary = false
  quietMeas : ∀ k, (e.meas k).fm.checkStationary = false

/-- The same call, except for what it says about the other side: states, controls and measurements agree on the side looked
at, covariances do and do not connect the sides. -/
def ApartCall (p : Sides) (q : K → Nat → Bool) (EA : Env K DS XS DM XM → Env K DS XS DM XM → Prop) :
    Op T DVec DMat K (Env K DS XS DM XM) → Op T DVec DMat K (Env K DS XS DM XM) → Prop
  | .init x c t, .init x' c' t' => AgreeOn p.states x x' ∧ ApartMat p.states p.states c c' ∧ t' = t
  | .predictTime t, .predictTime t' => t' = t
  | .predictControl u t, .predictControl u' t' => AgreeOn p.controls u u' ∧ t' = t
  | .correct z R t m, .correct z' R' t' m' => t' = t ∧ m' = m ∧ ∀ k, m = some k → AgreeOn (q k) z z' ∧ ApartMat (q k) (q k) R R'
  | .enqueueControl u t, .enqueueControl u' t' => AgreeOn p.controls u u' ∧ t' = t
  | .enqueueMeasurement z R t m, .enqueueMeasurement z' R' t' m' =>
      t' = t ∧ m' = m ∧ ∀ k, m = some k → AgreeOn (q k) z z' ∧ ApartMat (q k) (q k) R R'
  | .processQueues, .processQueues => True
  | .clearControlQueue, .clearControlQueue => True
  | .clearMeasurementQueue, .clearMeasurementQueue => True
  | .revertToState t, .revertToState t' => t' = t
  | .setParams r, .setParams r' => r' = r
  | .userModel g, .userModel g' => ∀ e e' r r', EA e e' → g e = some r → g' e' = some r' → EA r r'
  | _, _ => False

end StateEstimation
