import Verif.Examples.Quad

/-!
# A concrete model that is linear in the state, written as a nonlinear model

One state: `g(x, u) = (1 - dt) x + dt u + b`; one sensor `h(x) = 3 x + b`.
-/

namespace StateEstimation
namespace Examples

open Matrix

/-- `g = (1 - dt) x + dt u + b`, `G = 1 - dt`, `P` all ones, `V = dt`. -/
noncomputable def leakyClass (b : ℝ) : SysClass ℝ NonlinSysData Unit :=
  SysClass.plain fun s x u dt =>
    if s.stateSize = 1 ∧ s.controlDims = 1 then
      some { s with der := ⟨vec1 ((1 - dt) * head x + (dt * head u + b)), mat1 (1 - dt)⟩
                    P := ⟨1, s.Rp.rows, fun _ _ => 1⟩
                    V := mat1 dt }
    else some s

/-- `h = 3 x + b`, `H = 3`. -/
noncomputable def rulerClass (b : ℝ) : MeasClass ℝ NonlinMeasData Unit :=
  MeasClass.plain fun s x _ =>
    if s.stateSize = 1 ∧ s.measDims = 1 then some { s with der := ⟨vec1 (3 * head x + b), mat1 3⟩ } else some s

theorem leaky_contract (b : ℝ) : SysContract NonlinSysData.Sized (leakyClass b) := by
  apply plain_contract
  intro n m s x u dt hs hx hu
  split
  next h =>
    obtain ⟨h1, h2⟩ := h
    have hn : n = 1 := by rw [← hs.states]; exact h1
    have hm : m = 1 := by rw [← hs.controls]; exact h2
    subst hn hm
    exact ⟨_, rfl, ⟨hs.states, hs.controls, ⟨rfl, rfl, rfl⟩, ⟨rfl, rfl⟩, hs.Rp, ⟨rfl, rfl⟩, hs.Rc⟩,
      ⟨rfl, rfl, rfl, rfl, rfl⟩⟩
  next => exact ⟨s, rfl, hs, Sys.SameConfig.refl s⟩

theorem ruler_contract (b : ℝ) : MeasContract NonlinMeasData.Sized (rulerClass b) := by
  apply plain_mcontract
  intro n k s x dt hs hx
  split
  next h =>
    have hn : n = 1 := by rw [← hs.states]; exact h.1
    have hk : k = 1 := by rw [← hs.meas]; exact h.2
    subst hn hk
    exact ⟨_, rfl, ⟨hs.states, hs.meas, ⟨rfl, rfl, rfl⟩, hs.cov⟩, ⟨rfl, rfl, rfl, rfl⟩⟩
  next => exact ⟨s, rfl, hs, Meas.SameConfig.refl s⟩

theorem leaky_spreads (b : ℝ) : (leakyClass b).SpreadsNoise NonlinSysData.Sized 1 1 1 := by
  intro s x u dt s' W hs hp hx hu hup hW v hv
  change (if _ then _ else _) = _ at hup
  rw [if_pos ⟨hs.states, hs.controls⟩] at hup
  injection hup with hup
  rw [← hup] at hW
  have h1 : s.Rp.rows = 1 := hp.1
  rw [h1] at hW
  have hW' : (fun _ _ => (1 : ℝ)) = W := DMat.of_inj.mp hW
  rw [← hW'] at hv
  funext i
  have := congrFun hv 0
  fin_cases i
  simpa [Matrix.vecMul, dotProduct] using this

theorem leaky_affine (b : ℝ) : (leakyClass b).Affine 1 1 := by
  intro s0 u dt hs hu
  refine ⟨!![1 - dt], ![dt * head u + b], ⟨1, s0.Rp.rows, fun _ _ => 1⟩, mat1 dt, ?_⟩
  rintro q t ⟨s, h1, h2, h3⟩
  change (if _ then _ else _) = _ at h3
  rw [if_pos ⟨h1.states, h1.controls⟩] at h3
  injection h3 with h3
  subst h3
  refine ⟨?_, rfl, ?_, rfl⟩
  · show vec1 _ = DVec.of _
    rw [DVec.of_inj]
    ext i
    fin_cases i
    simp [head_of, Matrix.mulVec, dotProduct]
  · show (⟨1, s.Rp.rows, fun _ _ => 1⟩ : DMat) = _
    rw [h2.Rp]

theorem ruler_affine (b : ℝ) : (rulerClass b).Affine 1 1 := by
  intro s0 dt hs
  refine ⟨!![3], ![b], ?_⟩
  rintro q t ⟨s, h1, h2, h3⟩
  change (if _ then _ else _) = _ at h3
  rw [if_pos ⟨h1.states, h1.meas⟩] at h3
  injection h3 with h3
  subst h3
  refine ⟨?_, rfl⟩
  show vec1 _ = DVec.of _
  rw [DVec.of_inj]
  ext i
  fin_cases i
  simp [head_of, Matrix.mulVec, dotProduct]

/-- The same model (`b = 0`) written as a linear model. -/
noncomputable def leakyLin : SysClass ℝ LinSysData Unit :=
  SysClass.plain fun s _ _ dt =>
    if s.stateSize = 1 ∧ s.controlDims = 1 then
      some { s with der := ⟨mat1 (1 - dt), mat1 dt⟩
                    P := ⟨1, s.Rp.rows, fun _ _ => 1⟩
                    V := mat1 dt }
    else some s

/-- `C = 3`. -/
noncomputable def rulerLin : MeasClass ℝ LinMeasData Unit :=
  MeasClass.plain fun s _ _ => if s.stateSize = 1 ∧ s.measDims = 1 then some { s with der := ⟨mat1 3⟩ } else some s

/-- Corresponding objects. -/
def LeakyRel (s : Sys LinSysData Unit) (s' : Sys NonlinSysData Unit) : Prop :=
  (s.fm = s'.fm ∧ s.controlDims = s'.controlDims ∧ s.Rp = s'.Rp ∧ s.Rc = s'.Rc) ∧ s'.stateSize = 1 ∧ s'.controlDims = 1

/-- Corresponding objects. -/
def RulerRel (s : Meas LinMeasData Unit) (s' : Meas NonlinMeasData Unit) : Prop :=
  (s.fm = s'.fm ∧ s.measDims = s'.measDims ∧ s.cov = s'.cov) ∧ s'.stateSize = 1 ∧ s'.measDims = 1

end Examples
end StateEstimation
