import Verif.Lemmas.KFSteps
import Mathlib.LinearAlgebra.Matrix.Notation
import Mathlib.Algebra.Order.Star.Real

/-!
# A concrete linear model for the examples

Constant velocity along a line: state (position, velocity), control = acceleration, one position sensor.
-/

namespace StateEstimation
namespace Examples

open Matrix

/-- `A = [1 dt; 0 1]`, `B = V = [dt²/2; dt]`, `P = I`. -/
noncomputable def cvClass : SysClass ℝ LinSysData Unit :=
  SysClass.plain fun s _ _ dt =>
    if s.stateSize = 2 ∧ s.controlDims = 1 ∧ s.Rp.rows = 2 then
      some { s with der := ⟨.of !![1, dt; 0, 1], .of !![dt ^ 2 / 2; dt]⟩
                    P := .identity 2
                    V := .of !![dt ^ 2 / 2; dt] }
    else some s

/-- `C = [1 0]`. -/
noncomputable def posClass : MeasClass ℝ LinMeasData Unit :=
  MeasClass.plain fun s _ _ =>
    if s.stateSize = 2 ∧ s.measDims = 1 then some { s with der := ⟨.of !![1, 0]⟩ } else some s

theorem plain_ops {T D X : Type} (up : Sys D X → DVec → DVec → T → Option (Sys D X)) : (SysClass.plain up).PlainOps :=
  ⟨fun _ => rfl, fun _ => rfl, fun _ => rfl⟩
theorem plain_mops {T D X : Type} (up : Meas D X → DVec → T → Option (Meas D X)) : (MeasClass.plain up).PlainOps :=
  ⟨fun _ => rfl, fun _ => rfl⟩

theorem weightedSumLoop_size (w : DVec) (X : DMat) (hw : w.size = X.cols) : ∀ (fuel i : Nat) (acc : DVec),
    i + fuel = w.size → acc.size = X.rows → ∃ r, weightedSumLoop w X fuel i acc = some r ∧ r.size = X.rows := by
  intro fuel
  induction fuel with
  | zero => intro i acc _ h; exact ⟨acc, rfl, h⟩
  | succ fuel ih =>
    intro i acc hi ha
    unfold weightedSumLoop
    have h1 : w.get? i = some (w.val ⟨i, by omega⟩) := by unfold DVec.get?; rw [dif_pos]
    have h2 : X.col? i = some ⟨X.rows, fun j => X.val j ⟨i, by omega⟩⟩ := by unfold DMat.col?; rw [dif_pos]
    simp only [Option.bind_eq_bind, h1, h2, Option.bind_some]
    have h3 : ∃ r, acc.add ((⟨X.rows, fun j => X.val j ⟨i, by omega⟩⟩ : DVec).smul (w.val ⟨i, by omega⟩)) = some r ∧
        r.size = X.rows := by
      unfold DVec.add
      rw [dif_pos (by rw [ha]; rfl)]
      exact ⟨_, rfl, ha⟩
    obtain ⟨r, hr, hr2⟩ := h3
    rw [hr]
    exact ih (i + 1) r (by omega) hr2

theorem weightedSum_size (w : DVec) (X : DMat) (n : Nat) (h : X.Is n w.size) :
    ∃ r, weightedSum w X = some r ∧ r.size = n := by
  unfold weightedSum
  rw [if_pos h.2.symm]
  obtain ⟨r, h1, h2⟩ := weightedSumLoop_size w X h.2.symm w.size 0 (.zero X.rows) (by omega) rfl
  exact ⟨r, h1, by rw [h2, h.1]⟩

theorem add_size (a b : DVec) (n : Nat) (ha : a.size = n) (hb : b.size = n) : ∃ r, a.add b = some r ∧ r.size = n := by
  obtain ⟨a, rfl⟩ := a.exists_of ha
  obtain ⟨b, rfl⟩ := b.exists_of hb
  exact ⟨_, DVec.add_of a b, rfl⟩

theorem sub_size (a b : DVec) (n : Nat) (ha : a.size = n) (hb : b.size = n) : ∃ r, a.sub b = some r ∧ r.size = n := by
  obtain ⟨a, rfl⟩ := a.exists_of ha
  obtain ⟨b, rfl⟩ := b.exists_of hb
  exact ⟨_, DVec.sub_of a b, rfl⟩

/-- A class with default operations meets the contract as soon as `myUpdate` does. -/
theorem plain_contract {T D X : Type} {dz : Nat → Nat → D → Prop} (up : Sys D X → DVec → DVec → T → Option (Sys D X))
    (h : ∀ {n m} (s : Sys D X) x u dt, s.Sized dz n m → x.size = n → u.size = m →
      ∃ s', up s x u dt = some s' ∧ s'.Sized dz n m ∧ s.SameConfig s') : SysContract dz (SysClass.plain up) where
  update := h
  add := fun _ a b _ ha hb => add_size a b _ ha hb
  sub := fun _ a b _ ha hb => sub_size a b _ ha hb
  wsum := fun _ w A _ hA => weightedSum_size w A _ hA
  stationary := fun s _ _ hs _ _ => ⟨s, rfl, hs, Sys.SameConfig.refl s⟩

theorem plain_mcontract {T D X : Type} {dz : Nat → Nat → D → Prop} (up : Meas D X → DVec → T → Option (Meas D X))
    (h : ∀ {n k} (s : Meas D X) x dt, s.Sized dz n k → x.size = n →
      ∃ s', up s x dt = some s' ∧ s'.Sized dz n k ∧ s.SameConfig s') : MeasContract dz (MeasClass.plain up) where
  update := h
  sub := fun _ a b _ ha hb => sub_size a b _ ha hb
  wsum := fun _ w A _ hA => weightedSum_size w A _ hA
  stationary := fun s _ _ hs _ _ => ⟨s, rfl, hs, Meas.SameConfig.refl s⟩

theorem cv_contract : SysContract LinSysData.Sized cvClass := by
  apply plain_contract
  intro n m s x u dt hs hx hu
  split
  next h =>
    obtain ⟨h1, h2, h3⟩ := h
    have hn : n = 2 := by rw [← hs.states]; exact h1
    have hm : m = 1 := by rw [← hs.controls]; exact h2
    subst hn hm
    exact ⟨_, rfl, ⟨hs.states, hs.controls, ⟨⟨rfl, rfl⟩, rfl, rfl⟩, ⟨rfl, h3.symm⟩, hs.Rp, ⟨rfl, rfl⟩, hs.Rc⟩,
      ⟨rfl, rfl, rfl, rfl, rfl⟩⟩
  next => exact ⟨s, rfl, hs, Sys.SameConfig.refl s⟩

theorem pos_contract : MeasContract LinMeasData.Sized posClass := by
  apply plain_mcontract
  intro n k s x dt hs hx
  split
  next h =>
    have hn : n = 2 := by rw [← hs.states]; exact h.1
    have hk : k = 1 := by rw [← hs.meas]; exact h.2
    subst hn hk
    exact ⟨_, rfl, ⟨hs.states, hs.meas, ⟨rfl, rfl⟩, hs.cov⟩, ⟨rfl, rfl, rfl, rfl⟩⟩
  next => exact ⟨s, rfl, hs, Meas.SameConfig.refl s⟩

/-- Freshly constructed models: 2 states, 1 control, 2 process noises, 1 measurement. -/
noncomputable def cvEnv : Env Unit LinSysData Unit LinMeasData Unit :=
  { sys := Sys.constructLinear 2 1 2 (), meas := fun _ => Meas.constructLinear 2 1 () }

theorem cvEnv_ok {Q : DVec → DMat → Prop} :
    cvEnv.Ok LinSysData.Sized LinMeasData.Sized NoisePSD Q 2 1 (fun _ => 1) where
  sys := ⟨rfl, rfl, ⟨⟨rfl, rfl⟩, rfl, rfl⟩, ⟨rfl, rfl⟩, ⟨rfl, rfl⟩, ⟨rfl, rfl⟩, ⟨rfl, rfl⟩⟩
  noise := ⟨⟨rfl, PosSemidef.zero⟩, ⟨rfl, PosSemidef.zero⟩⟩
  sysMake := fun x c h => ⟨x, c, rfl, h⟩
  meas := fun _ => ⟨rfl, rfl, ⟨rfl, rfl⟩, rfl, rfl⟩
  measMake := fun _ x c h => ⟨x, c, rfl, h⟩

theorem identity_psd (n : Nat) : (DMat.identity n).PSD := ⟨rfl, PosSemidef.one⟩
theorem identity_pd (n : Nat) : (DMat.identity n).PD := ⟨rfl, PosDef.one⟩

theorem cv_estimate : EstimatePSD 2 (.zero 2) (.identity 2) := ⟨⟨rfl, rfl, rfl⟩, identity_psd 2⟩

end Examples
end StateEstimation
