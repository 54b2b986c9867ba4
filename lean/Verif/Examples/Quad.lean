import Verif.Examples.Linear
import Verif.Spec.Sigma
import Mathlib.Analysis.Matrix.Order
import Mathlib.Tactic.Positivity

/-!
# A concrete nonlinear model, and a Cholesky factorisation, for the examples

One state: `g(x, u) = x + dt (x² + u)`; one sensor `h(x) = x²`.
-/

namespace StateEstimation
namespace Examples

open Matrix

/-- A `1 × 1` matrix. -/
abbrev mat1 (a : ℝ) : DMat := .of !![a]
/-- A vector with one entry. -/
abbrev vec1 (a : ℝ) : DVec := .of ![a]

/-- First entry. -/
noncomputable def head (x : DVec) : ℝ := (x.get? 0).getD 0

@[simp] theorem head_vec1 (a : ℝ) : head (vec1 a) = a := by simp [head, DVec.get?, vec1]
theorem head_of (v : Fin 1 → ℝ) : head (.of v) = v 0 := by simp [head, DVec.get?]

/-- `g = x + dt (x² + u)`, `G = 1 + 2 dt x`, `P = 1`, `V = dt`. -/
noncomputable def quadClass : SysClass ℝ NonlinSysData Unit :=
  SysClass.plain fun s x u dt =>
    if s.stateSize = 1 ∧ s.controlDims = 1 ∧ s.Rp.rows = 1 then
      some { s with der := ⟨vec1 (head x + dt * (head x ^ 2 + head u)), mat1 (1 + 2 * dt * head x)⟩
                    P := mat1 1
                    V := mat1 dt }
    else some s

/-- `h = x²`, `H = 2 x`. -/
noncomputable def squareClass : MeasClass ℝ NonlinMeasData Unit :=
  MeasClass.plain fun s x _ =>
    if s.stateSize = 1 ∧ s.measDims = 1 then some { s with der := ⟨vec1 (head x ^ 2), mat1 (2 * head x)⟩ } else some s

theorem quad_contract : SysContract NonlinSysData.Sized quadClass := by
  apply plain_contract
  intro n m s x u dt hs hx hu
  split
  next h =>
    obtain ⟨h1, h2, h3⟩ := h
    have hn : n = 1 := by rw [← hs.states]; exact h1
    have hm : m = 1 := by rw [← hs.controls]; exact h2
    subst hn hm
    exact ⟨_, rfl, ⟨hs.states, hs.controls, ⟨rfl, rfl, rfl⟩, ⟨rfl, h3.symm⟩, hs.Rp, ⟨rfl, rfl⟩, hs.Rc⟩,
      ⟨rfl, rfl, rfl, rfl, rfl⟩⟩
  next => exact ⟨s, rfl, hs, Sys.SameConfig.refl s⟩

theorem square_contract : MeasContract NonlinMeasData.Sized squareClass := by
  apply plain_mcontract
  intro n k s x dt hs hx
  split
  next h =>
    have hn : n = 1 := by rw [← hs.states]; exact h.1
    have hk : k = 1 := by rw [← hs.meas]; exact h.2
    subst hn hk
    exact ⟨_, rfl, ⟨hs.states, hs.meas, ⟨rfl, rfl, rfl⟩, hs.cov⟩, ⟨rfl, rfl, rfl, rfl⟩⟩
  next => exact ⟨s, rfl, hs, Meas.SameConfig.refl s⟩

theorem quad_spreads : quadClass.SpreadsNoise NonlinSysData.Sized 1 1 1 := by
  intro s x u dt s' W hs hp hx hu hup hW v hv
  have h : s.stateSize = 1 ∧ s.controlDims = 1 ∧ s.Rp.rows = 1 := ⟨hs.states, hs.controls, hp.1⟩
  change (if _ then _ else _) = _ at hup
  rw [if_pos h] at hup
  injection hup with hup
  rw [← hup] at hW
  have hW' : !![(1 : ℝ)] = W := DMat.of_inj.mp hW
  rw [← hW'] at hv
  funext i
  have := congrFun hv 0
  fin_cases i
  simpa [Matrix.vecMul, dotProduct] using this

/-- Fresh objects, with unit process noise. -/
noncomputable def quadEnv : Env Unit NonlinSysData Unit NonlinMeasData Unit :=
  { sys := { Sys.constructNonlinear 1 1 1 () with Rp := .identity 1 }, meas := fun _ => Meas.constructNonlinear 1 1 () }

theorem quadEnv_ok {Q : DVec → DMat → Prop} :
    quadEnv.Ok NonlinSysData.Sized NonlinMeasData.Sized (NoisePD 1) Q 1 1 (fun _ => 1) where
  sys := ⟨rfl, rfl, ⟨rfl, rfl, rfl⟩, ⟨rfl, rfl⟩, ⟨rfl, rfl⟩, ⟨rfl, rfl⟩, ⟨rfl, rfl⟩⟩
  noise := ⟨⟨rfl, rfl⟩, identity_pd 1, ⟨rfl, PosSemidef.zero⟩⟩
  sysMake := fun x c h => ⟨x, c, rfl, h⟩
  meas := fun _ => ⟨rfl, rfl, ⟨rfl, rfl, rfl⟩, rfl, rfl⟩
  measMake := fun _ x c h => ⟨x, c, rfl, h⟩

theorem quad_estimate : EstimatePD 1 (.zero 1) (.identity 1) := ⟨⟨rfl, rfl, rfl⟩, identity_pd 1⟩

open Classical in
/-- Some factorisation that meets the specification. -/
noncomputable def someLlt (A : DMat) : Option DMat :=
  if h : ∃ (n : Nat) (L : Matrix (Fin n) (Fin n) ℝ), A = .of (L * Lᵀ) then some (.of h.choose_spec.choose) else none

theorem someLlt_spec : LltSpec someLlt := by
  intro n M hM
  obtain ⟨B, hB⟩ : ∃ B : Matrix (Fin n) (Fin n) ℝ, M = Bᴴ * B := by
    open scoped MatrixOrder in
    exact CStarAlgebra.nonneg_iff_eq_star_mul_self.mp hM.posSemidef.nonneg
  have h : ∃ (n' : Nat) (L : Matrix (Fin n') (Fin n') ℝ), DMat.of M = .of (L * Lᵀ) :=
    ⟨n, Bᵀ, by rw [hB, Matrix.transpose_transpose, conjTranspose_eq_transpose_of_trivial]⟩
  unfold someLlt
  rw [dif_pos h]
  have h2 := h.choose_spec.choose_spec
  have h3 : h.choose = n := (congrArg DMat.rows h2).symm
  generalize h.choose_spec.choose = L at h2 ⊢
  revert L
  rw [h3]
  intro L h2
  exact ⟨L, rfl, (DMat.of_inj.mp h2).symm⟩

end Examples
end StateEstimation
