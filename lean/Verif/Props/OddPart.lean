import Verif.Props.Convex
import Mathlib.Probability.IdentDistrib

/-!
# C150: what is odd about the estimate is predicted exactly

For a quantity whose deviations on opposite sides of the estimate cancel, UKF, EKF and truth agree on the mean.
-/

set_option linter.unusedSectionVars false

namespace StateEstimation

open Matrix Kalman Sigma MeasureTheory ProbabilityTheory Examples

variable {T K X Y : Type} {n m r k : Nat}

/-- The function `φ` deviates from its value at `x` by opposite amounts at opposite sides of `x`. -/
def OddAbout (x : Fin n → ℝ) (φ : (Fin n → ℝ) → ℝ) : Prop := ∀ d, φ (x + d) - φ x = -(φ (x - d) - φ x)

/-- The random vector `S` is as likely to be on one side of `x` as on the opposite one. -/
def SymmetricAbout {Ω : Type} [MeasurableSpace Ω] (μ : Measure Ω) (x : Fin n → ℝ) (S : Ω → Fin n → ℝ) : Prop :=
  IdentDistrib S (fun ω => x - (S ω - x)) μ μ

namespace RightSide

theorem dot_mean_eq {lam : ℝ} (h : 0 < (n : ℝ) + lam) (w : Fin k → ℝ) (y : Nat → Fin k → ℝ)
    (hy : ∀ i < n, w ⬝ᵥ y (i + 1) + w ⬝ᵥ y (i + 1 + n) = 2 * (w ⬝ᵥ y 0)) : w ⬝ᵥ mean n lam y = w ⬝ᵥ y 0 := by
  have a := dot_mean h w y fun i hi => (hy i hi).ge
  have b := dot_mean h (-w) y fun i hi => by
    have := hy i hi
    simp only [neg_dotProduct]
    linarith
  simp only [neg_dotProduct] at b
  linarith

theorem odd_integral {Ω : Type} [MeasurableSpace Ω] {μ : Measure Ω} [IsProbabilityMeasure μ] {x : Fin n → ℝ} {S : Ω → Fin n → ℝ}
    {φ : (Fin n → ℝ) → ℝ} (ho : OddAbout x φ) (hφ : Measurable φ) (hS : SymmetricAbout μ x S) (hi : Integrable (fun ω => φ (S ω)) μ) :
    ∫ ω, φ (S ω) ∂μ = φ x := by
  have hc := hS.comp hφ
  have e1 : ∫ ω, φ (S ω) ∂μ = ∫ ω, φ (x - (S ω - x)) ∂μ := hc.integral_eq
  have e2 : ∀ ω, φ (x - (S ω - x)) = 2 * φ x - φ (S ω) := by
    intro ω
    have := ho (S ω - x)
    rw [add_sub_cancel] at this
    linarith
  rw [integral_congr_ae (Filter.Eventually.of_forall e2), integral_sub (integrable_const _) hi] at e1
  simp at e1
  linarith

end RightSide

namespace Props

variable [DecidableEq K] [LinearOrder T] [ExactTime T]

/-- **C150.**  If a quantity `w x` of the next state is a function of the state that is odd about the estimate, then the UKF and the
EKF predict the same `w x'`, and it is the true mean of `w g(S)` for every random state `S` distributed symmetrically about the
estimate, no matter how large the deviations and how strong the nonlinearity. -/
theorem C150_predict {llt : DMat → Option DMat} (hllt : LltSpec llt) (junk : Nat → Nat → ℝ)
    {sc : SysClass T NonlinSysData X} {mc : K → MeasClass T NonlinMeasData Y}
    (hsc : SysContract NonlinSysData.Sized sc) (hso : sc.PlainOps)
    (f : Filter T DVec DMat K (Env K NonlinSysData X NonlinMeasData Y))
    (f' : Filter T DVec DMat K (Env K NonlinSysData X NonlinMeasData Y × SigmaParams))
    (hsame : f'.env.1.sys = f.env.sys) (htime : f'.getStateTime = f.getStateTime)
    (hs : f.env.sys.Sized NonlinSysData.Sized n m) {al ka be : ℝ} (hsp : setSigma n n al ka be = some f'.env.2)
    (hal : 0 < al ^ 2 * (n + ka)) (hbe : al ^ 2 ≤ be)
    {x : Fin n → ℝ} {P : Matrix (Fin n) (Fin n) ℝ} (hx : f.getState = .of x) (hP : f.getCovariance = .of P)
    (hx' : f'.getState = .of x) (hP' : f'.getCovariance = .of P)
    (hPd : P.PosDef) (u : Fin m → ℝ) (hm : 0 < m) (hn : 0 < n) (t : T) (ht : f.getStateTime ≤ t)
    (hst : (f.env.sys.fm.checkStationary && f.env.sys.fm.isStationary (.of x) (.of u)) = false)
    {γ : (Fin n → ℝ) → (Fin n → ℝ)} (hq : SysIs sc n m f.env.sys (.of u) (TimeOps.sub t f.getStateTime) γ)
    (w : Fin n → ℝ) (hw : OddAbout x fun q => w ⬝ᵥ γ q) :
    ∃ g g', ∃ (x₁ x₂ : Fin n → ℝ),
      f.predictControl (ekfPlant sc mc) (.of u) t = some g ∧ f'.predictControl (ukfPlant llt junk sc mc) (.of u) t = some g' ∧
      g.getState = .of x₁ ∧ g'.getState = .of x₂ ∧ w ⬝ᵥ x₁ = w ⬝ᵥ x₂ ∧
      ∀ {Ω : Type} [MeasurableSpace Ω] (μ : Measure Ω) [IsProbabilityMeasure μ] (S : Ω → Fin n → ℝ), SymmetricAbout μ x S →
        Measurable (fun q => w ⬝ᵥ γ q) → Integrable (fun ω => w ⬝ᵥ γ (S ω)) μ → ∫ ω, w ⬝ᵥ γ (S ω) ∂μ = w ⬝ᵥ x₂ := by
  obtain ⟨g, p1, G, W1, V1, Rp1, Rc1, a1, a2, a3, a4, a5, a6, a7, a8, a9, a10, -⟩ := C27_ekf_predict (mc := mc) hsc f hs hx hP u hm t ht hst
  obtain ⟨g', p2, L, y, W2, V2, Rp2, Rc2, b1, b2, b3, b4, b5, b6, b7, b8, b9, b10, b11, b12, b13, -⟩ :=
    C36_ukf_predict hllt junk (mc := mc) hsc hso f' (by rw [hsame]; exact hs) hsp hal hbe hx' hP' hPd u hm hn t (by rw [htime]; exact ht)
      (by rw [hsame]; exact hst)
  rw [hsame, htime] at b5 b6
  have hup : f.env.sys.UpdatedAt sc n m (.of x) (.of u) (TimeOps.sub t f.getStateTime) g.env.sys := ⟨_, hs, Sys.SameConfig.refl _, a3⟩
  have img : ∀ (q v : Fin n → ℝ), SysImage sc n m f.env.sys (.of q) (.of u) (TimeOps.sub t f.getStateTime) v → v = γ q := by
    rintro q v ⟨s, k1, k2⟩
    exact DVec.of_inj.mp (k2.symm.trans (hq q s k1))
  have e : (n : ℝ) + (al ^ 2 * (n + ka) - n) = al ^ 2 * (n + ka) := by ring
  have hmean := RightSide.dot_mean_eq (n := n) (lam := al ^ 2 * (n + ka) - n) (by rw [e]; exact hal) w y (fun i hi => by
    rw [img _ _ b5, img _ _ (b6 i hi).1, img _ _ (b6 i hi).2]
    have := hw (colsOf L i)
    linarith)
  rw [img _ _ b5] at hmean
  refine ⟨g, g', γ x, _, a1, b1, by rw [a9]; exact hq x _ hup, b12, hmean.symm, ?_⟩
  intro Ω _ μ _ S hS hmeas hi
  rw [RightSide.odd_integral hw hmeas hS hi, hmean]

/-! ## Witness -/

/-- Two equally likely states, at distance 5 on the two sides of the estimate. -/
example : SymmetricAbout (Measure.map (fun b : Bool => if b then ![(6 : ℝ)] else ![-4]) (ProbabilityTheory.uniformOn Set.univ))
    (![1] : Fin 1 → ℝ) id := by
  have e : (fun ω : Fin 1 → ℝ => ![(1 : ℝ)] - (id ω - ![1])) ∘ (fun b : Bool => if b then ![(6 : ℝ)] else ![-4]) =
      (fun b : Bool => if b then ![(6 : ℝ)] else ![-4]) ∘ not := by
    funext b i
    fin_cases i
    cases b <;> norm_num
  have hm : Measurable fun ω : Fin 1 → ℝ => ![(1 : ℝ)] - (id ω - ![1]) := by fun_prop
  have hb : Measurable fun b : Bool => if b then ![(6 : ℝ)] else ![-4] := measurable_of_countable _
  refine ⟨measurable_id.aemeasurable, hm.aemeasurable, ?_⟩
  rw [Measure.map_id, Measure.map_map hm hb, e, ← Measure.map_map hb (measurable_of_countable _)]
  congr 1
  ext s hs
  rw [Measure.map_apply (measurable_of_countable _) hs]
  rw [ProbabilityTheory.uniformOn_univ, ProbabilityTheory.uniformOn_univ]
  congr 1
  exact (Measure.count_apply_finite _ (Set.toFinite _)).trans (by
    rw [Measure.count_apply_finite _ (Set.toFinite _)]
    congr 1
    exact Finset.card_bij (fun b _ => !b) (by simp) (by simp) (fun b h => ⟨!b, by simpa using h, by simp⟩))

section
open Dice Quadratic Bias Agree

/-- `g = x + dt ((x - 1)³ + u)`, `G = 1 + 3 dt (x - 1)²`, `P = 1`, `V = dt`. -/
private noncomputable def cubicClass : SysClass ℝ NonlinSysData Unit :=
  SysClass.plain fun s x u dt =>
    if s.stateSize = 1 ∧ s.controlDims = 1 ∧ s.Rp.rows = 1 then
      some { s with der := ⟨vec1 (head x + dt * ((head x - 1) ^ 3 + head u)), mat1 (1 + 3 * dt * (head x - 1) ^ 2)⟩
                    P := mat1 1
                    V := mat1 dt }
    else some s

private theorem cubic_contract : SysContract NonlinSysData.Sized cubicClass := by
  apply plain_contract
  intro n m s x u dt hs hx hu
  split
  next h =>
    obtain ⟨h1, h2, h3⟩ := h
    have hn : n = 1 := by rw [← hs.states]; exact h1
    have hm : m = 1 := by rw [← hs.controls]; exact h2
    subst hn hm
    exact ⟨_, rfl, ⟨hs.states, hs.controls, ⟨rfl, rfl, rfl⟩, ⟨rfl, h3.symm⟩, hs.Rp, ⟨rfl, rfl⟩, hs.Rc⟩,
      ⟨rfl, rfl, rfl, rfl, rfl⟩⟩
  next => exact ⟨s, rfl, hs, Sys.SameConfig.refl s⟩

private theorem cubic_is (dt : ℝ) : SysIs cubicClass 1 1 quadEnv.sys (vec1 0) dt fun q => ![q 0 + dt * (q 0 - 1) ^ 3] := by
  rintro q t ⟨s, h1, h2, h3⟩
  change (if _ then _ else _) = _ at h3
  rw [if_pos ⟨h1.states, h1.controls, by rw [h2.Rp]; rfl⟩] at h3
  injection h3 with h3
  subst h3
  show vec1 _ = _
  rw [head_of, head_vec1]
  show DVec.of _ = DVec.of _
  congr 1
  funext i
  fin_cases i
  simp

/-- `g = x + (x - 1)³` is odd about 1, where the estimate is. -/
example {llt : DMat → Option DMat} (hllt : LltSpec llt) (junk : Nat → Nat → ℝ) (sp : SigmaParams)
    (hsp : ukfInitSigma quadEnv = some sp) (params : Params ℝ) := by
  have ok := quadEnv_ok (Q := fun _ _ => True)
  exact C150_predict hllt junk (mc := fun _ : Unit => squareClass) cubic_contract (plain_ops _)
    (Filter.construct (ekfPlant cubicClass fun _ : Unit => squareClass) params quadEnv (vec1 1) (mat1 (4 / 3)) 0)
    (Filter.construct (ukfPlant llt junk cubicClass fun _ : Unit => squareClass) params (quadEnv, sp) (vec1 1) (mat1 (4 / 3)) 0)
    rfl rfl (n := 1) (m := 1) (x := ![1]) (P := !![4 / 3]) ok.sys (al := 0.001) (ka := 0) (be := 2) hsp
    (by norm_num) (by norm_num) rfl rfl rfl rfl four_thirds_pd ![0]
    (by norm_num) (by norm_num) 1 (show (0 : ℝ) ≤ 1 by norm_num) rfl (cubic_is _) ![1]
    (by
      intro d
      simp [dotProduct]
      ring)

end

end Props
end StateEstimation
