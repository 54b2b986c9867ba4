import Verif.Props.LinearPart
import Verif.Props.Agree
import Mathlib.Analysis.Convex.Integral
import Mathlib.Analysis.Convex.Continuous

/-!
# C149: the UKF corrects the prediction to the right side
-/

set_option linter.unusedSectionVars false

namespace StateEstimation

open Matrix Kalman Sigma MeasureTheory Examples

variable {T K X Y : Type} {n m r k : Nat}

namespace RightSide

theorem dot_mean {lam : ℝ} (h : 0 < (n : ℝ) + lam) (w : Fin k → ℝ) (y : Nat → Fin k → ℝ)
    (hy : ∀ i < n, 2 * (w ⬝ᵥ y 0) ≤ w ⬝ᵥ y (i + 1) + w ⬝ᵥ y (i + 1 + n)) : w ⬝ᵥ y 0 ≤ w ⬝ᵥ mean n lam y := by
  rw [mean_eq h.ne', dotProduct_add]
  suffices 0 ≤ w ⬝ᵥ dev n lam y by linarith
  unfold dev
  rw [sum_two, dotProduct_sum]
  refine Finset.sum_nonneg fun i hi => ?_
  have := hy i (Finset.mem_range.mp hi)
  rw [← smul_add, dotProduct_smul, dotProduct_add, dotProduct_sub, dotProduct_sub, show i + n + 1 = i + 1 + n by omega, smul_eq_mul]
  exact mul_nonneg (by positivity) (by linarith)

theorem midpoint {f : (Fin n → ℝ) → ℝ} (hf : ConvexOn ℝ Set.univ f) (x l : Fin n → ℝ) : 2 * f x ≤ f (x + l) + f (x - l) := by
  have := hf.2 (Set.mem_univ (x + l)) (Set.mem_univ (x - l)) (by norm_num : (0 : ℝ) ≤ 1 / 2) (by norm_num : (0 : ℝ) ≤ 1 / 2) (by norm_num)
  have e : (1 / 2 : ℝ) • (x + l) + (1 / 2 : ℝ) • (x - l) = x := by
    ext i; simp; ring
  rw [e] at this
  simp only [smul_eq_mul] at this
  linarith

end RightSide

namespace Props

variable [DecidableEq K] [LinearOrder T] [ExactTime T]

/-- **C149.**  If a quantity `w x` of the next state is a convex function of the state, then the UKF predicts at least what the EKF
(on the same estimate) predicts, `w g(x)`; and so does the true mean of `w g(S)`, for every random state `S` with mean `x`
(Jensen).  With `-w` the same for concave ones. -/
theorem C149_predict {llt : DMat → Option DMat} (hllt : LltSpec llt) (junk : Nat → Nat → ℝ)
    {sc : SysClass T NonlinSysData X} {mc : K → MeasClass T NonlinMeasData Y}
    (hsc : SysContract NonlinSysData.Sized sc) (hso : sc.PlainOps)
    (f : Filter T DVec DMat K (Env K NonlinSysData X NonlinMeasData Y))
    (f' : Filter T DVec DMat K (Env K NonlinSysData X NonlinMeasData Y × SigmaParams))
    (hsame : f'.env.1.sys = f.env.sys) (htime : f'.getStateTime = f.getStateTime)
    (hs : f.env.sys.Sized NonlinSysData.Sized n m) {al ka be : ℝ} (hsp : setSigma n n al ka be = some f'.env.2)
    (hal : 0 < al ^ 2 * (n + ka)) (hbe : al ^ 2 ≤ be)
    {x : Fin n → ℝ} {P : Matrix (Fin n) (Fin n) ℝ} (hx : f.getState = .of x) (hP : f.getCovariance = .of P)
    (hx' : f'.getState = .of x) (hP' : f'.getCovariance = .of P)
    (hPd : P.PosDef) (u : Fin m → ℝ) (hm : 0 < m) (hn : 0 < n) (t : T) (ht : f.getStateTime ≤ t)
    (hst : (f.env.sys.fm.checkStationary && f.env.sys.fm.isStationary (.of x) (.of u)) = false)
    {γ : (Fin n → ℝ) → (Fin n → ℝ)} (hq : SysIs sc n m f.env.sys (.of u) (TimeOps.sub t f.getStateTime) γ)
    (w : Fin n → ℝ) (hw : ConvexOn ℝ Set.univ fun q => w ⬝ᵥ γ q) :
    ∃ g g', ∃ (x₁ x₂ : Fin n → ℝ),
      f.predictControl (ekfPlant sc mc) (.of u) t = some g ∧ f'.predictControl (ukfPlant llt junk sc mc) (.of u) t = some g' ∧
      g.getState = .of x₁ ∧ g'.getState = .of x₂ ∧ w ⬝ᵥ x₁ ≤ w ⬝ᵥ x₂ ∧
      ∀ {Ω : Type} [MeasurableSpace Ω] (μ : Measure Ω) [IsProbabilityMeasure μ] (S : Ω → Fin n → ℝ), Integrable S μ →
        ∫ ω, S ω ∂μ = x → Integrable (fun ω => w ⬝ᵥ γ (S ω)) μ → w ⬝ᵥ x₁ ≤ ∫ ω, w ⬝ᵥ γ (S ω) ∂μ := by
  obtain ⟨g, p1, G, W1, V1, Rp1, Rc1, a1, a2, a3, a4, a5, a6, a7, a8, a9, a10, -⟩ := C27_ekf_predict (mc := mc) hsc f hs hx hP u hm t ht hst
  obtain ⟨g', p2, L, y, W2, V2, Rp2, Rc2, b1, b2, b3, b4, b5, b6, b7, b8, b9, b10, b11, b12, b13, -⟩ :=
    C36_ukf_predict hllt junk (mc := mc) hsc hso f' (by rw [hsame]; exact hs) hsp hal hbe hx' hP' hPd u hm hn t (by rw [htime]; exact ht)
      (by rw [hsame]; exact hst)
  rw [hsame, htime] at b5 b6
  have hup : f.env.sys.UpdatedAt sc n m (.of x) (.of u) (TimeOps.sub t f.getStateTime) g.env.sys := ⟨_, hs, Sys.SameConfig.refl _, a3⟩
  have img : ∀ (q v : Fin n → ℝ), SysImage sc n m f.env.sys (.of q) (.of u) (TimeOps.sub t f.getStateTime) v → v = γ q := by
    rintro q v ⟨s, k1, k2⟩
    exact DVec.of_inj.mp (k2.symm.trans (hq q s k1))
  have e : (n : ℝ) + (al ^ 2 * (n + ka) - n) = al ^ 2 * (n + ka) := by ring
  refine ⟨g, g', γ x, _, a1, b1, by rw [a9]; exact hq x _ hup, b12, ?_, ?_⟩
  · have := RightSide.dot_mean (n := n) (lam := al ^ 2 * (n + ka) - n) (by rw [e]; exact hal) w y (fun i hi => by
      rw [img _ _ b5, img _ _ (b6 i hi).1, img _ _ (b6 i hi).2]
      exact RightSide.midpoint hw x (colsOf L i))
    rwa [img _ _ b5] at this
  · intro Ω _ μ _ S hS hSx hg
    have := hw.map_integral_le (μ := μ) (f := S) ?_ isClosed_univ (by simp) hS hg
    · rwa [hSx] at this
    · exact hw.locallyLipschitz.continuous.continuousOn

/-! ## Witness -/

section
open Dice Quadratic Bias Agree

private theorem quad_convex : ConvexOn ℝ Set.univ fun q : Fin 1 → ℝ => ![(1 : ℝ)] ⬝ᵥ quadratic (n := 1) (![1 * 0] : Fin 1 → ℝ) !![1] (fun _ => !![1]) q := by
  refine ⟨convex_univ, fun a _ b _ p q hp hq hpq => ?_⟩
  have hq' : q = 1 - p := by linarith
  have e : ∀ c : Fin 1 → ℝ, ![(1 : ℝ)] ⬝ᵥ quadratic (n := 1) (![1 * 0] : Fin 1 → ℝ) !![1] (fun _ => !![1]) c = c 0 + c 0 * c 0 := by
    intro c; simp [quadratic, Matrix.mulVec, dotProduct]
  simp only [e, Pi.add_apply, Pi.smul_apply, smul_eq_mul]
  subst hq'
  nlinarith [mul_nonneg (mul_nonneg hp hq) (sq_nonneg (a 0 - b 0))]

/-- `g = x + x² + u` is convex; at 1 with variance 4/3 the filters predict 2 and 10/3 (C130). -/
example {llt : DMat → Option DMat} (hllt : LltSpec llt) (junk : Nat → Nat → ℝ) (sp : SigmaParams)
    (hsp : ukfInitSigma quadEnv = some sp) (params : Params ℝ) := by
  have ok := quadEnv_ok (Q := fun _ _ => True)
  have hsub : TimeOps.sub (1 : ℝ) (0 : ℝ) = 1 := by show (1 : ℝ) - 0 = 1; norm_num
  exact C149_predict hllt junk (mc := fun _ : Unit => squareClass) quad_contract (plain_ops _)
    (Filter.construct (ekfPlant quadClass fun _ : Unit => squareClass) params quadEnv (vec1 1) (mat1 (4 / 3)) 0)
    (Filter.construct (ukfPlant llt junk quadClass fun _ : Unit => squareClass) params (quadEnv, sp) (vec1 1) (mat1 (4 / 3)) 0)
    rfl rfl (n := 1) (m := 1) (x := ![1]) (P := !![4 / 3]) ok.sys (al := 0.001) (ka := 0) (be := 2) hsp
    (by norm_num) (by norm_num) rfl rfl rfl rfl four_thirds_pd ![0]
    (by norm_num) (by norm_num) 1 (show (0 : ℝ) ≤ 1 by norm_num) rfl (γ := quadratic (![1 * 0] : Fin 1 → ℝ) !![1] (fun _ => !![1]))
    (by
      intro q t h
      have := quad_quadratic 0 (TimeOps.sub (1 : ℝ) (0 : ℝ)) q t h
      rw [hsub] at this
      exact this)
    ![1] quad_convex

end

end Props
end StateEstimation
