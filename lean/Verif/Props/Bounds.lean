import Verif.Props.OddPart
import Verif.Props.Cases

/-!
# C152: bounds that the model respects

What a model can predict often lies in a convex set: a concentration is not negative, a share is between 0 and 1.  The EKF's
predictions are such values.  The UKF's are weighted means; with a large enough spread parameter the weights are not negative and
the mean stays in the set, with the default parameters the central weight is about minus a million.
-/

set_option linter.unusedSectionVars false

namespace StateEstimation

open Matrix Kalman Sigma Examples

variable {T K X Y : Type} {n m r k : Nat}

namespace RightSide

theorem mean_mem {lam : ℝ} (h : 0 < (n : ℝ) + lam) (hl : 0 ≤ lam) {B : Set (Fin k → ℝ)} (hB : Convex ℝ B) {y : Nat → Fin k → ℝ}
    (hy : ∀ j < 2 * n + 1, y j ∈ B) : mean n lam y ∈ B := by
  unfold mean
  refine hB.sum_mem (fun j _ => ?_) ?_ fun j hj => hy j (Finset.mem_range.mp hj)
  · cases j with
    | zero => rw [wm_zero]; exact div_nonneg hl h.le
    | succ j => rw [wm_succ]; positivity
  · rw [Finset.sum_range_succ', wm_zero]
    simp only [wm_succ, Finset.sum_const, Finset.card_range, nsmul_eq_mul]
    have := wm_sum (n := n) h.ne'
    linarith

end RightSide

namespace Props

variable [DecidableEq K] [LinearOrder T] [ExactTime T]

/-- **C152, the part that holds.**  If all that the model predicts lies in a convex set, then so does the EKF's prediction, always, and
the UKF's if its spread parameters are large enough (`alpha² (n + kappa) ≥ n`).  Missing: the UKF's default parameters, for which it is
false, see `C152_defaults_refuted`. -/
theorem C152_predict_partial {llt : DMat → Option DMat} (hllt : LltSpec llt) (junk : Nat → Nat → ℝ)
    {sc : SysClass T NonlinSysData X} {mc : K → MeasClass T NonlinMeasData Y}
    (hsc : SysContract NonlinSysData.Sized sc) (hso : sc.PlainOps)
    (f : Filter T DVec DMat K (Env K NonlinSysData X NonlinMeasData Y))
    (f' : Filter T DVec DMat K (Env K NonlinSysData X NonlinMeasData Y × SigmaParams))
    (hsame : f'.env.1.sys = f.env.sys) (htime : f'.getStateTime = f.getStateTime)
    (hs : f.env.sys.Sized NonlinSysData.Sized n m) {al ka be : ℝ} (hsp : setSigma n n al ka be = some f'.env.2)
    (hal : (n : ℝ) ≤ al ^ 2 * (n + ka)) (hbe : al ^ 2 ≤ be)
    {x : Fin n → ℝ} {P : Matrix (Fin n) (Fin n) ℝ} (hx : f.getState = .of x) (hP : f.getCovariance = .of P)
    (hx' : f'.getState = .of x) (hP' : f'.getCovariance = .of P)
    (hPd : P.PosDef) (u : Fin m → ℝ) (hm : 0 < m) (hn : 0 < n) (t : T) (ht : f.getStateTime ≤ t)
    (hst : (f.env.sys.fm.checkStationary && f.env.sys.fm.isStationary (.of x) (.of u)) = false)
    {γ : (Fin n → ℝ) → (Fin n → ℝ)} (hq : SysIs sc n m f.env.sys (.of u) (TimeOps.sub t f.getStateTime) γ)
    {B : Set (Fin n → ℝ)} (hB : Convex ℝ B) (hγ : ∀ q, γ q ∈ B) :
    ∃ g g', ∃ (x₁ x₂ : Fin n → ℝ),
      f.predictControl (ekfPlant sc mc) (.of u) t = some g ∧ f'.predictControl (ukfPlant llt junk sc mc) (.of u) t = some g' ∧
      g.getState = .of x₁ ∧ g'.getState = .of x₂ ∧ x₁ ∈ B ∧ x₂ ∈ B := by
  have hn' : (0 : ℝ) < n := by exact_mod_cast hn
  have hal' : 0 < al ^ 2 * (n + ka) := by linarith
  obtain ⟨g, p1, G, W1, V1, Rp1, Rc1, a1, a2, a3, a4, a5, a6, a7, a8, a9, a10, -⟩ := C27_ekf_predict (mc := mc) hsc f hs hx hP u hm t ht hst
  obtain ⟨g', p2, L, y, W2, V2, Rp2, Rc2, b1, b2, b3, b4, b5, b6, b7, b8, b9, b10, b11, b12, b13, -⟩ :=
    C36_ukf_predict hllt junk (mc := mc) hsc hso f' (by rw [hsame]; exact hs) hsp hal' hbe hx' hP' hPd u hm hn t (by rw [htime]; exact ht)
      (by rw [hsame]; exact hst)
  rw [hsame, htime] at b5 b6
  have hup : f.env.sys.UpdatedAt sc n m (.of x) (.of u) (TimeOps.sub t f.getStateTime) g.env.sys := ⟨_, hs, Sys.SameConfig.refl _, a3⟩
  have img : ∀ (q v : Fin n → ℝ), SysImage sc n m f.env.sys (.of q) (.of u) (TimeOps.sub t f.getStateTime) v → v ∈ B := by
    rintro q v ⟨s, k1, k2⟩
    rw [DVec.of_inj.mp (k2.symm.trans (hq q s k1))]
    exact hγ q
  have e : (n : ℝ) + (al ^ 2 * (n + ka) - n) = al ^ 2 * (n + ka) := by ring
  refine ⟨g, g', γ x, _, a1, b1, by rw [a9]; exact hq x _ hup, b12, hγ x, ?_⟩
  refine RightSide.mean_mem (by rw [e]; exact hal') (by linarith) hB fun j hj => ?_
  rcases Nat.eq_zero_or_pos j with h | h
  · subst h; exact img _ _ b5
  · rcases Nat.lt_or_ge j (n + 1) with h' | h'
    · have := (b6 (j - 1) (by omega)).1
      rw [show j - 1 + 1 = j by omega] at this
      exact img _ _ this
    · have := (b6 (j - 1 - n) (by omega)).2
      rw [show j - 1 - n + 1 + n = j by omega] at this
      exact img _ _ this

/-! ## The default parameters -/

section
open Dice Quadratic Bias Agree

/-- `g = 1 / (1 + x²)`, `G = -2 x / (1 + x²)²`, `P = 1`, `V = 0`. -/
private noncomputable def bellClass : SysClass ℝ NonlinSysData Unit :=
  SysClass.plain fun s x _ _ =>
    if s.stateSize = 1 ∧ s.controlDims = 1 ∧ s.Rp.rows = 1 then
      some { s with der := ⟨vec1 (1 / (1 + head x ^ 2)), mat1 (-2 * head x / (1 + head x ^ 2) ^ 2)⟩
                    P := mat1 1
                    V := mat1 0 }
    else some s

private theorem bell_contract : SysContract NonlinSysData.Sized bellClass := by
  apply plain_contract
  intro n m s x u dt hs hx hu
  split
  next h =>
    obtain ⟨h1, h2, h3⟩ := h
    have hn : n = 1 := by rw [← hs.states]; exact h1
    have hm : m = 1 := by rw [← hs.controls]; exact h2
    subst hn hm
    exact ⟨_, rfl, ⟨hs.states, hs.controls, ⟨rfl, rfl, rfl⟩, ⟨rfl, h3.symm⟩, hs.Rp, ⟨rfl, rfl⟩, hs.Rc⟩,
      ⟨rfl, rfl, rfl, rfl, rfl⟩⟩
  next => exact ⟨s, rfl, hs, Sys.SameConfig.refl s⟩

private theorem bell_is (dt : ℝ) : SysIs bellClass 1 1 quadEnv.sys (vec1 0) dt fun q => ![1 / (1 + q 0 ^ 2)] := by
  rintro q t ⟨s, h1, h2, h3⟩
  change (if _ then _ else _) = _ at h3
  rw [if_pos ⟨h1.states, h1.controls, by rw [h2.Rp]; rfl⟩] at h3
  injection h3 with h3
  subst h3
  show vec1 _ = _
  rw [head_of]

private theorem positive_convex : Convex ℝ {v : Fin 1 → ℝ | 0 < v 0} := by
  intro a ha b hb p q hp hq hpq
  simp only [Set.mem_ofPred_eq, Pi.add_apply, Pi.smul_apply, smul_eq_mul] at *
  rcases hp.eq_or_lt with h | h
  · subst h
    have : q = 1 := by linarith
    subst this; simpa using hb
  · have := mul_pos h ha
    have := mul_nonneg hq hb.le
    linarith

/-- With `alpha = 1` the prediction of `1 / (1 + x²)` is positive. -/
example {llt : DMat → Option DMat} (hllt : LltSpec llt) (junk : Nat → Nat → ℝ) (sp : SigmaParams)
    (hsp : setSigma 1 1 1 0 2 = some sp) (params : Params ℝ) := by
  have ok := quadEnv_ok (Q := fun _ _ => True)
  exact C152_predict_partial hllt junk (mc := fun _ : Unit => squareClass) bell_contract (plain_ops _)
    (Filter.construct (ekfPlant bellClass fun _ : Unit => squareClass) params quadEnv (vec1 0) (mat1 (4 / 3)) 0)
    (Filter.construct (ukfPlant llt junk bellClass fun _ : Unit => squareClass) params (quadEnv, sp) (vec1 0) (mat1 (4 / 3)) 0)
    rfl rfl (n := 1) (m := 1) (x := ![0]) (P := !![4 / 3]) ok.sys (al := 1) (ka := 0) (be := 2) hsp
    (by norm_num) (by norm_num) rfl rfl rfl rfl four_thirds_pd ![0]
    (by norm_num) (by norm_num) 1 (show (0 : ℝ) ≤ 1 by norm_num) rfl (bell_is _) positive_convex
    (by intro q; simp only [Set.mem_ofPred_eq, Matrix.cons_val_zero]; positivity)

/-- **C152, refuted for the default parameters.**  The model `1 / (1 + x²)` never predicts anything but positive values, and a UKF with
the parameters it is made with, at 0 with variance 4/3, predicts a negative one. -/
theorem C152_defaults_refuted {llt : DMat → Option DMat} (hllt : LltSpec llt) (junk : Nat → Nat → ℝ) :
    ∃ (sc : SysClass ℝ NonlinSysData Unit) (env : Env Unit NonlinSysData Unit NonlinMeasData Unit) (mc : Unit → MeasClass ℝ NonlinMeasData Unit),
      SysContract NonlinSysData.Sized sc ∧ sc.PlainOps ∧
      (∃ γ : (Fin 1 → ℝ) → (Fin 1 → ℝ), SysIs sc 1 1 env.sys (vec1 0) 1 γ ∧ ∀ q, 0 < γ q 0) ∧
      (∃ sp, ukfInitSigma env = some sp) ∧ ∀ sp, ukfInitSigma env = some sp → ∀ params : Params ℝ,
        ∃ g x', (Filter.construct (ukfPlant llt junk sc mc) params (env, sp) (vec1 0) (mat1 (4 / 3)) (0 : ℝ)).predictControl
            (ukfPlant llt junk sc mc) (vec1 0) 1 = some g ∧ g.getState = .of x' ∧ x' (0 : Fin 1) < 0 := by
  have ok := quadEnv_ok (Q := fun _ _ => True)
  refine ⟨bellClass, quadEnv, fun _ => squareClass, bell_contract, plain_ops _,
    ⟨_, bell_is 1, fun q => by simp only [Matrix.cons_val_zero]; positivity⟩, default_sigma_one.imp fun _ h => h.1, fun sp hsp params => ?_⟩
  obtain ⟨g', p2, L, y, W2, V2, Rp2, Rc2, b1, b2, b3, b4, b5, b6, b7, b8, b9, b10, b11, b12, b13, -⟩ :=
    C36_ukf_predict hllt junk (mc := fun _ : Unit => squareClass) bell_contract (plain_ops _)
      (Filter.construct (ukfPlant llt junk bellClass fun _ : Unit => squareClass) params (quadEnv, sp) (vec1 0) (mat1 (4 / 3)) 0)
      (n := 1) (m := 1) (x := ![0]) (P := !![4 / 3]) ok.sys (al := 0.001) (ka := 0) (be := 2) hsp (by norm_num) (by norm_num) rfl rfl
      four_thirds_pd ![0] (by norm_num) (by norm_num) 1 (show (0 : ℝ) ≤ 1 by norm_num) rfl
  refine ⟨g', _, b1, b12, ?_⟩
  have img : ∀ (q v : Fin 1 → ℝ), SysImage bellClass 1 1 quadEnv.sys (.of q) (.of ![0]) (TimeOps.sub (1 : ℝ) 0) v →
      v = ![1 / (1 + q 0 ^ 2)] := by
    rintro q v ⟨s, k1, k2⟩
    exact DVec.of_inj.mp (k2.symm.trans (bell_is _ q s k1))
  have i0 := img _ _ b5
  have i1 := img _ _ (b6 0 (by norm_num)).1
  have i2 := img _ _ (b6 0 (by norm_num)).2
  have hL : L 0 0 ^ 2 = 4 / 3000000 := by
    have := congrFun (congrFun b4 0) 0
    simp [Matrix.mul_apply] at this
    rw [sq, this]
    norm_num
  have c0 : colsOf L 0 0 = L 0 0 := by simp [colsOf]
  unfold mean
  simp only [Finset.sum_range_succ, Finset.sum_range_zero, wm_zero, wm_succ]
  norm_num at i0 i1 i2 ⊢
  rw [i0, i1, i2]
  simp only [c0, Matrix.cons_val_zero, hL]
  norm_num

end

end Props
end StateEstimation
