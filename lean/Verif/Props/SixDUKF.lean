import Verif.Lemmas.SixDUKF
import Verif.Lemmas.Asking
import Verif.Lemmas.Turning
import Verif.Lemmas.WithApi
import Verif.Lemmas.Llt
import Verif.Props.SixDFilter
import Verif.Props.AllActive
import Mathlib.Analysis.Complex.Trigonometric
import Mathlib.Algebra.Order.Chebyshev

/-!
# C109: a UKF on the 6-D rates model and gravity
-/

set_option linter.unusedSectionVars false

namespace StateEstimation.Props

open Matrix Real Examples Sigma Turning

variable {K Y : Type} [DecidableEq K]

/-! ## Sums of vectors of gravity's length -/

theorem norm3_sum {ι : Type} (s : Finset ι) (f : ι → V3) : norm3 (∑ i ∈ s, f i) ≤ ∑ i ∈ s, norm3 (f i) := by
  classical
  induction s using Finset.induction_on with
  | empty => simp [norm3_zero]
  | insert a s ha ih =>
    rw [Finset.sum_insert ha, Finset.sum_insert ha]
    exact (norm3_add _ _).trans (by linarith)

theorem rescaled_le (g : V3) : norm3 (SixDRates.rescaled g) ≤ 9.8062 := by
  by_cases h : g = 0
  · rw [h, rescaled_zero, norm3_zero]; norm_num
  · exact (rescaled_norm h).le

theorem norm3_sub_comm (a b : V3) : norm3 (a - b) = norm3 (b - a) := by
  rw [← norm3_neg, neg_sub]

/-- Scaling to 9.8062 moves a vector at most as far again as it was from one of that length. -/
theorem rescaled_near {g : V3} (hg : norm3 g = 9.8062) (v : V3) : norm3 (SixDRates.rescaled v - g) ≤ 2 * norm3 (v - g) := by
  have h1 : norm3 (SixDRates.rescaled v - v) ≤ norm3 (v - g) := by
    have t1 : norm3 g ≤ norm3 v + norm3 (v - g) := by
      have := norm3_sub v (v - g)
      rwa [sub_sub_cancel] at this
    have t2 : norm3 v ≤ norm3 g + norm3 (v - g) := by
      have := norm3_add g (v - g)
      rwa [add_sub_cancel] at this
    by_cases hv : v = 0
    · rw [hv, rescaled_zero, sub_self, norm3_zero]; exact norm3_nonneg _
    · have hp := norm3_pos hv
      have e : SixDRates.rescaled v - v = (9.8062 / norm3 v - 1) • v := by rw [rescaled_ne hv, sub_smul, one_smul]
      rw [e, norm3_smul]
      have e2 : |9.8062 / norm3 v - 1| * norm3 v = |norm3 g - norm3 v| := by
        rw [hg]
        conv_lhs => rw [← abs_of_pos hp, ← abs_mul, sub_mul, abs_of_pos hp, div_mul_cancel₀ _ hp.ne', one_mul]
      rw [e2, abs_le]
      constructor <;> linarith
  have e : SixDRates.rescaled v - g = (SixDRates.rescaled v - v) + (v - g) := by abel
  rw [e]
  exact (norm3_add _ _).trans (by linarith)

/-- Turning with the rate `w` for `dt` moves a vector at most `dt |w|` times its length. -/
theorem turned_near (dt : ℝ) (w g : V3) : norm3 ((deltaQuaternion dt w).rot g - g) ≤ |dt| * norm3 w * norm3 g := by
  by_cases hw : norm3 w > 1e-9
  · rw [delta_turn hw]
    have e : turn w (norm3 w * dt) g - g = act w (Complex.exp ((norm3 w * dt : ℝ) * Complex.I) - 1) (perp w g) := by
      rw [← act_sub, act_one]
      unfold turn
      conv_lhs => rhs; rw [← par_add_perp w g]
      abel
    rw [e, norm_act]
    have h1 : ‖Complex.exp ((norm3 w * dt : ℝ) * Complex.I) - 1‖ ≤ |dt| * norm3 w := by
      rw [mul_comm _ Complex.I]
      refine (Real.norm_exp_I_mul_ofReal_sub_one_le).trans ?_
      rw [Real.norm_eq_abs, abs_mul, abs_of_nonneg (norm3_nonneg w), mul_comm]
    exact mul_le_mul h1 (norm_perp w g) (norm3_nonneg _) (mul_nonneg (abs_nonneg _) (norm3_nonneg _))
  · rw [deltaQuaternion_small hw, identity_rot, sub_self, norm3_zero]
    exact mul_nonneg (mul_nonneg (abs_nonneg _) (norm3_nonneg _)) (norm3_nonneg _)

theorem rescaled_same {h : V3} (hh : norm3 h = 9.8062 ∨ h = 0) {c : ℝ} (hc : 0 < c) : SixDRates.rescaled (c • h) = h := by
  rcases hh with hh | rfl
  · have h0 : h ≠ 0 := by intro h0; rw [h0, norm3_zero] at hh; norm_num at hh
    rw [rescaled_ne (smul_ne_zero hc.ne' h0), norm3_smul, hh, abs_of_pos hc, smul_smul]
    rw [show (9.8062 : ℝ) / (c * 9.8062) * c = 1 by field_simp, one_smul]
  · rw [smul_zero, rescaled_zero]

theorem rescaled_opposite {h : V3} (hh : norm3 h = 9.8062) {c : ℝ} (hc : c < 0) : SixDRates.rescaled (c • h) = -h := by
  have h0 : h ≠ 0 := by intro h0; rw [h0, norm3_zero] at hh; norm_num at hh
  rw [rescaled_ne (smul_ne_zero hc.ne h0), norm3_smul, hh, abs_of_neg hc, smul_smul]
  rw [show (9.8062 : ℝ) / (-c * 9.8062) * c = -1 by have := hc.ne; field_simp, neg_one_smul]

theorem rescaled_physical (h : V3) : norm3 (SixDRates.rescaled h) = 9.8062 ∨ SixDRates.rescaled h = 0 := by
  by_cases h0 : h = 0
  · exact Or.inr (by rw [h0, rescaled_zero])
  · exact Or.inl (rescaled_norm h0)

/-! ## Sigma points -/

theorem gravity_predicted {s : SixDRates.Obj} (hu : SixDRates.gravityUsed s = true) (q : Fin 18 → ℝ) (dt : ℝ) :
    gravityOf (SixDRates.predicted s q dt) = (deltaQuaternion dt (rateOf q)).rot (gravityOf q) := by
  rw [← part_rate, ← part_gravity]
  have e : ∀ (i : Fin 18) (h : 9 ≤ i.val ∧ i.val < 12), SixDRates.predicted s q dt i =
      (deltaQuaternion dt (SixDRates.part q 6)).rot (SixDRates.part q 9) ⟨i.val - 9, by omega⟩ := by
    intro i h
    unfold SixDRates.predicted
    rw [dif_neg (by omega), dif_pos ⟨h, hu⟩]
  funext k
  fin_cases k
  · exact e 9 (by decide)
  · exact e 10 (by decide)
  · exact e 11 (by decide)

theorem gravity_plus (x c : Fin 18 → ℝ) : gravityOf (SixDRates.plus x c) = SixDRates.rescaled (gravityOf x + gravityOf c) := by
  unfold SixDRates.plus
  rw [gravityOf_with, part_gravity]
  congr 1
  funext k; fin_cases k <;> rfl

theorem gravity_minus (x c : Fin 18 → ℝ) : gravityOf (SixDRates.minus x c) = SixDRates.rescaled (gravityOf x - gravityOf c) := by
  unfold SixDRates.minus
  rw [gravityOf_with, part_gravity]
  congr 1
  funext k; fin_cases k <;> rfl

theorem rate_plus (x c : Fin 18 → ℝ) : rateOf (SixDRates.plus x c) = rateOf x + rateOf c := by
  funext k; fin_cases k <;> rfl

theorem rate_minus (x c : Fin 18 → ℝ) : rateOf (SixDRates.minus x c) = rateOf x - rateOf c := by
  funext k; fin_cases k <;> rfl

theorem physical_rot {h : V3} (hh : norm3 h = 9.8062 ∨ h = 0) (dt : ℝ) (w : V3) :
    norm3 ((deltaQuaternion dt w).rot h) = 9.8062 ∨ (deltaQuaternion dt w).rot h = 0 := by
  have hn : norm3 ((deltaQuaternion dt w).rot h) = norm3 h := C52_rotation (C52_unit dt w) h
  rcases hh with hh | rfl
  · exact Or.inl (hn.trans hh)
  · right
    by_contra h0
    exact (norm3_pos h0).ne' (by rw [hn, norm3_zero])

/-- The gravity of a sigma point of a body at rest, predicted. -/
theorem sigma_near {g : V3} (hg : norm3 g = 9.8062) (dt : ℝ) (d w : V3) :
    norm3 ((deltaQuaternion dt w).rot (SixDRates.rescaled (g + d)) - g) ≤ |dt| * norm3 w * 9.8062 + 2 * norm3 d := by
  have e : (deltaQuaternion dt w).rot (SixDRates.rescaled (g + d)) - g =
      ((deltaQuaternion dt w).rot (SixDRates.rescaled (g + d)) - SixDRates.rescaled (g + d)) + (SixDRates.rescaled (g + d) - g) := by
    abel
  rw [e]
  refine (norm3_add _ _).trans (add_le_add ((turned_near dt w _).trans ?_) ((rescaled_near hg (g + d)).trans ?_))
  · exact mul_le_mul_of_nonneg_left (rescaled_le _) (mul_nonneg (abs_nonneg _) (norm3_nonneg _))
  · rw [add_sub_cancel_left]

/-- The columns of `L` over three rows. -/
theorem rows_sum (L C : Matrix (Fin 18) (Fin 18) ℝ) {r : ℝ} (h : L * Lᵀ = r • C) (part : (Fin 18 → ℝ) → V3) (a b c : Fin 18)
    (hp : ∀ v, part v = ![v a, v b, v c]) :
    ∑ i ∈ Finset.range 18, norm3 (part (colsOf L i)) ^ 2 = r * (C a a + C b b + C c c) := by
  have hd : ∀ a, ∑ i : Fin 18, L a i * L a i = r * C a a := by
    intro a
    have := congrFun (congrFun h a) a
    rw [Matrix.mul_apply, Matrix.smul_apply, smul_eq_mul] at this
    exact this
  rw [mul_add, mul_add, ← hd a, ← hd b, ← hd c, ← Finset.sum_add_distrib, ← Finset.sum_add_distrib, Finset.sum_range]
  refine Finset.sum_congr rfl fun i _ => ?_
  rw [norm3_sq, hp]
  have e : ∀ a, colsOf L i.val a = L a i := fun a => by unfold colsOf; rw [dif_pos i.isLt]
  simp only [sqNorm, Matrix.cons_val_zero, Matrix.cons_val_one, Matrix.cons_val, e]

theorem sum_le_of_sq {f : Nat → ℝ} {B : ℝ} (hB : 0 ≤ B) (h : ∑ i ∈ Finset.range 18, f i ^ 2 ≤ B ^ 2 / 18) :
    ∑ i ∈ Finset.range 18, f i ≤ B := by
  have := sq_sum_le_card_mul_sum_sq (s := Finset.range 18) (f := f)
  rw [Finset.card_range] at this
  refine abs_le_of_sq_le_sq' ?_ hB |>.2
  push_cast at this
  linarith

theorem weights_sum {lam d : ℝ} (h : ((18 : ℕ) : ℝ) + lam ≠ 0) : ∑ j ∈ Finset.range 37, wc 18 lam d j = 2 + d := by
  rw [Finset.sum_range_succ']
  simp only [wc_succ, wc_zero, Finset.sum_const, Finset.card_range, nsmul_eq_mul]
  have := wm_sum h
  push_cast at this ⊢
  linarith

theorem at_rest_predict {Z : Type} {llt : DMat → Option DMat} (hllt : LltSpec llt) (junk : Nat → Nat → ℝ) {s : SixDRates.Obj}
    (hs : s.Sized NonlinSysData.Sized 18 0) (hsh : SixDRates.Shape s) (hu : SixDRates.gravityUsed s = true) (hRp : s.Rp.PSD)
    {lam d : ℝ} (hlam : ((18 : ℕ) : ℝ) + lam = 18e-6)
    (x : Fin 18 → ℝ) (hx : norm3 (gravityOf x) = 9.8062) (hw : rateOf x = 0)
    {C : Matrix (Fin 18) (Fin 18) ℝ} (hC : C.PosDef) (hg : C 9 9 + C 10 10 + C 11 11 ≤ 96) {dt : ℝ}
    (hr : dt ^ 2 * (C 6 6 + C 7 7 + C 8 8) ≤ 1) {u : DVec} (hu0 : u.size = 0) (back : SixDRates.Obj → Z) :
    ∃ (s' : SixDRates.Obj) (x' : Fin 18 → ℝ) (D : Matrix (Fin 18) (Fin 18) ℝ),
      ukfPredict llt junk SixDRates.cls ⟨37, lam, .of (fun j : Fin 37 => wm 18 lam j), .of (fun j : Fin 37 => wc 18 lam d j)⟩
        s (.of x) (.of C) u dt back = some (.of x', .of D, back s') ∧
      34 * 9.8062 ≤ norm3 (gravityOf x') ∧ norm3 (gravityOf x') ≤ 36 * 9.8062 ∧
      (2 + d) * 9.8062 ^ 2 ≤ D 9 9 + D 10 10 + D 11 11 := by
  have hpos : 0 < ((18 : ℕ) : ℝ) + lam := by rw [hlam]; norm_num
  obtain ⟨L, hL, hLL⟩ := hllt _ (hC.smul hpos)
  obtain ⟨s', y, x', W, Rp, V, Rc, h1, _, _, h4, h5, h6, _, h8⟩ := SixDRates.ukf_predict_of junk hs hsh rfl (wm 18 lam) (wc 18 lam d)
    hL x hu0 dt back
  refine ⟨s', x', _, h1, ?_⟩
  -- the sigma points
  have hy0 : gravityOf (y 0) = gravityOf x := by
    rw [h4, gravity_predicted hu, hw, deltaQuaternion_small (by rw [norm3_zero]; norm_num), identity_rot]
  have hphys : ∀ j < 37, norm3 (gravityOf (y j)) = 9.8062 ∨ gravityOf (y j) = 0 := by
    intro j hj
    rcases Nat.eq_zero_or_pos j with rfl | hj0
    · exact Or.inl (hy0 ▸ hx)
    · by_cases hj1 : j ≤ 18
      · obtain ⟨i, rfl⟩ : ∃ i, j = i + 1 := ⟨j - 1, by omega⟩
        rw [(h5 i (by omega)).1, gravity_predicted hu, gravity_plus]
        exact physical_rot (rescaled_physical _) _ _
      · obtain ⟨i, rfl⟩ : ∃ i, j = i + 1 + 18 := ⟨j - 19, by omega⟩
        rw [(h5 i (by omega)).2, gravity_predicted hu, gravity_minus]
        exact physical_rot (rescaled_physical _) _ _
  have hnear : ∀ i < 18, norm3 (gravityOf (y (i + 1)) - gravityOf x) ≤
        |dt| * norm3 (rateOf (colsOf L i)) * 9.8062 + 2 * norm3 (gravityOf (colsOf L i)) ∧
      norm3 (gravityOf (y (i + 1 + 18)) - gravityOf x) ≤
        |dt| * norm3 (rateOf (colsOf L i)) * 9.8062 + 2 * norm3 (gravityOf (colsOf L i)) := by
    intro i hi
    constructor
    · rw [(h5 i hi).1, gravity_predicted hu, gravity_plus, rate_plus, hw, zero_add]
      exact sigma_near hx dt _ _
    · rw [(h5 i hi).2, gravity_predicted hu, gravity_minus, rate_minus, hw, zero_sub, sub_eq_add_neg]
      have := sigma_near hx dt (-gravityOf (colsOf L i)) (-rateOf (colsOf L i))
      rwa [norm3_neg, norm3_neg] at this
  -- the sum
  have hsum : gravityOf x' - (35 : ℝ) • gravityOf x =
      ∑ i ∈ Finset.range 18, ((gravityOf (y (i + 1)) - gravityOf x) + (gravityOf (y (i + 1 + 18)) - gravityOf x)) := by
    have e0 : SixDRates.rescaled (wm 18 lam 0 • gravityOf (y 0)) = -gravityOf x := by
      rw [hy0]
      refine rescaled_opposite hx ?_
      rw [wm_zero]
      exact div_neg_of_neg_of_pos (by push_cast at hlam; linarith) hpos
    have e1 : ∀ j < 36, SixDRates.rescaled (wm 18 lam (j + 1) • gravityOf (y (j + 1))) = gravityOf (y (j + 1)) := by
      intro j hj
      refine rescaled_same (hphys _ (by omega)) ?_
      rw [wm_succ]
      exact div_pos (by norm_num) hpos
    rw [h6, Finset.sum_range_succ', e0, Finset.sum_congr rfl fun j hj => e1 j (Finset.mem_range.mp hj),
      show (36 : ℕ) = 2 * 18 from rfl, sum_two 18 fun j => gravityOf (y (j + 1))]
    have e2 : ∀ i, gravityOf (y (i + 1)) - gravityOf x + (gravityOf (y (i + 1 + 18)) - gravityOf x) =
        (gravityOf (y (i + 1)) + gravityOf (y (i + 18 + 1))) - (2 : ℝ) • gravityOf x := by
      intro i
      rw [show i + 18 + 1 = i + 1 + 18 by omega]
      module
    rw [Finset.sum_congr rfl fun i _ => e2 i, Finset.sum_sub_distrib, Finset.sum_const, Finset.card_range]
    module
  have hb : norm3 (gravityOf x' - (35 : ℝ) • gravityOf x) ≤ 2 * (0.018 * 9.8062 + 2 * 0.18) := by
    rw [hsum]
    refine (norm3_sum _ _).trans ?_
    have e1 : ∀ i ∈ Finset.range 18, norm3 ((gravityOf (y (i + 1)) - gravityOf x) + (gravityOf (y (i + 1 + 18)) - gravityOf x)) ≤
        2 * ((|dt| * norm3 (rateOf (colsOf L i))) * 9.8062 + 2 * norm3 (gravityOf (colsOf L i))) := by
      intro i hi
      obtain ⟨a, b⟩ := hnear i (Finset.mem_range.mp hi)
      exact (norm3_add _ _).trans (by linarith)
    refine (Finset.sum_le_sum e1).trans ?_
    rw [← Finset.mul_sum, Finset.sum_add_distrib, ← Finset.sum_mul,
      ← Finset.mul_sum (f := fun i => norm3 (gravityOf (colsOf L i)))]
    have q1 : ∑ i ∈ Finset.range 18, |dt| * norm3 (rateOf (colsOf L i)) ≤ 0.018 := by
      refine sum_le_of_sq (by norm_num) ?_
      simp only [mul_pow, sq_abs]
      rw [← Finset.mul_sum, rows_sum L C hLL rateOf 6 7 8 (fun _ => rfl), hlam]
      norm_num at hr ⊢
      linarith
    have q2 : ∑ i ∈ Finset.range 18, norm3 (gravityOf (colsOf L i)) ≤ 0.18 := by
      refine sum_le_of_sq (by norm_num) ?_
      rw [rows_sum L C hLL gravityOf 9 10 11 (fun _ => rfl), hlam]
      norm_num at hg ⊢
      linarith
    linarith
  have hn35 : norm3 ((35 : ℝ) • gravityOf x) = 35 * 9.8062 := by rw [norm3_smul, hx]; norm_num
  have hlow : 34 * 9.8062 ≤ norm3 (gravityOf x') := by
    have := norm3_sub (gravityOf x') (gravityOf x' - (35 : ℝ) • gravityOf x)
    rw [sub_sub_cancel, hn35] at this
    norm_num at this hb ⊢
    linarith
  have hup : norm3 (gravityOf x') ≤ 36 * 9.8062 := by
    have := norm3_add ((35 : ℝ) • gravityOf x) (gravityOf x' - (35 : ℝ) • gravityOf x)
    rw [add_sub_cancel, hn35] at this
    norm_num at this hb ⊢
    linarith
  refine ⟨hlow, hup, ?_⟩
  -- the covariance
  have hm : ∀ j < 37, SixDRates.minus (y j) x' 9 ^ 2 + SixDRates.minus (y j) x' 10 ^ 2 + SixDRates.minus (y j) x' 11 ^ 2 = 9.8062 ^ 2 := by
    intro j hj
    have h0 : gravityOf (y j) - gravityOf x' ≠ 0 := by
      intro h0
      rw [← sub_eq_zero.mp h0] at hlow
      rcases hphys j hj with h | h
      · rw [h] at hlow; norm_num at hlow
      · rw [h, norm3_zero] at hlow; norm_num at hlow
    have := rescaled_norm h0
    rw [← gravity_minus] at this
    rw [← this, norm3_sq]
    simp only [sqNorm, gravityOf, Matrix.cons_val_zero, Matrix.cons_val_one, Matrix.cons_val]
    ring
  have hv : ∑ j ∈ Finset.range 37, wc 18 lam d j *
      (SixDRates.minus (y j) x' 9 ^ 2 + SixDRates.minus (y j) x' 10 ^ 2 + SixDRates.minus (y j) x' 11 ^ 2) = (2 + d) * 9.8062 ^ 2 := by
    rw [Finset.sum_congr rfl fun j hj => by rw [hm j (Finset.mem_range.mp hj)], ← Finset.sum_mul, weights_sum hpos.ne']
  have hn : (W * Rp * Wᵀ + V * Rc * Vᵀ).PosSemidef := by
    have e : V * Rc * Vᵀ = 0 := by
      ext i j; simp [Matrix.mul_apply]
    rw [e, add_zero]
    rw [h8] at hRp
    obtain ⟨_, hRp⟩ := hRp
    exact Kalman.psd_conj hRp W
  have d9 := hn.diag_nonneg (i := 9)
  have d10 := hn.diag_nonneg (i := 10)
  have d11 := hn.diag_nonneg (i := 11)
  rw [← hv]
  have e : ∀ a : Fin 18, (W * Rp * Wᵀ + V * Rc * Vᵀ + ∑ j ∈ Finset.range 37, wc 18 lam d j •
      vecMulVec (SixDRates.minus (y j) x') (SixDRates.minus (y j) x')) a a = (W * Rp * Wᵀ + V * Rc * Vᵀ) a a +
      ∑ j ∈ Finset.range 37, wc 18 lam d j * SixDRates.minus (y j) x' a ^ 2 := by
    intro a
    rw [Matrix.add_apply, Matrix.sum_apply]
    congr 1
    refine Finset.sum_congr rfl fun j _ => ?_
    rw [Matrix.smul_apply, vecMulVec_apply, smul_eq_mul, sq]
  rw [e, e, e]
  simp only [mul_add, Finset.sum_add_distrib]
  linarith

/-! ## C109 -/

/-- A 6-D rates model as constructed, with process noise `Rp`, and sensors. -/
noncomputable def ukfModels (cj uc : Bool) (Rp : Matrix (Fin 15) (Fin 15) ℝ) (meas : K → Meas NonlinMeasData Y) :
    Env K NonlinSysData SixDRates.Flags NonlinMeasData Y := ⟨{ SixDRates.construct cj uc with Rp := .of Rp }, meas⟩

/-- **C109 (refuted).**  A UKF with its default sigma points on the 6-D rates model as constructed, any sensors, any
positive semidefinite process noise, any mode.  A body known not to turn, with gravity of the right magnitude 9.8062; variances
of gravity up to 96 in sum (a standard deviation of 9.8) and of the angular rates up to one over the squared time step.  One
prediction makes gravity 34 to 36 times as large, and the sum of its variances at least 384 (a standard deviation of 19.6),
however small it was. -/
theorem C109_at_rest_refuted {llt : DMat → Option DMat} (hllt : LltSpec llt) (junk : Nat → Nat → ℝ)
    (mc : K → MeasClass ℝ NonlinMeasData Y) (meas : K → Meas NonlinMeasData Y) (cj uc : Bool)
    {Rp : Matrix (Fin 15) (Fin 15) ℝ} (hRp : Rp.PosSemidef) {sp : SigmaParams}
    (hsp : ukfInitSigma (ukfModels cj uc Rp meas) = some sp) (params : Params ℝ)
    {x : Fin 18 → ℝ} (hx : norm3 (gravityOf x) = 9.8062) (hw : rateOf x = 0)
    {C : Matrix (Fin 18) (Fin 18) ℝ} (hC : C.PosDef) (hg : C 9 9 + C 10 10 + C 11 11 ≤ 96) {t0 t : ℝ} (ht : t0 < t)
    (hr : (t - t0) ^ 2 * (C 6 6 + C 7 7 + C 8 8) ≤ 1) :
    ∃ (g : Filter ℝ DVec DMat K _) (v : Fin 18 → ℝ) (D : Matrix (Fin 18) (Fin 18) ℝ),
      (Filter.construct (ukfPlant llt junk SixDRates.cls mc) params (ukfModels cj uc Rp meas, sp) (.of x) (.of C) t0).predictTime
        (ukfPlant llt junk SixDRates.cls mc) t = some g ∧ g.getState = .of v ∧ g.getCovariance = .of D ∧
      34 * 9.8062 ≤ norm3 (gravityOf v) ∧ norm3 (gravityOf v) ≤ 36 * 9.8062 ∧ 384 ≤ D 9 9 + D 10 10 + D 11 11 := by
  obtain ⟨lam, hlam, _, rfl⟩ := setSigma_eq (n := 18) hsp
  have hlam' : ((18 : ℕ) : ℝ) + lam = 18e-6 := by rw [hlam]; norm_num
  have hs : (ukfModels cj uc Rp meas).sys.Sized NonlinSysData.Sized 18 0 :=
    ⟨rfl, rfl, ⟨rfl, rfl, rfl⟩, ⟨rfl, rfl⟩, ⟨rfl, rfl⟩, ⟨rfl, rfl⟩, ⟨rfl, rfl⟩⟩
  obtain ⟨s', v, D, h1, h2, h3, h4⟩ := at_rest_predict (llt := llt) hllt junk hs ⟨rfl, rfl, rfl⟩ rfl
    (DMat.PSD_of.mpr hRp) hlam' (d := 2 - 0.001 ^ 2) x hx hw hC hg hr (u := .zero 0) rfl
    (fun s => ({ ukfModels cj uc Rp meas with sys := s } : Env K NonlinSysData SixDRates.Flags NonlinMeasData Y))
  obtain ⟨g, k1, k2, k3, _⟩ := ukf_predictTime (llt := llt) (junk := junk) (sc := SixDRates.cls) (mc := mc)
    (Filter.construct (ukfPlant llt junk SixDRates.cls mc) params (ukfModels cj uc Rp meas, _) (.of x) (.of C) t0) rfl rfl
    ⟨rfl, rfl⟩ ht h1
  refine ⟨g, v, D, k1, k2, k3, h2, h3, le_trans ?_ h4⟩
  norm_num

/-- Specification: an estimate of 18 states with gravity of at most 37 times 9.8062 (the number of sigma points). -/
def BoundedGravity (x : DVec) (c : DMat) : Prop :=
  Estimate 18 x c ∧ ∃ v : Fin 18 → ℝ, x = .of v ∧ norm3 (gravityOf v) ≤ 37 * 9.8062

/-- Specification: 15 process noises. -/
def SixDSizes (Rp _Rc : DMat) : Prop := Rp.rows = 15

theorem corrected_physical {Z : Type} {mc : MeasClass ℝ NonlinMeasData Y} {llt : DMat → Option DMat} {junk : Nat → Nat → ℝ}
    {sp : SigmaParams} {s : SixDRates.Obj} (hsh : SixDRates.Shape s) {ms : Meas NonlinMeasData Y} {x z : DVec} {cov : DMat} {dt : ℝ}
    {back : Meas NonlinMeasData Y → Z} {r} (hx : x.size = 18) (hr : r.1.size = 18)
    (h : ukfCorrect llt junk SixDRates.cls mc sp s ms x cov z dt back = some r) :
    ∃ v : Fin 18 → ℝ, r.1 = .of v ∧ PhysicalGravity v := by
  have peel : ∀ {α β : Type} {a : Option α} {f : α → Option β} {r : β}, a.bind f = some r → ∃ v, a = some v ∧ f v = some r := by
    intro α β a f r h
    cases a with
    | none => cases h
    | some v => exact ⟨v, rfl, h⟩
  unfold ukfCorrect at h
  obtain ⟨_, _, h⟩ := peel h
  obtain ⟨_, _, h⟩ := peel h
  obtain ⟨_, _, h⟩ := peel h
  obtain ⟨_, _, h⟩ := peel h
  obtain ⟨_, _, h⟩ := peel h
  obtain ⟨_, _, h⟩ := peel h
  obtain ⟨_, _, h⟩ := peel h
  obtain ⟨_, _, h⟩ := peel h
  obtain ⟨_, _, h⟩ := peel h
  obtain ⟨_, _, h⟩ := peel h
  obtain ⟨_, _, h⟩ := peel h
  obtain ⟨dx, _, h⟩ := peel h
  obtain ⟨x', hadd, h⟩ := peel h
  obtain ⟨_, _, h⟩ := peel h
  obtain ⟨_, _, h⟩ := peel h
  obtain ⟨_, _, h9⟩ := peel h
  injection h9 with h9
  subst h9
  rw [SixDRates.cls_add hsh] at hadd
  obtain ⟨v, rfl⟩ := x.exists_of hx
  obtain ⟨w, hw⟩ := x'.exists_of hr
  have hdx : dx.size = 18 := by
    by_contra hne
    have : DVec.add (.of v) dx = none := by
      unfold DVec.add
      rw [dif_neg]
      intro h
      exact hne h.symm
    unfold SixDRates.addState at hadd
    simp only [Option.bind_eq_bind, this, Option.bind_none] at hadd
    cases hadd
  obtain ⟨d, rfl⟩ := dx.exists_of hdx
  exact ⟨w, hw, physical_add (hw ▸ hadd)⟩

theorem physical_bounded {v : Fin 18 → ℝ} (h : PhysicalGravity v) : norm3 (gravityOf v) ≤ 37 * 9.8062 := by
  rcases h with h | h
  · rw [h]; norm_num
  · rw [h, norm3_zero]; norm_num

theorem predicted_bounded {Z : Type} {llt : DMat → Option DMat} (hllt : LltSize llt) (junk : Nat → Nat → ℝ) {s : SixDRates.Obj}
    (hs : s.Sized NonlinSysData.Sized 18 0) (hsh : SixDRates.Shape s) {sp : SigmaParams} (hsp : SigmaSized 18 sp) {x u : DVec}
    {cov : DMat} (hx : Estimate 18 x cov) (hu : u.size = 0) (dt : ℝ) (back : SixDRates.Obj → Z) {r}
    (h : ukfPredict llt junk SixDRates.cls sp s x cov u dt back = some r) :
    ∃ v : Fin 18 → ℝ, r.1 = .of v ∧ norm3 (gravityOf v) ≤ 37 * 9.8062 := by
  obtain ⟨x, rfl⟩ := x.exists_of hx.1
  obtain ⟨C, rfl⟩ := hx.2.exists_of
  obtain ⟨num, lam, wMean, wCov⟩ := sp
  have hnum : num = 37 := hsp.num
  obtain ⟨wM, rfl⟩ := wMean.exists_of hsp.wMean
  obtain ⟨wC, rfl⟩ := wCov.exists_of hsp.wCov
  cases hL : llt ((DMat.of C).smul (s.stateSize + lam)) with
  | none =>
    exfalso
    have : ukfPredict llt junk SixDRates.cls ⟨num, lam, .of wM, .of wC⟩ s (.of x) (.of C) u dt back = none := by
      unfold ukfPredict; rw [hL]; rfl
    rw [this] at h; cases h
  | some L =>
    obtain ⟨L, rfl⟩ := (hllt _ _ 18 ⟨rfl, rfl⟩ hL).exists_of
    have hL' : llt (.of ((((18 : ℕ) : ℝ) + lam) • C)) = some (.of L) := by
      rw [← hL, DMat.smul_of, show s.stateSize = 18 from hs.states]
    have nat : ∀ w : Fin 37 → ℝ, w = fun j : Fin 37 => (fun k : Nat => if h : k < 37 then w ⟨k, h⟩ else 0) j := by
      intro w
      funext j
      dsimp only
      rw [dif_pos j.isLt]
    obtain ⟨s', y, x', W, Rp, V, Rc, h1, _, _, _, _, h6, _⟩ := SixDRates.ukf_predict_of junk hs hsh hnum
      (fun k : Nat => if h : k < 37 then wM ⟨k, h⟩ else 0) (fun k : Nat => if h : k < 37 then wC ⟨k, h⟩ else 0) hL' x hu dt back
    rw [← nat wM, ← nat wC] at h1
    obtain rfl := Option.some.inj (h.symm.trans h1)
    refine ⟨x', rfl, ?_⟩
    rw [h6]
    refine (norm3_sum _ _).trans ((Finset.sum_le_sum fun j _ => rescaled_le _).trans ?_)
    rw [Finset.sum_const, Finset.card_range, nsmul_eq_mul]
    norm_num

theorem ukf_sixd_inv {llt : DMat → Option DMat} (hllt : LltSize llt) (junk : Nat → Nat → ℝ)
    {mc : K → MeasClass ℝ NonlinMeasData Y} (hmc : ∀ j, MeasContract NonlinMeasData.Sized (mc j)) (kd : K → Nat) :
    PlantInv (ukfPlant llt junk SixDRates.cls mc) False BoundedGravity
      (fun e => Env.Ok NonlinSysData.Sized NonlinMeasData.Sized SixDSizes BoundedGravity 18 0 kd e.1 ∧ SigmaSized 18 e.2)
      (fun u => u.size = 0) (fun R => R.Is 0 0 ∧ True) (fun z c k => z.size = kd k ∧ c.Is (kd k) (kd k) ∧ True) := by
  refine mkPlantWith_inv _ fun o ho => ?_
  refine mkPlant_inv (NM := fun _ => True) SixDRates.contract hmc (fun _ _ h => h.1.1) (fun _ _ _ h _ => h) (fun _ _ _ => trivial) ?_ ?_
  · intro e x c u dt he hx hu
    refine Props.OptP.of_bind (fun r hr => ?_) id
    have hsh : SixDRates.Shape e.sys := ⟨he.sys.states, he.sys.controls, he.noise⟩
    cases hL : llt (c.smul (e.sys.stateSize + o.lambda)) with
    | none =>
      exfalso
      have : ukfPredict llt junk SixDRates.cls o e.sys x c u dt
          (fun s => ({ e with sys := s } : Env K NonlinSysData SixDRates.Flags NonlinMeasData Y)) = none := by
        unfold ukfPredict; rw [hL]; rfl
      rw [this] at hr; cases hr
    | some L =>
      obtain ⟨r', h0, h1, s', h2, h3, h4⟩ := ukfPredict_is SixDRates.contract hllt junk he.sys ho hx.1 hu dt
        (fun s => ({ e with sys := s } : Env K NonlinSysData SixDRates.Flags NonlinMeasData Y)) hL
      obtain rfl := Option.some.inj (hr.symm.trans h0)
      refine ⟨⟨h1, predicted_bounded hllt junk he.sys hsh ho hx.1 hu dt _ hr⟩, ?_⟩
      rw [h2]
      exact he.setSys h3 h4
  · intro e x c z j dt he hx hz _
    refine Props.OptP.of_bind (fun r hr => ?_) id
    have hsh : SixDRates.Shape e.sys := ⟨he.sys.states, he.sys.controls, he.noise⟩
    obtain ⟨h1, s', h2, h3, h4⟩ := ukfCorrect_size SixDRates.contract (hmc j) hllt junk he.sys (he.meas j) ho hx.1 hz dt _ hr
    obtain ⟨v, hv, hp⟩ := corrected_physical hsh hx.1.1 h1.1 hr
    refine ⟨⟨h1, v, hv, physical_bounded hp⟩, ?_⟩
    rw [h2]
    exact he.setMeas j h3 h4

/-- **C109, what holds.**  A UKF on the 6-D rates model with any sensors, any sigma point parameters and whatever the matrix
factorisation does: after every sequence of well-sized calls (out-of-order data, queues, reverts, changed models), if none failed,
gravity in the current and in every remembered estimate is at most 37 times 9.8062. -/
theorem C109_bounded_partial {llt : DMat → Option DMat} (hllt : LltSize llt) (junk : Nat → Nat → ℝ)
    {mc : K → MeasClass ℝ NonlinMeasData Y} (hmc : ∀ j, MeasContract NonlinMeasData.Sized (mc j)) (kd : K → Nat)
    (sort : List (FilterInput ℝ DVec DMat K) → List (FilterInput ℝ DVec DMat K)) (hsort : ∀ l, (sort l).Perm l)
    (params : Params ℝ) (e : Env K NonlinSysData SixDRates.Flags NonlinMeasData Y) (sp : SigmaParams) (hsp : SigmaSized 18 sp)
    (he : e.Ok NonlinSysData.Sized NonlinMeasData.Sized SixDSizes BoundedGravity 18 0 kd)
    (x : DVec) (c : DMat) (t : ℝ) (hx : BoundedGravity x c)
    (ops : List (Op ℝ DVec DMat K (Env K NonlinSysData SixDRates.Flags NonlinMeasData Y × SigmaParams)))
    (hops : ∀ op ∈ ops, op.WellFormed BoundedGravity
      (fun e => Env.Ok NonlinSysData.Sized NonlinMeasData.Sized SixDSizes BoundedGravity 18 0 kd e.1 ∧ SigmaSized 18 e.2) 0 kd
      (fun _ => True))
    {g} (hg : (Filter.construct (ukfPlant llt junk SixDRates.cls mc) params (e, sp) x c t).run (ukfPlant llt junk SixDRates.cls mc)
      sort ops = some g) :
    ∀ s ∈ g.retained, ∃ v : Fin 18 → ℝ, s.x = .of v ∧ norm3 (gravityOf v) ≤ 37 * 9.8062 := by
  have h := run_of_inv (ukf_sixd_inv hllt junk hmc kd) rfl sort hsort params (e, sp) ⟨he, hsp⟩ x c t hx ops hops
  rw [hg] at h
  exact fun s hs => (h.1 s hs).2

/-- **C109, what holds (corrections).**  A measurement at the current time, with a sensor that is not stationary, leaves gravity
of norm 9.8062 or zero, however large it was. -/
theorem C109_correct_partial {llt : DMat → Option DMat} (hllt : LltSize llt) (junk : Nat → Nat → ℝ)
    {mc : K → MeasClass ℝ NonlinMeasData Y} (hmc : ∀ j, MeasContract NonlinMeasData.Sized (mc j)) (kd : K → Nat)
    (f : Filter ℝ DVec DMat K (Env K NonlinSysData SixDRates.Flags NonlinMeasData Y × SigmaParams)) (hsp : SigmaSized 18 f.env.2)
    (he : f.env.1.Ok NonlinSysData.Sized NonlinMeasData.Sized SixDSizes BoundedGravity 18 0 kd)
    (hx : Estimate 18 f.getState f.getCovariance) (z : DVec) (R : DMat) (j : K) (hz : z.size = kd j) (hR : R.Is (kd j) (kd j))
    (hst : (f.env.1.meas j).fm.checkStationary = false) {g}
    (hg : f.correct (ukfPlant llt junk SixDRates.cls mc) z R f.getStateTime (some j) = some g) :
    ∃ v : Fin 18 → ℝ, g.getState = .of v ∧ (norm3 (gravityOf v) = 9.8062 ∨ gravityOf v = 0) := by
  have hR' : R.Is (f.env.1.meas j).measDims (f.env.1.meas j).measDims := by rw [(he.meas j).meas]; exact hR
  have hsh : SixDRates.Shape f.env.1.sys := ⟨he.sys.states, he.sys.controls, he.noise⟩
  have hms : ((f.env.1.setMeas j ((f.env.1.meas j).withCov R)).meas j).Sized NonlinMeasData.Sized 18 (kd j) := by
    rw [Env.setMeas_meas]
    exact ⟨(he.meas j).states, (he.meas j).meas, (he.meas j).der, hR⟩
  cases hc : ukfCorrect llt junk SixDRates.cls (mc j) f.env.2 f.env.1.sys
      ((f.env.1.setMeas j ((f.env.1.meas j).withCov R)).meas j) f.getState f.getCovariance z
      (TimeOps.sub f.getStateTime f.getStateTime) ((f.env.1.setMeas j ((f.env.1.meas j).withCov R)).setMeas j) with
  | some r =>
    obtain ⟨x, c, e⟩ := r
    obtain ⟨h1, _⟩ := ukfCorrect_size SixDRates.contract (hmc j) hllt junk he.sys hms hsp hx hz _ _ hc
    obtain ⟨v, hv, hp⟩ := corrected_physical hsh hx.1 h1.1 hc
    obtain ⟨g', k1, k2, _⟩ := with_correct_now (sc := SixDRates.cls) (mc := mc)
      (predict := fun sp e x cov u dt => ukfPredict llt junk SixDRates.cls sp e.sys x cov u dt fun s => { e with sys := s })
      (correct := fun sp e x cov z k dt => ukfCorrect llt junk SixDRates.cls (mc k) sp e.sys (e.meas k) x cov z dt (e.setMeas k)) f z R j hR' (by rw [hst]; rfl) hc
    obtain rfl := Option.some.inj (hg.symm.trans k1)
    exact ⟨v, k2.trans hv, hp⟩
  | none =>
    exfalso
    have := with_correct_none (sc := SixDRates.cls) (mc := mc)
      (predict := fun sp e x cov u dt => ukfPredict llt junk SixDRates.cls sp e.sys x cov u dt fun s => { e with sys := s })
      (correct := fun sp e x cov z k dt => ukfCorrect llt junk SixDRates.cls (mc k) sp e.sys (e.meas k) x cov z dt (e.setMeas k)) f z R j hR' (by rw [hst]; rfl) hc
    exact absurd (hg.symm.trans this) (by simp)

/-- Non-vacuity: a level body, with Eigen's Cholesky factorisation, standard deviations of one, and a step of half a second. -/
example (mc : Empty → MeasClass ℝ NonlinMeasData Y) (meas : Empty → Meas NonlinMeasData Y) : ∃ sp g v,
    ukfInitSigma (ukfModels true true (0 : Matrix (Fin 15) (Fin 15) ℝ) meas) = some sp ∧
    (Filter.construct (ukfPlant eigenLlt (fun _ _ => 0) SixDRates.cls mc) ⟨false, 0, false⟩ (ukfModels true true 0 meas, sp)
      (.of levelState) (.of (1 : Matrix (Fin 18) (Fin 18) ℝ)) 0).predictTime (ukfPlant eigenLlt (fun _ _ => 0) SixDRates.cls mc) 0.5
        = some g ∧
      g.getState = .of v ∧ 34 * 9.8062 ≤ norm3 (gravityOf v) := by
  have hsp : ∃ sp, ukfInitSigma (ukfModels true true (0 : Matrix (Fin 15) (Fin 15) ℝ) meas) = some sp := by
    show ∃ sp, setSigma 18 18 0.001 0 2 = some sp
    unfold setSigma
    have h0 : ¬ (((18 : ℕ) : ℝ) + ((0.001 : ℝ) ^ 2 * ((18 : ℕ) + 0) - (18 : ℕ)) = 0) := by norm_num
    dsimp only
    rw [if_neg h0]
    exact ⟨_, rfl⟩
  obtain ⟨sp, hsp⟩ := hsp
  obtain ⟨g, v, D, h1, h2, _, h3, _⟩ := C109_at_rest_refuted eigenLlt_spec (fun _ _ => 0) mc meas true true
    (Matrix.PosSemidef.zero) hsp ⟨false, 0, false⟩ (x := levelState) (norm3_axis 9.8062 (by norm_num)).2.2.2
    (by funext k; fin_cases k <;> rfl) (C := 1) Matrix.PosDef.one (by norm_num [Matrix.one_apply]) (t0 := 0) (t := 0.5) (by norm_num)
    (by norm_num [Matrix.one_apply])
  exact ⟨sp, g, v, hsp, h1, h2, h3⟩

/-- Non-vacuity of `C109_bounded_partial` and `C109_correct_partial`: the models as constructed, a level start. -/
example : ∃ odom imu, SixDRatesOdom.construct true = some odom ∧ SixDRatesImu.construct true = some imu ∧
    (sixDEnv odom imu).Ok NonlinSysData.Sized NonlinMeasData.Sized SixDSizes BoundedGravity 18 0 sixDDims ∧
    BoundedGravity (.of levelState) (.identity 18) := by
  obtain ⟨odom, _, ho, _⟩ := odom_state []
  obtain ⟨imu, _, hi, _⟩ := imu_state []
  have h := sixDEnv_ok ho hi (Q := BoundedGravity)
  exact ⟨odom, imu, ho, hi, ⟨h.sys, h.noise.2, h.sysMake, h.meas, h.measMake⟩, ⟨rfl, rfl, rfl⟩, levelState, rfl,
    physical_bounded (Or.inl (norm3_axis 9.8062 (by norm_num)).2.2.2)⟩

end StateEstimation.Props
