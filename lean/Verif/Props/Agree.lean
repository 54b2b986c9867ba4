import Verif.Props.Bias

/-!
# C139: for small uncertainty the UKF predicts what the EKF predicts

Both filters on the same model, estimate and covariance: the predicted means differ by at most the curvature of `g` times the total
variance, the predicted covariances by a quantity of higher order than the covariance.
-/

set_option linter.unusedSectionVars false

namespace StateEstimation

namespace Agree

open Matrix Sigma Quadratic Bias

variable {n a : Nat} {x : Fin n → ℝ} {P L : Matrix (Fin n) (Fin n) ℝ} {lam : ℝ}

theorem scalar {a a' p p' m m' A r : ℝ} (hA : |a| ≤ A) (hA' : |a'| ≤ A) (hp : |p - a| ≤ r) (hp' : |p' - a'| ≤ r) (hm : |m + a| ≤ r)
    (hm' : |m' + a'| ≤ r) : |p * p' + m * m' - 2 * (a * a')| ≤ 4 * (A * r) + 2 * (r * r) := by
  have e : p * p' + m * m' - 2 * (a * a') =
      a * (p' - a') + (p - a) * a' + (p - a) * (p' - a') - a * (m' + a') - (m + a) * a' + (m + a) * (m' + a') := by ring
  have b : ∀ {s t S T : ℝ}, |s| ≤ S → |t| ≤ T → |s * t| ≤ S * T := fun hs ht => by
    rw [abs_mul]; exact mul_le_mul hs ht (abs_nonneg _) ((abs_nonneg _).trans hs)
  have h1 := abs_le.mp (b hA hp')
  have h2 := abs_le.mp (b hp hA')
  have h3 := abs_le.mp (b hp hp')
  have h4 := abs_le.mp (b hA hm')
  have h5 := abs_le.mp (b hm hA')
  have h6 := abs_le.mp (b hm hm')
  rw [e, abs_le]
  constructor <;> linarith [h1.1, h1.2, h2.1, h2.2, h3.1, h3.2, h4.1, h4.2, h5.1, h5.2, h6.1, h6.2]

theorem entry (hl : 0 < (n : ℝ) + lam) (hL : L * Lᵀ = ((n : ℝ) + lam) • P) (J : Matrix (Fin a) (Fin n) ℝ) (i k : Fin a) :
    (J * P * Jᵀ) i k = (∑ j ∈ Finset.range n, (J *ᵥ colsOf L j) i * (J *ᵥ colsOf L j) k) / (n + lam) := by
  have e : (∑ j ∈ Finset.range n, (J *ᵥ colsOf L j) i * (J *ᵥ colsOf L j) k) = ((J * L) * (J * L)ᵀ) i k := by
    rw [Matrix.mul_apply, Finset.sum_range]
    refine Finset.sum_congr rfl fun j _ => ?_
    have : ∀ i, (J *ᵥ colsOf L (j : ℕ)) i = (J * L) i j := by
      intro i
      rw [Matrix.mul_apply]
      unfold Matrix.mulVec dotProduct
      refine Finset.sum_congr rfl fun b _ => ?_
      simp [colsOf]
    rw [this, this]
    rfl
  rw [e, eq_div_iff hl.ne', Matrix.transpose_mul, Matrix.mul_assoc J L, ← Matrix.mul_assoc L, hL, Matrix.smul_mul, Matrix.mul_smul,
    Matrix.smul_apply, smul_eq_mul, ← Matrix.mul_assoc]
  ring

/-- the covariance computed from the sigma points, to leading order -/
theorem cov_close (hl : 0 < (n : ℝ) + lam) (hL : L * Lᵀ = ((n : ℝ) + lam) • P) {γ : (Fin n → ℝ) → (Fin a → ℝ)} {bend gain d : ℝ}
    (hbn : 0 ≤ bend) (hgn : 0 ≤ gain) (hd : 0 ≤ d)
    {J : Matrix (Fin a) (Fin n) ℝ} (hJ : ∀ q i, |γ q i - γ x i - (J *ᵥ (q - x)) i| ≤ bend * len (q - x) ^ 2)
    (hg : ∀ v i, |(J *ᵥ v) i| ≤ gain * len v) {y : Nat → Fin a → ℝ} (h0 : y 0 = γ x)
    (hy : ∀ j < n, y (j + 1) = γ (x + colsOf L j) ∧ y (j + 1 + n) = γ (x - colsOf L j)) (i k : Fin a) :
    |cross n lam d y y (mean n lam y) (mean n lam y) i k - (J * P * Jᵀ) i k| ≤
      2 * gain * bend * (√((n + lam) * ∑ i, P i i) * ∑ i, P i i) + bend ^ 2 * (n + lam + d) * (∑ i, P i i) ^ 2 := by
  set v := ∑ i, P i i with hv
  have htot := cols_sq hL
  rw [← hv] at htot
  have hv0 : 0 ≤ v := by
    have : 0 ≤ (n + lam) * v := by rw [← htot]; exact Finset.sum_nonneg fun j _ => sq_nonneg _
    exact nonneg_of_mul_nonneg_right this hl
  -- the deviation of the mean
  have hdev : ∀ i, |dev n lam y i| ≤ bend * v := by
    intro i
    have h := bend_sigma hl hL ⟨J, hJ⟩ h0 hy i
    rwa [mean_eq hl.ne', Pi.add_apply, h0, add_sub_cancel_left] at h
  have hdd : |d * (dev n lam y i * dev n lam y k)| ≤ d * (bend * v) ^ 2 := by
    rw [abs_mul, abs_of_nonneg hd, abs_mul, sq]
    exact mul_le_mul_of_nonneg_left (mul_le_mul (hdev i) (hdev k) (abs_nonneg _) ((abs_nonneg _).trans (hdev i))) hd
  -- the second moment
  have hmom : |moment n lam y y i k - (J * P * Jᵀ) i k| ≤ 2 * gain * bend * (√((n + lam) * v) * v) + bend ^ 2 * (n + lam) * v ^ 2 := by
    have e1 : moment n lam y y i k = (∑ j ∈ Finset.range n, ((y (j + 1) i - y 0 i) * (y (j + 1) k - y 0 k) +
        (y (j + 1 + n) i - y 0 i) * (y (j + 1 + n) k - y 0 k))) * (0.5 / (n + lam)) := by
      unfold moment
      rw [Matrix.sum_apply, sum_two, Finset.sum_mul]
      refine Finset.sum_congr rfl fun j _ => ?_
      simp only [Matrix.smul_apply, vecMulVec_apply, Pi.sub_apply, smul_eq_mul]
      rw [show j + n + 1 = j + 1 + n by omega]
      ring
    rw [e1, entry hl hL J, show ∀ A B : ℝ, A * (0.5 / (n + lam)) - B / (n + lam) = (A - 2 * B) * (0.5 / (n + lam)) by intro A B; ring,
      Finset.mul_sum, ← Finset.sum_sub_distrib, abs_mul, abs_of_pos (show (0 : ℝ) < 0.5 / (n + lam) by positivity)]
    have hcol : ∀ j ∈ Finset.range n, len (colsOf L j) ^ 2 ≤ (n + lam) * v := by
      intro j hj
      rw [← htot]
      exact Finset.single_le_sum (f := fun j => len (colsOf L j) ^ 2) (fun j _ => sq_nonneg _) hj
    have hterm : ∀ j ∈ Finset.range n, |(y (j + 1) i - y 0 i) * (y (j + 1) k - y 0 k) +
        (y (j + 1 + n) i - y 0 i) * (y (j + 1 + n) k - y 0 k) - 2 * ((J *ᵥ colsOf L j) i * (J *ᵥ colsOf L j) k)| ≤
        (4 * gain * bend * √((n + lam) * v) + 2 * bend ^ 2 * ((n + lam) * v)) * len (colsOf L j) ^ 2 := by
      intro j hj
      obtain ⟨f1, f2⟩ := hy j (Finset.mem_range.mp hj)
      have a1 : ∀ i, |y (j + 1) i - y 0 i - (J *ᵥ colsOf L j) i| ≤ bend * len (colsOf L j) ^ 2 := by
        intro i
        have := hJ (x + colsOf L j) i
        rwa [add_sub_cancel_left, ← f1, ← h0] at this
      have a2 : ∀ i, |y (j + 1 + n) i - y 0 i + (J *ᵥ colsOf L j) i| ≤ bend * len (colsOf L j) ^ 2 := by
        intro i
        have := hJ (x - colsOf L j) i
        rwa [sub_sub_cancel_left, Matrix.mulVec_neg, Bias.len_neg, Pi.neg_apply, sub_neg_eq_add, ← f2, ← h0] at this
      refine (scalar (hg _ i) (hg _ k) (a1 i) (a1 k) (a2 i) (a2 k)).trans ?_
      have l0 := len_nonneg (colsOf L j)
      have l1 : len (colsOf L j) ≤ √((n + lam) * v) := Real.le_sqrt_of_sq_le (hcol j hj)
      have l2 : len (colsOf L j) * len (colsOf L j) ^ 2 ≤ √((n + lam) * v) * len (colsOf L j) ^ 2 :=
        mul_le_mul_of_nonneg_right l1 (sq_nonneg _)
      have l3 : len (colsOf L j) ^ 2 * len (colsOf L j) ^ 2 ≤ ((n + lam) * v) * len (colsOf L j) ^ 2 :=
        mul_le_mul_of_nonneg_right (hcol j hj) (sq_nonneg _)
      have m2 := mul_le_mul_of_nonneg_left l2 (mul_nonneg hgn hbn)
      have m3 := mul_le_mul_of_nonneg_left l3 (sq_nonneg bend)
      nlinarith
    have hsum := (Finset.abs_sum_le_sum_abs _ _).trans (Finset.sum_le_sum hterm)
    rw [← Finset.mul_sum, htot] at hsum
    refine (mul_le_mul_of_nonneg_right hsum (by positivity)).trans (le_of_eq ?_)
    have hne := hl.ne'
    field_simp
    ring
  rw [cross_eq hl.ne', Matrix.add_apply, Matrix.smul_apply, vecMulVec_apply, smul_eq_mul]
  have h1 := abs_le.mp hmom
  have h2 := abs_le.mp hdd
  rw [abs_le]
  constructor <;> nlinarith [h1.1, h1.2, h2.1, h2.2]

end Agree

namespace Props

open Matrix Kalman Sigma Examples Quadratic Bias Agree

variable {T K X Y : Type} [DecidableEq K] {n m p : Nat}
variable [LinearOrder T] [ExactTime T]

/-- **C139.**  An EKF and a UKF with the same system model, the same estimate `x`, covariance `P` and time.  The model's `g()` is a function
`γ` of the state with the reported Jacobian `J` at the estimate, from which it deviates by at most `bend` times the squared distance;
the noise Jacobians do not depend on the state (see C38).  After the same in-order `predict(u, t)` of both filters, with
`v = ∑ᵢ P i i` and `c = alpha² (n + kappa)`:

* the predicted states differ by at most `bend v` in every component,
* the predicted covariances by at most `2 gain bend √(c v) v + bend² (c + beta - alpha²) v²` in every entry,

where `gain` bounds the components of `J`.  Multiplying the covariance by a small number makes the differences smaller faster than the
covariance itself. -/
theorem C139_ukf_agrees_with_ekf {llt : DMat → Option DMat} (hllt : LltSpec llt) (junk : Nat → Nat → ℝ)
    {sc : SysClass T NonlinSysData X} {mc : K → MeasClass T NonlinMeasData Y}
    (hsc : SysContract NonlinSysData.Sized sc) (hso : sc.PlainOps)
    (f : Filter T DVec DMat K (Env K NonlinSysData X NonlinMeasData Y))
    (f' : Filter T DVec DMat K (Env K NonlinSysData X NonlinMeasData Y × SigmaParams))
    (hsame : f'.env.1.sys = f.env.sys) (htime : f'.getStateTime = f.getStateTime)
    (hs : f.env.sys.Sized NonlinSysData.Sized n m) {al ka be : ℝ} (hsp : setSigma n n al ka be = some f'.env.2)
    (hal : 0 < al ^ 2 * (n + ka)) (hbe : al ^ 2 ≤ be)
    {x : Fin n → ℝ} {P : Matrix (Fin n) (Fin n) ℝ} (hx : f.getState = .of x) (hP : f.getCovariance = .of P)
    (hx' : f'.getState = .of x) (hP' : f'.getCovariance = .of P)
    (hPd : P.PosDef) (u : Fin m → ℝ) (hm : 0 < m) (hn : 0 < n) (t : T) (ht : f.getStateTime ≤ t)
    (hst : (f.env.sys.fm.checkStationary && f.env.sys.fm.isStationary (.of x) (.of u)) = false)
    {γ : (Fin n → ℝ) → (Fin n → ℝ)} (hq : SysIs sc n m f.env.sys (.of u) (TimeOps.sub t f.getStateTime) γ)
    {J : Matrix (Fin n) (Fin n) ℝ}
    (hG : ∀ s, f.env.sys.UpdatedAt sc n m (.of x) (.of u) (TimeOps.sub t f.getStateTime) s → s.der.G = .of J)
    {W : Matrix (Fin n) (Fin p) ℝ} {V : Matrix (Fin n) (Fin m) ℝ}
    (hWV : ∀ (q : Fin n → ℝ) s, f.env.sys.UpdatedAt sc n m (.of q) (.of u) (TimeOps.sub t f.getStateTime) s → s.P = .of W ∧ s.V = .of V)
    {bend gain : ℝ} (hbn : 0 ≤ bend) (hgn : 0 ≤ gain)
    (hJ : ∀ q i, |γ q i - γ x i - (J *ᵥ (q - x)) i| ≤ bend * len (q - x) ^ 2) (hg : ∀ v i, |(J *ᵥ v) i| ≤ gain * len v) :
    ∃ g g', ∃ (x₁ x₂ : Fin n → ℝ) (P₁ P₂ : Matrix (Fin n) (Fin n) ℝ),
      f.predictControl (ekfPlant sc mc) (.of u) t = some g ∧ f'.predictControl (ukfPlant llt junk sc mc) (.of u) t = some g' ∧
      g.getState = .of x₁ ∧ g.getCovariance = .of P₁ ∧ g'.getState = .of x₂ ∧ g'.getCovariance = .of P₂ ∧
      (∀ i, |x₂ i - x₁ i| ≤ bend * ∑ i, P i i) ∧
      ∀ i k, |P₂ i k - P₁ i k| ≤ 2 * gain * bend * (√(al ^ 2 * (n + ka) * ∑ i, P i i) * ∑ i, P i i) +
        bend ^ 2 * (al ^ 2 * (n + ka) + (be - al ^ 2)) * (∑ i, P i i) ^ 2 := by
  obtain ⟨g, p1, G, W1, V1, Rp1, Rc1, a1, a2, a3, a4, a5, a6, a7, a8, a9, a10, -⟩ := C27_ekf_predict (mc := mc) hsc f hs hx hP u hm t ht hst
  obtain ⟨g', p2, L, y, W2, V2, Rp2, Rc2, b1, b2, b3, b4, b5, b6, b7, b8, b9, b10, b11, b12, b13, -⟩ :=
    C36_ukf_predict hllt junk (mc := mc) hsc hso f' (by rw [hsame]; exact hs) hsp hal hbe hx' hP' hPd u hm hn t (by rw [htime]; exact ht)
      (by rw [hsame]; exact hst)
  rw [hsame, htime] at b5 b6 b7
  rw [hsame] at b10 b11
  have hup : f.env.sys.UpdatedAt sc n m (.of x) (.of u) (TimeOps.sub t f.getStateTime) g.env.sys := ⟨_, hs, Sys.SameConfig.refl _, a3⟩
  have eG : G = J := DMat.of_inj.mp (a4.symm.trans (hG _ hup))
  subst eG
  -- both use the same noise
  have hp1 : p1 = p := (congrArg DMat.cols (a5.symm.trans (hWV _ _ hup).1))
  have hp2 : p2 = p := (congrArg DMat.cols (b8.symm.trans (hWV _ _ b7).1))
  subst hp1
  subst hp2
  have eW1 := DMat.of_inj.mp (a5.symm.trans (hWV _ _ hup).1)
  have eV1 := DMat.of_inj.mp (a6.symm.trans (hWV _ _ hup).2)
  have eW2 := DMat.of_inj.mp (b8.symm.trans (hWV _ _ b7).1)
  have eV2 := DMat.of_inj.mp (b9.symm.trans (hWV _ _ b7).2)
  have eRp := DMat.of_inj.mp (b10.symm.trans a7)
  have eRc := DMat.of_inj.mp (b11.symm.trans a8)
  have e : (n : ℝ) + (al ^ 2 * (n + ka) - n) = al ^ 2 * (n + ka) := by ring
  have img : ∀ (q v : Fin n → ℝ), SysImage sc n m f.env.sys (.of q) (.of u) (TimeOps.sub t f.getStateTime) v → v = γ q := by
    rintro q v ⟨s, k1, k2⟩
    exact DVec.of_inj.mp (k2.symm.trans (hq q s k1))
  have i0 := img _ _ b5
  have iy := fun j hj => And.intro (img _ _ (b6 j hj).1) (img _ _ (b6 j hj).2)
  refine ⟨g, g', γ x, _, _, _, a1, b1, by rw [a9]; exact hq x _ hup, a10, b12, b13, fun i => ?_, fun i k => ?_⟩
  · exact bend_sigma (by rw [e]; exact hal) (by rw [e]; exact b4) ⟨_, hJ⟩ i0 iy i
  · have h := cov_close (d := be - al ^ 2) (by rw [e]; exact hal) (by rw [e]; exact b4) hbn hgn (by linarith) hJ hg i0 iy i k
    rw [e] at h
    rw [eW1, eV1, eW2, eV2, eRp, eRc]
    simp only [Matrix.add_apply]
    rw [show ∀ N1 N2 X Y : ℝ, N1 + N2 + X - (Y + N1 + N2) = X - Y by intros; ring]
    exact h

/-! ## Witness -/

section
open Dice

private theorem quad_bends_at : ∀ (q : Fin 1 → ℝ) (i : Fin 1),
    |quadratic (n := 1) (![1 * 0] : Fin 1 → ℝ) !![1] (fun _ => !![1]) q i - quadratic (n := 1) (![1 * 0] : Fin 1 → ℝ) !![1] (fun _ => !![1]) ![1] i -
      ((!![1 + 2 * 1 * 1] : Matrix (Fin 1) (Fin 1) ℝ) *ᵥ (q - ![1])) i| ≤ 1 * len (q - ![1]) ^ 2 := by
  intro q i
  rw [len_sq]
  fin_cases i
  have e : q 0 + q 0 * q 0 - (1 + 1) - (1 + 2) * (q 0 - 1) = (q 0 - 1) * (q 0 - 1) := by ring
  simp [quadratic, Matrix.mulVec, dotProduct]
  rw [e, abs_mul_self]

/-- `g = x + x² + u` after one second, at 1 with variance 4/3: the filters' means are 2 and 10/3 (C130). -/
example {llt : DMat → Option DMat} (hllt : LltSpec llt) (junk : Nat → Nat → ℝ) (sp : SigmaParams)
    (hsp : ukfInitSigma quadEnv = some sp) (params : Params ℝ) := by
  have ok := quadEnv_ok (Q := fun _ _ => True)
  have hsub : TimeOps.sub (1 : ℝ) (0 : ℝ) = 1 := by show (1 : ℝ) - 0 = 1; norm_num
  exact C139_ukf_agrees_with_ekf hllt junk (mc := fun _ : Unit => squareClass) quad_contract (plain_ops _)
    (Filter.construct (ekfPlant quadClass fun _ : Unit => squareClass) params quadEnv (vec1 1) (mat1 (4 / 3)) 0)
    (Filter.construct (ukfPlant llt junk quadClass fun _ : Unit => squareClass) params (quadEnv, sp) (vec1 1) (mat1 (4 / 3)) 0)
    rfl rfl (n := 1) (m := 1) (p := 1) (x := ![1]) (P := !![4 / 3]) ok.sys (al := 0.001) (ka := 0) (be := 2) hsp
    (by norm_num) (by norm_num) rfl rfl rfl rfl four_thirds_pd ![0]
    (by norm_num) (by norm_num) 1 (show (0 : ℝ) ≤ 1 by norm_num) rfl (γ := quadratic (![1 * 0] : Fin 1 → ℝ) !![1] (fun _ => !![1]))
    (by
      intro q t h
      have := quad_quadratic 0 (TimeOps.sub (1 : ℝ) (0 : ℝ)) q t h
      rw [hsub] at this
      exact this)
    (J := !![1 + 2 * 1 * 1])
    (by
      intro s h
      have := (quad_image quadEnv.sys rfl ![1] (TimeOps.sub (1 : ℝ) (0 : ℝ)) s h).2.1
      rw [hsub] at this
      exact this)
    (W := !![1]) (V := !![1])
    (by
      intro q s h
      have := (quad_image quadEnv.sys rfl q (TimeOps.sub (1 : ℝ) (0 : ℝ)) s h).2.2
      rw [hsub] at this
      exact this)
    (bend := 1) (gain := 3) zero_le_one (by norm_num) quad_bends_at
    (by
      intro v i
      rw [len_one]
      fin_cases i
      simp [Matrix.mulVec, dotProduct, abs_mul]
      norm_num)

end

end Props
end StateEstimation
