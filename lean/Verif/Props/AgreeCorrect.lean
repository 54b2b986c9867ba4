import Verif.Props.Agree
import Verif.Props.BiasCorrect

/-!
# C143: for small uncertainty the UKF corrects as the EKF corrects

Both filters on the same models and estimate, with the covariance `ε P`.  A correction changes the state by something of order `ε` and
the covariance by something of order `ε²`; the two filters differ only by something of order `ε √ε` and `ε² √ε`.
-/

set_option linter.unusedSectionVars false

namespace StateEstimation

namespace Agree

open Matrix Sigma Quadratic Bias Kalman

/-- all entries are at most `B` in absolute value -/
def Bd {a b : Nat} (F : Matrix (Fin a) (Fin b) ℝ) (B : ℝ) : Prop := ∀ i j, |F i j| ≤ B

variable {a b c : Nat}

theorem Bd.mul {F : Matrix (Fin a) (Fin b) ℝ} {G : Matrix (Fin b) (Fin c) ℝ} {B C : ℝ} (hF : Bd F B) (hG : Bd G C) (hB : 0 ≤ B) :
    Bd (F * G) (b * (B * C)) := by
  intro i j
  rw [Matrix.mul_apply]
  refine (Finset.abs_sum_le_sum_abs _ _).trans ?_
  refine (Finset.sum_le_sum (g := fun _ => B * C) fun l _ => ?_).trans (by simp)
  rw [abs_mul]
  exact mul_le_mul (hF i l) (hG l j) (abs_nonneg _) hB

theorem Bd.mulVec {F : Matrix (Fin a) (Fin b) ℝ} {v : Fin b → ℝ} {B C : ℝ} (hF : Bd F B) (hv : ∀ i, |v i| ≤ C) (hB : 0 ≤ B) (i : Fin a) :
    |(F *ᵥ v) i| ≤ b * (B * C) := by
  unfold Matrix.mulVec dotProduct
  refine (Finset.abs_sum_le_sum_abs _ _).trans ?_
  refine (Finset.sum_le_sum (g := fun _ => B * C) fun l _ => ?_).trans (by simp)
  rw [abs_mul]
  exact mul_le_mul (hF i l) (hv l) (abs_nonneg _) hB

theorem Bd.transpose {F : Matrix (Fin a) (Fin b) ℝ} {B : ℝ} (hF : Bd F B) : Bd Fᵀ B := fun i j => hF j i

theorem Bd.mono {F : Matrix (Fin a) (Fin b) ℝ} {B C : ℝ} (hF : Bd F B) (h : B ≤ C) : Bd F C := fun i j => (hF i j).trans h

theorem Bd.add {F G : Matrix (Fin a) (Fin b) ℝ} {B C : ℝ} (hF : Bd F B) (hG : Bd G C) : Bd (F + G) (B + C) :=
  fun i j => (abs_add_le _ _).trans (add_le_add (hF i j) (hG i j))

theorem Bd.sum (F : Matrix (Fin a) (Fin b) ℝ) : Bd F (∑ i, ∑ j, |F i j|) := fun i j =>
  (Finset.single_le_sum (f := fun j => |F i j|) (fun _ _ => abs_nonneg _) (Finset.mem_univ j)).trans
    (Finset.single_le_sum (f := fun i => ∑ j, |F i j|) (fun _ _ => Finset.sum_nonneg fun _ _ => abs_nonneg _) (Finset.mem_univ i))

theorem sum_abs_nonneg (F : Matrix (Fin a) (Fin b) ℝ) : 0 ≤ ∑ i, ∑ j, |F i j| :=
  Finset.sum_nonneg fun _ _ => Finset.sum_nonneg fun _ _ => abs_nonneg _

theorem abs_le_len (v : Fin a → ℝ) (i : Fin a) : |v i| ≤ len v := by
  unfold len
  rw [← Real.sqrt_sq_eq_abs]
  exact Real.sqrt_le_sqrt (Finset.single_le_sum (f := fun i => v i ^ 2) (fun _ _ => sq_nonneg _) (Finset.mem_univ i))

/-- entries of a positive semidefinite matrix -/
theorem psd_entry {A : Matrix (Fin a) (Fin a) ℝ} (hA : A.PosSemidef) : Bd A (∑ i, A i i) := by
  have hd : ∀ i, 0 ≤ A i i := fun i => hA.diag_nonneg
  intro i j
  have hs : A j i = A i j := by
    have := congrFun (congrFun (psd_symm hA) i) j
    rwa [Matrix.transpose_apply] at this
  have q : ∀ s : ℝ, 0 ≤ A i i + 2 * s * A i j + s ^ 2 * A j j := by
    intro s
    have := hA.dotProduct_mulVec_nonneg (Pi.single i 1 + s • Pi.single j 1)
    simp only [star_trivial, Matrix.mulVec_add, Matrix.mulVec_smul, dotProduct_add, add_dotProduct, smul_dotProduct, dotProduct_smul,
      Matrix.mulVec_single_one, single_one_dotProduct, Matrix.col_apply, smul_eq_mul, hs] at this
    nlinarith [this]
  have h1 := q 1
  have h2 := q (-1)
  have hi := Finset.single_le_sum (f := fun i => A i i) (fun i _ => hd i) (Finset.mem_univ i)
  have hj := Finset.single_le_sum (f := fun i => A i i) (fun i _ => hd i) (Finset.mem_univ j)
  rw [abs_le]
  constructor <;> nlinarith

/-- a larger covariance has a smaller inverse -/
theorem inv_anti {R S : Matrix (Fin a) (Fin a) ℝ} (hR : R.PosDef) (hS : S.PosDef) (h : (S - R).PosSemidef) : (R⁻¹ - S⁻¹).PosSemidef := by
  have uR := pd_isUnit_det hR
  have uS := pd_isUnit_det hS
  have e1 : R⁻¹ = S⁻¹ + S⁻¹ * (S - R) * R⁻¹ := by
    rw [Matrix.mul_sub, Matrix.nonsing_inv_mul _ uS, Matrix.sub_mul, Matrix.one_mul, Matrix.mul_assoc, Matrix.mul_nonsing_inv _ uR, Matrix.mul_one]
    abel
  have e2 : R⁻¹ = S⁻¹ + R⁻¹ * (S - R) * S⁻¹ := by
    rw [Matrix.mul_sub, Matrix.nonsing_inv_mul _ uR, Matrix.sub_mul, Matrix.one_mul, Matrix.mul_assoc, Matrix.mul_nonsing_inv _ uS, Matrix.mul_one]
    abel
  have e : R⁻¹ - S⁻¹ = S⁻¹ * (S - R) * S⁻¹ + S⁻¹ * ((S - R) * R⁻¹ * (S - R)) * S⁻¹ := by
    conv_lhs => rw [e2]
    rw [add_sub_cancel_left]
    conv_lhs => rw [e1]
    simp only [Matrix.add_mul, Matrix.mul_assoc]
  have sS : (S⁻¹)ᴴ = S⁻¹ := hS.inv.isHermitian
  have sD : (S - R)ᴴ = S - R := h.isHermitian
  rw [e]
  refine PosSemidef.add ?_ ?_
  · have := h.mul_mul_conjTranspose_same S⁻¹
    rwa [sS] at this
  · have h2 := hR.inv.posSemidef.mul_mul_conjTranspose_same (S - R)
    rw [sD] at h2
    have := h2.mul_mul_conjTranspose_same S⁻¹
    rwa [sS] at this

theorem inv_bd {R S : Matrix (Fin a) (Fin a) ℝ} (hR : R.PosDef) (h : (S - R).PosSemidef) : Bd S⁻¹ (∑ i, R⁻¹ i i) := by
  have hS : S.PosDef := by
    have := hR.add_posSemidef h
    rwa [add_sub_cancel] at this
  refine (psd_entry hS.inv.posSemidef).mono (Finset.sum_le_sum fun i _ => ?_)
  have := (inv_anti hR hS h).diag_nonneg (i := i)
  rw [Matrix.sub_apply] at this
  linarith

variable {n : Nat} {x : Fin n → ℝ} {P L : Matrix (Fin n) (Fin n) ℝ} {lam : ℝ}

/-- the cross covariance computed from the sigma points, to leading order -/
theorem cross_close (hl : 0 < (n : ℝ) + lam) (hL : L * Lᵀ = ((n : ℝ) + lam) • P) {γ : (Fin n → ℝ) → (Fin a → ℝ)} {bend d : ℝ}
    (hbn : 0 ≤ bend)
    {J : Matrix (Fin a) (Fin n) ℝ} (hJ : ∀ q i, |γ q i - γ x i - (J *ᵥ (q - x)) i| ≤ bend * len (q - x) ^ 2)
    {q : Nat → Fin n → ℝ} (hq0 : q 0 = x) (hq : ∀ j < n, q (j + 1) = x + colsOf L j ∧ q (j + 1 + n) = x - colsOf L j)
    {y : Nat → Fin a → ℝ} (h0 : y 0 = γ x)
    (hy : ∀ j < n, y (j + 1) = γ (x + colsOf L j) ∧ y (j + 1 + n) = γ (x - colsOf L j)) (i : Fin n) (k : Fin a) :
    |cross n lam d q y x (mean n lam y) i k - (P * Jᵀ) i k| ≤ bend * (√((n + lam) * ∑ i, P i i) * ∑ i, P i i) := by
  set v := ∑ i, P i i with hv
  have htot := cols_sq hL
  rw [← hv] at htot
  have hsym : Symm n q (colsOf L) := by
    intro j hj
    rw [hq0]; exact hq j hj
  have e0 : cross n lam d q y x (mean n lam y) = moment n lam q y := by
    have := cross_central d q y hl.ne' (Symm.dev lam hsym)
    rwa [hq0] at this
  have e1 : moment n lam q y i k = (∑ j ∈ Finset.range n, colsOf L j i * (y (j + 1) k - y (j + 1 + n) k)) * (0.5 / (n + lam)) := by
    unfold moment
    rw [Matrix.sum_apply, sum_two, Finset.sum_mul]
    refine Finset.sum_congr rfl fun j hj => ?_
    obtain ⟨f1, f2⟩ := hq j (Finset.mem_range.mp hj)
    simp only [Matrix.smul_apply, vecMulVec_apply, Pi.sub_apply, smul_eq_mul]
    rw [show j + n + 1 = j + 1 + n by omega, f1, f2, hq0]
    simp only [Pi.add_apply, Pi.sub_apply]
    ring
  have e2 : (P * Jᵀ) i k = (∑ j ∈ Finset.range n, colsOf L j i * (J *ᵥ colsOf L j) k) / (n + lam) := by
    have : (∑ j ∈ Finset.range n, colsOf L j i * (J *ᵥ colsOf L j) k) = (L * (J * L)ᵀ) i k := by
      rw [← sum_cols, Matrix.sum_apply]
      refine Finset.sum_congr rfl fun j _ => ?_
      rw [vecMulVec_apply]
      congr 2
      unfold colsOf
      by_cases h : j < n
      · rw [dif_pos h, dif_pos h]; rfl
      · rw [dif_neg h, dif_neg h, Matrix.mulVec_zero]
    rw [this, Matrix.transpose_mul, ← Matrix.mul_assoc, hL, Matrix.smul_mul, Matrix.smul_apply, smul_eq_mul]
    field_simp
  rw [e0, e1, e2, show ∀ A B : ℝ, A * (0.5 / (n + lam)) - B / (n + lam) = (A - 2 * B) * (0.5 / (n + lam)) by intro A B; ring,
    Finset.mul_sum, ← Finset.sum_sub_distrib, abs_mul, abs_of_pos (show (0 : ℝ) < 0.5 / (n + lam) by positivity)]
  have hterm : ∀ j ∈ Finset.range n, |colsOf L j i * (y (j + 1) k - y (j + 1 + n) k) - 2 * (colsOf L j i * (J *ᵥ colsOf L j) k)| ≤
      (2 * bend * √((n + lam) * v)) * len (colsOf L j) ^ 2 := by
    intro j hj
    obtain ⟨f1, f2⟩ := hy j (Finset.mem_range.mp hj)
    have a1 : |y (j + 1) k - y 0 k - (J *ᵥ colsOf L j) k| ≤ bend * len (colsOf L j) ^ 2 := by
      have := hJ (x + colsOf L j) k
      rwa [add_sub_cancel_left, ← f1, ← h0] at this
    have a2 : |y (j + 1 + n) k - y 0 k + (J *ᵥ colsOf L j) k| ≤ bend * len (colsOf L j) ^ 2 := by
      have := hJ (x - colsOf L j) k
      rwa [sub_sub_cancel_left, Matrix.mulVec_neg, Bias.len_neg, Pi.neg_apply, sub_neg_eq_add, ← f2, ← h0] at this
    have hcol : len (colsOf L j) ^ 2 ≤ (n + lam) * v := by
      rw [← htot]
      exact Finset.single_le_sum (f := fun j => len (colsOf L j) ^ 2) (fun j _ => sq_nonneg _) hj
    have l1 : |colsOf L j i| ≤ √((n + lam) * v) := (abs_le_len _ i).trans (Real.le_sqrt_of_sq_le hcol)
    rw [show colsOf L j i * (y (j + 1) k - y (j + 1 + n) k) - 2 * (colsOf L j i * (J *ᵥ colsOf L j) k) =
      colsOf L j i * ((y (j + 1) k - y 0 k - (J *ᵥ colsOf L j) k) - (y (j + 1 + n) k - y 0 k + (J *ᵥ colsOf L j) k)) by ring, abs_mul]
    refine (mul_le_mul l1 ((abs_sub _ _).trans (add_le_add a1 a2)) (abs_nonneg _) (Real.sqrt_nonneg _)).trans (le_of_eq ?_)
    ring
  have hsum := (Finset.abs_sum_le_sum_abs _ _).trans (Finset.sum_le_sum hterm)
  rw [← Finset.mul_sum, htot] at hsum
  refine (mul_le_mul_of_nonneg_right hsum (by positivity)).trans (le_of_eq ?_)
  have hne := hl.ne'
  field_simp
  ring

/-- two corrections that are built from almost the same quantities -/
theorem corrections_close {n k : Nat} {A B : Matrix (Fin n) (Fin k) ℝ} {S S' : Matrix (Fin k) (Fin k) ℝ} {δ w : Fin k → ℝ}
    {ε r c1 c2 b s d l : ℝ} (hε : 0 ≤ ε) (hε1 : ε ≤ 1) (hr : 0 ≤ r) (hrε : r ≤ ε) (hεr : ε ^ 2 ≤ r) (h1 : 0 ≤ c1) (h2 : 0 ≤ c2) (hb : 0 ≤ b)
    (hs : 0 ≤ s) (hd : 0 ≤ d) (hl : 0 ≤ l) (hA : Bd (A - B) (c1 * r)) (hS : Bd (S - S') (c2 * r)) (hB : Bd B (b * ε)) (hi : Bd S⁻¹ s)
    (hi' : Bd S'⁻¹ s) (hδ : ∀ i, |δ i| ≤ d * ε) (hw : ∀ i, |w i| ≤ l) (uS : IsUnit S.det) (uS' : IsUnit S'.det) :
    (∀ i, |((A * S⁻¹) *ᵥ (w - δ)) i - ((B * S'⁻¹) *ᵥ w) i| ≤
      (k ^ 2 * c1 * s * (1 + d) + k ^ 2 * b * s * d + k ^ 4 * b * s ^ 2 * c2) * (1 + l) * r) ∧
    Bd (A * S⁻¹ * Aᵀ - B * S'⁻¹ * Bᵀ) ((k ^ 2 * c1 * s * (b + c1) + k ^ 2 * b * s * c1 + k ^ 4 * b ^ 2 * s ^ 2 * c2) * (ε * r)) := by
  have hk : (0 : ℝ) ≤ k := Nat.cast_nonneg k
  have m1 : Bd ((A - B) * S⁻¹) (k * (c1 * r * s)) := hA.mul hi (by positivity)
  have m2 : Bd (B * S⁻¹) (k * (b * ε * s)) := hB.mul hi (by positivity)
  have m3 : Bd (B * S⁻¹ * (S - S')) (k * (k * (b * ε * s) * (c2 * r))) := m2.mul hS (by positivity)
  have m4 : Bd (B * S⁻¹ * (S - S') * S'⁻¹) (k * (k * (k * (b * ε * s) * (c2 * r)) * s)) := m3.mul hi' (by positivity)
  constructor
  · intro i
    have e : (A * S⁻¹) *ᵥ (w - δ) - (B * S'⁻¹) *ᵥ w =
        ((A - B) * S⁻¹) *ᵥ (w - δ) - (B * S⁻¹) *ᵥ δ - (B * S⁻¹ * (S - S') * S'⁻¹) *ᵥ w := by
      have : B * S⁻¹ * (S - S') * S'⁻¹ = B * S'⁻¹ - B * S⁻¹ := by
        rw [Matrix.mul_sub, Matrix.sub_mul, Matrix.nonsing_inv_mul_cancel_right _ _ uS, Matrix.mul_nonsing_inv_cancel_right _ _ uS']
      rw [this]
      simp only [Matrix.sub_mul, Matrix.sub_mulVec, Matrix.mulVec_sub]
      abel
    have t1 := m1.mulVec (v := w - δ) (C := l + d) (fun i => by
      rw [Pi.sub_apply]
      refine (abs_sub _ _).trans (add_le_add (hw i) ((hδ i).trans ?_))
      nlinarith) (by positivity) i
    have t2 := m2.mulVec hδ (by positivity) i
    have t3 := m4.mulVec hw (by positivity) i
    rw [show ((A * S⁻¹) *ᵥ (w - δ)) i - ((B * S'⁻¹) *ᵥ w) i = ((A * S⁻¹) *ᵥ (w - δ) - (B * S'⁻¹) *ᵥ w) i from rfl, e, Pi.sub_apply, Pi.sub_apply]
    refine (abs_sub _ _).trans ((add_le_add ((abs_sub _ _).trans (add_le_add t1 t2)) t3).trans ?_)
    have b1 : k * (k * (c1 * r * s) * (l + d)) ≤ (k ^ 2 * c1 * s * (1 + d)) * (1 + l) * r := by
      have : l + d ≤ (1 + d) * (1 + l) := by nlinarith [mul_nonneg hd hl]
      have h := mul_le_mul_of_nonneg_left this (show 0 ≤ k ^ 2 * c1 * s * r by positivity)
      linarith [h]
    have b2 : k * (k * (b * ε * s) * (d * ε)) ≤ (k ^ 2 * b * s * d) * (1 + l) * r := by
      have : ε ^ 2 ≤ (1 + l) * r := by nlinarith [mul_nonneg hl hr]
      have h := mul_le_mul_of_nonneg_left this (show 0 ≤ k ^ 2 * b * s * d by positivity)
      linarith [h]
    have b3 : k * (k * (k * (k * (b * ε * s) * (c2 * r)) * s) * l) ≤ (k ^ 4 * b * s ^ 2 * c2) * (1 + l) * r := by
      have : ε * l ≤ 1 + l := by nlinarith
      have h := mul_le_mul_of_nonneg_left this (show 0 ≤ k ^ 4 * b * s ^ 2 * c2 * r by positivity)
      linarith [h]
    linarith [b1, b2, b3]
  · have e : A * S⁻¹ * Aᵀ - B * S'⁻¹ * Bᵀ = (A - B) * S⁻¹ * Aᵀ + B * S⁻¹ * (A - B)ᵀ - B * S⁻¹ * (S - S') * S'⁻¹ * Bᵀ := by
      have : B * S⁻¹ * (S - S') * S'⁻¹ = B * S'⁻¹ - B * S⁻¹ := by
        rw [Matrix.mul_sub, Matrix.sub_mul, Matrix.nonsing_inv_mul_cancel_right _ _ uS, Matrix.mul_nonsing_inv_cancel_right _ _ uS']
      rw [this, Matrix.transpose_sub]
      simp only [Matrix.sub_mul, Matrix.mul_sub]
      abel
    have hA' : Bd A ((b + c1) * ε) := by
      have := hB.add hA
      rw [add_sub_cancel] at this
      exact this.mono (by nlinarith)
    have t1 := m1.mul hA'.transpose (by positivity)
    have t2 := m2.mul hA.transpose (by positivity)
    have t3 := m4.mul hB.transpose (by positivity)
    intro i j
    rw [e, Matrix.sub_apply, Matrix.add_apply]
    refine (abs_sub _ _).trans ((add_le_add ((abs_add_le _ _).trans (add_le_add (t1 i j) (t2 i j))) (t3 i j)).trans ?_)
    have b3 : k * (k * (k * (k * (b * ε * s) * (c2 * r)) * s) * (b * ε)) ≤ k ^ 4 * b ^ 2 * s ^ 2 * c2 * (ε * r) := by
      have h := mul_le_mul_of_nonneg_left hε1 (show 0 ≤ k ^ 4 * b ^ 2 * s ^ 2 * c2 * (ε * r) by positivity)
      linarith [h]
    linarith [b3]

end Agree

namespace Props

open Matrix Kalman Sigma Examples Quadratic Bias Agree

variable {T K X Y : Type} [DecidableEq K] {n m k : Nat}
variable [LinearOrder T] [ExactTime T]

set_option maxHeartbeats 1000000 in
/-- **C143.**  An EKF and a UKF with the same models and sigma point parameters `c = alpha² (n + kappa) > 0`, `beta ≥ alpha²`.  The sensor's
`h()` is a function `η` of the state with the reported Jacobian `H` at `x`, from which it deviates by at most `bend` times the squared
distance.  There is a constant `C`, not depending on the reading, such that for every `ε ≤ 1` and every reading `z`: initialised with
`x` and the covariance `ε P`, and corrected with `z`, the two filters' states differ by at most `C (1 + |z - h(x)|) ε √ε` in every component
and the covariances by at most `C ε² √ε` in every entry. -/
theorem C143_ukf_corrects_as_ekf {llt : DMat → Option DMat} (hllt : LltSpec llt) (junk : Nat → Nat → ℝ)
    {sc : SysClass T NonlinSysData X} {mc : K → MeasClass T NonlinMeasData Y}
    (hsc : SysContract NonlinSysData.Sized sc) (hso : sc.PlainOps) (hmc : ∀ j, MeasContract NonlinMeasData.Sized (mc j))
    (hmo : ∀ j, (mc j).PlainOps)
    (f : Filter T DVec DMat K (Env K NonlinSysData X NonlinMeasData Y))
    (f' : Filter T DVec DMat K (Env K NonlinSysData X NonlinMeasData Y × SigmaParams))
    (hsame : f'.env.1 = f.env) (j : K)
    (hs : f.env.sys.Sized NonlinSysData.Sized n m) (hm : (f.env.meas j).Sized NonlinMeasData.Sized n k)
    {al ka be : ℝ} (hsp : setSigma n n al ka be = some f'.env.2) (hal : 0 < al ^ 2 * (n + ka)) (hbe : al ^ 2 ≤ be)
    (x : Fin n → ℝ) {P : Matrix (Fin n) (Fin n) ℝ} (hP : P.PosDef) {R : Matrix (Fin k) (Fin k) ℝ} (hR : R.PosDef) (t : T)
    (hst : (f.env.meas j).fm.checkStationary = false)
    {η : (Fin n → ℝ) → (Fin k → ℝ)} (hq : MeasIs (mc j) n k ((f.env.meas j).withCov (.of R)) (TimeOps.sub t t) η)
    {H : Matrix (Fin k) (Fin n) ℝ}
    (hH : ∀ s, ((f.env.meas j).withCov (.of R)).UpdatedAt (mc j) n k (.of x) (TimeOps.sub t t) s → s.der.H = .of H)
    {bend : ℝ} (hbn : 0 ≤ bend) (hJ : ∀ q i, |η q i - η x i - (H *ᵥ (q - x)) i| ≤ bend * len (q - x) ^ 2) :
    ∃ C : ℝ, 0 ≤ C ∧ ∀ ε : ℝ, 0 < ε → ε ≤ 1 → ∀ z : Fin k → ℝ,
      ∃ g g', ∃ (x₁ x₂ : Fin n → ℝ) (P₁ P₂ : Matrix (Fin n) (Fin n) ℝ),
        (f.init (.of x) (.of (ε • P)) t).correct (ekfPlant sc mc) (.of z) (.of R) t (some j) = some g ∧
        (f'.init (.of x) (.of (ε • P)) t).correct (ukfPlant llt junk sc mc) (.of z) (.of R) t (some j) = some g' ∧
        g.getState = .of x₁ ∧ g.getCovariance = .of P₁ ∧ g'.getState = .of x₂ ∧ g'.getCovariance = .of P₂ ∧
        (∀ i, |x₂ i - x₁ i| ≤ C * (1 + len (z - η x)) * (ε * √ε)) ∧ ∀ i l, |P₂ i l - P₁ i l| ≤ C * (ε ^ 2 * √ε) := by
  set v := ∑ i, P i i with hv
  have hv0 : 0 ≤ v := Finset.sum_nonneg fun i _ => hP.posSemidef.diag_nonneg
  set c := al ^ 2 * (n + ka) with hc
  set G := ∑ i, ∑ j, |H i j| with hG
  have hG0 : 0 ≤ (n : ℝ) * G := mul_nonneg (Nat.cast_nonneg n) (sum_abs_nonneg H)
  have hgain : ∀ w i, |(H *ᵥ w) i| ≤ (n * G) * len w := fun w i => by
    have := (Bd.sum H).mulVec (v := w) (C := len w) (abs_le_len w) (sum_abs_nonneg H) i
    rwa [← mul_assoc] at this
  set c1 := bend * (√(c * v) * v) with hc1
  set c2 := 2 * (n * G) * bend * (√(c * v) * v) + bend ^ 2 * (c + (be - al ^ 2)) * v ^ 2 with hc2
  set b := ∑ i, ∑ j, |(P * Hᵀ) i j| with hb
  set s := ∑ i, R⁻¹ i i with hsdef
  have c10 : 0 ≤ c1 := mul_nonneg hbn (mul_nonneg (Real.sqrt_nonneg _) hv0)
  have hbe' : 0 ≤ c + (be - al ^ 2) := by linarith
  have c20 : 0 ≤ c2 := by
    have := mul_nonneg (mul_nonneg (mul_nonneg zero_le_two hG0) hbn) (mul_nonneg (Real.sqrt_nonneg (c * v)) hv0)
    have h2 := mul_nonneg (mul_nonneg (sq_nonneg bend) hbe') (sq_nonneg v)
    exact add_nonneg this h2
  have b0 : 0 ≤ b := sum_abs_nonneg _
  have s0 : 0 ≤ s := Finset.sum_nonneg fun i _ => hR.inv.posSemidef.diag_nonneg
  have d0 : 0 ≤ bend * v := mul_nonneg hbn hv0
  refine ⟨(k ^ 2 * c1 * s * (1 + bend * v) + k ^ 2 * b * s * (bend * v) + k ^ 4 * b * s ^ 2 * c2) +
    (k ^ 2 * c1 * s * (b + c1) + k ^ 2 * b * s * c1 + k ^ 4 * b ^ 2 * s ^ 2 * c2), by positivity, ?_⟩
  intro ε hε hε1 z
  have hPε : (ε • P).PosDef := hP.smul hε
  have hms : ((f.env.meas j).withCov (.of R)).Sized NonlinMeasData.Sized n k := ⟨hm.states, hm.meas, hm.der, rfl, rfl⟩
  obtain ⟨ms, hup, hms', -⟩ := (hmc j).update _ (.of x) (TimeOps.sub t t) hms rfl
  have hupd : ((f.env.meas j).withCov (.of R)).UpdatedAt (mc j) n k (.of x) (TimeOps.sub t t) ms := ⟨_, hms, Meas.SameConfig.refl _, hup⟩
  have hHm := hH ms hupd
  have hh : ms.der.h = .of (η x) := hq x ms hupd
  have hS' := innov_pd hPε.posSemidef H hR
  have uS' := pd_isUnit_det hS'
  obtain ⟨g, dz, x', a1, a2, a3, a4, a5, -⟩ := ekf_correct_now hsc hmc (f.init (.of x) (.of (ε • P)) t) j hs hm rfl rfl z R hup hHm uS'
    (by show ((f.env.meas j).fm.checkStationary && _) = false; rw [hst]; rfl)
  rw [(hmo j).sub, hh, DVec.sub_of] at a2
  injection a2 with a2
  rw [← DVec.of_inj.mp a2, hso.add, DVec.add_of] at a3
  injection a3 with a3
  obtain ⟨g', L, q, y, zHat, S, D, Gn, P', b1, -, -, bL, bLL, b5, b6, b7, b8, b9, b10, b11, b12, b13, b14, -, -⟩ :=
    ukf_correct_factor hllt junk hso hmc hmo (f'.init (.of x) (.of (ε • P)) t) j
      (by show f'.env.1.sys.Sized _ n m; rw [hsame]; exact hs) (by show (f'.env.1.meas j).Sized _ n k; rw [hsame]; exact hm) hsp hal hbe
      rfl rfl hPε z R hR (by show ((f'.env.1.meas j).fm.checkStationary && _) = false; rw [hsame, hst]; rfl)
  refine ⟨g, g', x', x + Gn *ᵥ (z - zHat), _, P', a1, b1, a4, a5, b12, b13, ?_⟩
  have e : (n : ℝ) + (c - n) = c := by ring
  have hl : 0 < (n : ℝ) + (c - n) := by rw [e]; exact hal
  have hLL : L * Lᵀ = ((n : ℝ) + (c - n)) • (ε • P) := by rw [e]; exact bLL
  have b7' : ∀ i < 2 * n + 1, y i = η (q i) := by
    intro i hi
    have := b7 i hi
    rw [show (f'.init (.of x) (.of (ε • P)) t).env.1 = f.env from hsame] at this
    obtain ⟨s1, k1, k2⟩ := this
    exact DVec.of_inj.mp (k2.symm.trans (hq _ _ k1))
  have y0 : y 0 = η x := by rw [b7' 0 (by omega), b5]
  have yj : ∀ i < n, y (i + 1) = η (x + colsOf L i) ∧ y (i + 1 + n) = η (x - colsOf L i) := fun i hi =>
    ⟨by rw [b7' _ (by omega), (b6 i hi).1], by rw [b7' _ (by omega), (b6 i hi).2]⟩
  have tr : ∑ i, (ε • P) i i = ε * v := by rw [hv, Finset.mul_sum]; rfl
  have hsq : √(c * (ε * v)) = √ε * √(c * v) := by
    rw [show c * (ε * v) = ε * (c * v) by ring, Real.sqrt_mul hε.le]
  have hrt : √ε * √ε = ε := Real.mul_self_sqrt hε.le
  have hr0 : 0 ≤ √ε := Real.sqrt_nonneg ε
  have hr1 : √ε ≤ 1 := by rw [Real.sqrt_le_iff]; exact ⟨zero_le_one, by linarith⟩
  have hεr : ε ^ 2 ≤ ε * √ε := by nlinarith
  -- the bounds
  have kA : Bd (D - (ε • P) * Hᵀ) (c1 * (ε * √ε)) := by
    intro i l
    have := cross_close (d := be - al ^ 2) hl hLL hbn hJ b5 b6 y0 yj i l
    rw [tr, e, hsq, ← b8, ← b10] at this
    rw [Matrix.sub_apply]
    refine this.trans (le_of_eq ?_)
    rw [hc1]; ring
  have eS' : innov (ε • P) H R = H * (ε • P) * Hᵀ + R := by unfold innov; rw [Matrix.mul_assoc]
  have kS : Bd (S - innov (ε • P) H R) (c2 * (ε * √ε)) := by
    intro i l
    have := cov_close (d := be - al ^ 2) hl hLL hbn hG0 (by linarith) hJ hgain y0 yj i l
    rw [tr, e, hsq, ← b8] at this
    rw [b9, eS', show R + cross n (c - ↑n) (be - al ^ 2) y y zHat zHat - (H * (ε • P) * Hᵀ + R) =
      cross n (c - ↑n) (be - al ^ 2) y y zHat zHat - H * (ε • P) * Hᵀ by abel, Matrix.sub_apply]
    refine this.trans ?_
    have h3 := mul_le_mul_of_nonneg_left hεr (mul_nonneg (mul_nonneg (sq_nonneg bend) hbe') (sq_nonneg v))
    rw [hc2]
    nlinarith [h3]
  have kB : Bd ((ε • P) * Hᵀ) (b * ε) := by
    intro i l
    rw [Matrix.smul_mul, Matrix.smul_apply, smul_eq_mul, abs_mul, abs_of_pos hε, mul_comm]
    exact mul_le_mul_of_nonneg_right (Bd.sum _ i l) hε.le
  have hd : (S - R).PosSemidef := by
    rw [b9, add_sub_cancel_left, b8, cross_eq hl.ne']
    refine (moment_self_psd hl y).add (PosSemidef.smul ?_ (by linarith))
    have := posSemidef_vecMulVec_self_star (dev n (c - ↑n) y)
    rwa [star_trivial] at this
  have hSpd : S.PosDef := by
    have := hR.add_posSemidef hd
    rwa [add_sub_cancel] at this
  have uS := pd_isUnit_det hSpd
  have ki' : Bd (innov (ε • P) H R)⁻¹ s := inv_bd hR (by
    rw [eS', add_sub_cancel_right]
    have := hPε.posSemidef.mul_mul_conjTranspose_same H
    rwa [conjTranspose_eq_transpose_of_trivial] at this)
  have kδ : ∀ i, |(zHat - η x) i| ≤ bend * v * ε := by
    intro i
    have := bend_sigma hl hLL ⟨H, hJ⟩ y0 yj i
    rw [tr, ← b8] at this
    rw [Pi.sub_apply]
    exact this.trans (le_of_eq (by ring))
  obtain ⟨r1, r2⟩ := corrections_close hε.le hε1 (mul_nonneg hε.le hr0) (by nlinarith) hεr c10 c20 b0 s0 d0 (len_nonneg (z - η x))
    kA kS kB (inv_bd hR hd) ki' kδ (abs_le_len (z - η x)) uS uS'
  constructor
  · intro i
    have := r1 i
    rw [show z - η x - (zHat - η x) = z - zHat by abel, ← b11] at this
    rw [← DVec.of_inj.mp a3, show (x + Gn *ᵥ (z - zHat)) i - (x + gain (ε • P) H R *ᵥ (z - η x)) i =
      (Gn *ᵥ (z - zHat)) i - (gain (ε • P) H R *ᵥ (z - η x)) i by simp only [Pi.add_apply]; ring]
    refine this.trans ?_
    have hp : 0 ≤ (k ^ 2 * c1 * s * (b + c1) + k ^ 2 * b * s * c1 + k ^ 4 * b ^ 2 * s ^ 2 * c2) := by positivity
    have hp2 : 0 ≤ (1 + len (z - η x)) * (ε * √ε) := mul_nonneg (by linarith [len_nonneg (z - η x)]) (mul_nonneg hε.le hr0)
    nlinarith [mul_nonneg hp hp2]
  · intro i l
    have := r2 i l
    have eP' : P' = ε • P - D * S⁻¹ * Dᵀ := by
      rw [b14, b11, Matrix.transpose_mul, Matrix.transpose_nonsing_inv, psd_symm hSpd.posSemidef, Matrix.mul_assoc D, Matrix.nonsing_inv_mul _ uS,
        Matrix.mul_one, Matrix.mul_assoc]
    have eP1 : post (ε • P) H R = ε • P - (ε • P) * Hᵀ * (innov (ε • P) H R)⁻¹ * ((ε • P) * Hᵀ)ᵀ := by
      unfold post gain
      rw [Matrix.sub_mul, Matrix.one_mul, Matrix.transpose_mul, Matrix.transpose_transpose, psd_symm hPε.posSemidef]
      simp only [Matrix.mul_assoc]
    rw [eP', eP1, show ∀ U V W : Matrix (Fin n) (Fin n) ℝ, (U - V) i l - (U - W) i l = -((V - W) i l) by
      intro U V W; simp only [Matrix.sub_apply]; ring, abs_neg]
    refine this.trans ?_
    have hp : 0 ≤ k ^ 2 * c1 * s * (1 + bend * v) + k ^ 2 * b * s * (bend * v) + k ^ 4 * b * s ^ 2 * c2 := by positivity
    have hp2 : 0 ≤ ε ^ 2 * √ε := mul_nonneg (sq_nonneg _) hr0
    nlinarith [mul_nonneg hp hp2]

/-! ## Witness -/

section
open Dice

private theorem one_pd' : (!![(1 : ℝ)] : Matrix (Fin 1) (Fin 1) ℝ).PosDef := by
  have : (1 : Matrix (Fin 1) (Fin 1) ℝ) = !![1] := by ext i j; fin_cases i; fin_cases j; rfl
  rw [← this]; exact PosDef.one

/-- The sensor `h = x²` at 1, variances `4 ε / 3`. -/
example {llt : DMat → Option DMat} (hllt : LltSpec llt) (junk : Nat → Nat → ℝ) (sp : SigmaParams)
    (hsp : ukfInitSigma quadEnv = some sp) (params : Params ℝ) :=
  C143_ukf_corrects_as_ekf hllt junk (mc := fun _ : Unit => squareClass) quad_contract (plain_ops _) (fun _ => square_contract)
    (fun _ => plain_mops _)
    (Filter.construct (ekfPlant quadClass fun _ : Unit => squareClass) params quadEnv (vec1 1) (mat1 1) 0)
    (Filter.construct (ukfPlant llt junk quadClass fun _ : Unit => squareClass) params (quadEnv, sp) (vec1 1) (mat1 1) 0)
    rfl () (n := 1) (m := 1) (k := 1) (quadEnv_ok (Q := fun _ _ => True)).sys ((quadEnv_ok (Q := fun _ _ => True)).meas ())
    (al := 0.001) (ka := 0) (be := 2) hsp (by norm_num) (by norm_num) ![1] (P := !![4 / 3]) four_thirds_pd (R := !![1]) one_pd' 5 rfl
    (η := quadratic ![0] !![0] (fun _ => !![1])) (square_quadratic _ _) (H := !![2])
    (by
      rintro s ⟨s1, h1, h2, h3⟩
      have h3' : (if _ then _ else _) = _ := h3
      rw [if_pos ⟨h1.states, h1.meas⟩] at h3'
      injection h3' with h3'
      subst h3'
      show mat1 _ = _
      rw [head_of]
      show DMat.of _ = _
      congr 1
      ext i j
      fin_cases i; fin_cases j
      simp)
    (bend := 1) zero_le_one
    (by
      intro q i
      rw [len_sq]
      fin_cases i
      have e : q 0 * q 0 - 1 - 2 * (q 0 - 1) = (q 0 - 1) * (q 0 - 1) := by ring
      simp [quadratic, Matrix.mulVec, dotProduct]
      rw [e, abs_mul_self])

end

end Props
end StateEstimation
