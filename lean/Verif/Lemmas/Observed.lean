import Verif.Spec.Observed
import Verif.Lemmas.Settle
import Verif.Props.Follows
import Verif.Spec.WorstCase
import Mathlib.LinearAlgebra.Dual.Lemmas
import Mathlib.Analysis.InnerProductSpace.Positive

/-! # The covariance recursion over a stretch that shows the state -/

set_option linter.unusedSectionVars false

namespace StateEstimation
namespace Observed

open Matrix Kalman Settle Topology
open _root_.Filter (Tendsto atTop)

variable {n m : Nat}

theorem quad_conj' {a b : Nat} (P : Matrix (Fin a) (Fin a) ℝ) (A : Matrix (Fin b) (Fin a) ℝ) (v : Fin b → ℝ) :
    v ⬝ᵥ (A * P * Aᵀ) *ᵥ v = (Aᵀ *ᵥ v) ⬝ᵥ P *ᵥ (Aᵀ *ᵥ v) := by
  rw [← Matrix.mulVec_mulVec, ← Matrix.mulVec_mulVec, Matrix.dotProduct_mulVec v A, ← Matrix.mulVec_transpose]

theorem psd_nonneg {a : Nat} {P : Matrix (Fin a) (Fin a) ℝ} (h : P.PosSemidef) (v : Fin a → ℝ) : 0 ≤ v ⬝ᵥ P *ᵥ v := by
  simpa using h.dotProduct_mulVec_nonneg v

/-- any gain is at least as bad as the filter's -/
theorem joseph_ge {k : Nat} {P : Matrix (Fin n) (Fin n) ℝ} (hP : P.PosSemidef) (C : Matrix (Fin k) (Fin n) ℝ)
    {R : Matrix (Fin k) (Fin k) ℝ} (hR : R.PosDef) (L : Matrix (Fin n) (Fin k) ℝ) :
    ((1 - L * C) * P * (1 - L * C)ᵀ + L * R * Lᵀ - post P C R).PosSemidef := by
  have hS := innov_pd hP C hR
  rw [joseph (psd_symm hP) (pd_isUnit_det hS) (psd_symm hR.posSemidef) L, add_sub_cancel_left]
  exact psd_conj hS.posSemidef _

/-- the same for one direction -/
theorem post_dual {k : Nat} {P : Matrix (Fin n) (Fin n) ℝ} (hP : P.PosSemidef) (C : Matrix (Fin k) (Fin n) ℝ)
    {R : Matrix (Fin k) (Fin k) ℝ} (hR : R.PosDef) (v : Fin n → ℝ) (y : Fin k → ℝ) :
    v ⬝ᵥ post P C R *ᵥ v ≤ (v - Cᵀ *ᵥ y) ⬝ᵥ P *ᵥ (v - Cᵀ *ᵥ y) + y ⬝ᵥ R *ᵥ y := by
  by_cases hv : v = 0
  · subst hv
    rw [zero_dotProduct]
    exact add_nonneg (psd_nonneg hP _) (psd_nonneg hR.posSemidef _)
  · have hvv : v ⬝ᵥ v ≠ 0 := fun h => hv (dotProduct_self_eq_zero.mp h)
    have h := psd_nonneg (joseph_ge hP C hR ((v ⬝ᵥ v)⁻¹ • vecMulVec v y)) v
    rw [Matrix.sub_mulVec, dotProduct_sub, Matrix.add_mulVec, dotProduct_add, quad_conj', quad_conj'] at h
    have e1 : ((v ⬝ᵥ v)⁻¹ • vecMulVec v y)ᵀ *ᵥ v = y := by
      rw [Matrix.transpose_smul, Matrix.transpose_vecMulVec, Matrix.smul_mulVec, Matrix.vecMulVec_mulVec]
      ext i
      simp only [Pi.smul_apply, smul_eq_mul, MulOpposite.smul_eq_mul_unop, MulOpposite.unop_op]
      field_simp
    have e2 : (1 - ((v ⬝ᵥ v)⁻¹ • vecMulVec v y) * C)ᵀ *ᵥ v = v - Cᵀ *ᵥ y := by
      rw [Matrix.transpose_sub, Matrix.transpose_one, Matrix.transpose_mul, Matrix.sub_mulVec, Matrix.one_mulVec,
        ← Matrix.mulVec_mulVec, e1]
    rw [e1, e2] at h
    linarith

theorem post_concave {k : Nat} {P Q X : Matrix (Fin n) (Fin n) ℝ} {s : ℝ} (h0 : 0 ≤ s) (h1 : s ≤ 1) (hP : P.PosSemidef) (hQ : Q.PosSemidef)
    (hX : (X - (s • P + (1 - s) • Q)).PosSemidef) (C : Matrix (Fin k) (Fin n) ℝ)
    {R : Matrix (Fin k) (Fin k) ℝ} (hR : R.PosDef) : (post X C R - (s • post P C R + (1 - s) • post Q C R)).PosSemidef := by
  have hM : (s • P + (1 - s) • Q).PosSemidef := (hP.smul h0).add (hQ.smul (by linarith))
  have a : (post X C R - post (s • P + (1 - s) • Q) C R).PosSemidef := post_mono hM hX hR (by rw [sub_self]; exact PosSemidef.zero)
  have hS := innov_pd hM C hR
  have b : (post (s • P + (1 - s) • Q) C R - (s • post P C R + (1 - s) • post Q C R)).PosSemidef := by
    rw [post_joseph (psd_symm hM) (pd_isUnit_det hS) (psd_symm hR.posSemidef)]
    generalize gain (s • P + (1 - s) • Q) C R = L
    have i := joseph_ge hP C hR L
    have j := joseph_ge hQ C hR L
    generalize 1 - L * C = F at *
    have e : F * (s • P + (1 - s) • Q) * Fᵀ + L * R * Lᵀ - (s • post P C R + (1 - s) • post Q C R)
        = s • (F * P * Fᵀ + L * R * Lᵀ - post P C R) + (1 - s) • (F * Q * Fᵀ + L * R * Lᵀ - post Q C R) := by
      simp only [Matrix.mul_add, Matrix.add_mul, Matrix.mul_smul, Matrix.smul_mul]
      module
    rw [e]
    exact (i.smul h0).add (j.smul (by linarith))
  have e : post X C R - (s • post P C R + (1 - s) • post Q C R) = (post X C R - post (s • P + (1 - s) • Q) C R) +
      (post (s • P + (1 - s) • Q) C R - (s • post P C R + (1 - s) • post Q C R)) := by abel
  rw [e]; exact a.add b

theorem cov_move {p : Nat} (P : Matrix (Fin n) (Fin n) ℝ) (A : Matrix (Fin n) (Fin n) ℝ) (B : Matrix (Fin n) (Fin m) ℝ)
    (W : Matrix (Fin n) (Fin p) ℝ) (V : Matrix (Fin n) (Fin m) ℝ) (Rp : Matrix (Fin p) (Fin p) ℝ) (Rc : Matrix (Fin m) (Fin m) ℝ)
    (u : Fin m → ℝ) (l : List (Event n m)) :
    cov P (.move A B W V Rp Rc u :: l) = A * cov P l * Aᵀ + (W * Rp * Wᵀ + V * Rc * Vᵀ) := add_assoc _ _ _

theorem cov_measure {k : Nat} (P : Matrix (Fin n) (Fin n) ℝ) (C : Matrix (Fin k) (Fin n) ℝ) (R : Matrix (Fin k) (Fin k) ℝ)
    (z : Fin k → ℝ) (l : List (Event n m)) : cov P (.measure C R z :: l) = post (cov P l) C R := rfl

/-- the filter's covariance after a stretch is concave in the one before, and `0` is a point of it -/
theorem cov_concave {P : Matrix (Fin n) (Fin n) ℝ} {d : ℝ} (hd : 0 ≤ d) (h0 : P.PosSemidef) {l : List (Event n m)} (hok : ∀ ev ∈ l, ev.Ok) :
    ((1 + d) • cov P l - d • cov 0 l - cov ((1 + d) • P) l).PosSemidef := by
  induction l with
  | nil =>
    have : (1 + d) • P - d • (0 : Matrix (Fin n) (Fin n) ℝ) - (1 + d) • P = 0 := by module
    show ((1 + d) • P - d • (0 : Matrix (Fin n) (Fin n) ℝ) - (1 + d) • P).PosSemidef
    rw [this]; exact PosSemidef.zero
  | cons ev l ih =>
    have hok' : ∀ ev ∈ l, ev.Ok := fun ev hev => hok ev (List.mem_cons_of_mem _ hev)
    have i := ih hok'
    have ok := hok _ List.mem_cons_self
    have p0 : (cov 0 l).PosSemidef := cov_psd PosSemidef.zero hok'
    have p1 : (cov ((1 + d) • P) l).PosSemidef := cov_psd (h0.smul (by linarith)) hok'
    cases ev with
    | move A B W V Rp Rc u =>
      simp only [cov_move]
      generalize W * Rp * Wᵀ + V * Rc * Vᵀ = Q
      have e : (1 + d) • (A * cov P l * Aᵀ + Q) - d • (A * cov 0 l * Aᵀ + Q) - (A * cov ((1 + d) • P) l * Aᵀ + Q)
          = A * ((1 + d) • cov P l - d • cov 0 l - cov ((1 + d) • P) l) * Aᵀ := by
        simp only [Matrix.mul_sub, Matrix.sub_mul, Matrix.mul_smul, Matrix.smul_mul]
        module
      rw [e]; exact psd_conj i A
    | measure C R z =>
      simp only [cov_measure]
      have hR : R.PosDef := ok
      have hs : (1 + d) ≠ 0 := by positivity
      have hX : (cov P l - ((1 / (1 + d)) • cov ((1 + d) • P) l + (1 - 1 / (1 + d)) • cov 0 l)).PosSemidef := by
        have e : cov P l - ((1 / (1 + d)) • cov ((1 + d) • P) l + (1 - 1 / (1 + d)) • cov 0 l)
            = (1 / (1 + d)) • ((1 + d) • cov P l - d • cov 0 l - cov ((1 + d) • P) l) := by
          have h1 : 1 - 1 / (1 + d) = d / (1 + d) := by field_simp; ring
          have h2 : 1 / (1 + d) * (1 + d) = 1 := by field_simp
          have h3 : 1 / (1 + d) * d = d / (1 + d) := by ring
          rw [smul_sub, smul_sub, smul_smul, smul_smul, h2, h3, h1]
          module
        rw [e]; exact i.smul (by positivity)
      have j := post_concave (s := 1 / (1 + d)) (by positivity) (by rw [div_le_one (by linarith)]; linarith) p1 p0 hX C hR
      have e : (1 + d) • post (cov P l) C R - d • post (cov 0 l) C R - post (cov ((1 + d) • P) l) C R
          = (1 + d) • (post (cov P l) C R - ((1 / (1 + d)) • post (cov ((1 + d) • P) l) C R + (1 - 1 / (1 + d)) • post (cov 0 l) C R)) := by
        have h1 : (1 + d) * (1 - 1 / (1 + d)) = d := by field_simp; ring
        have h2 : (1 + d) * (1 / (1 + d)) = 1 := by field_simp
        rw [smul_sub, smul_add, smul_smul, smul_smul, h2, h1]
        module
      rw [e]; exact j.smul (by linarith)

/-! ### The readings bound the covariance -/

/-- the motions of a stretch -/
noncomputable def phi : List (Event n m) → Matrix (Fin n) (Fin n) ℝ
  | [] => 1
  | .move A _ _ _ _ _ _ :: l => A * phi l
  | .measure _ _ _ :: l => phi l

/-- what the readings of a stretch say about the state before it -/
noncomputable def gram : List (Event n m) → Matrix (Fin n) (Fin n) ℝ
  | [] => 0
  | .move _ _ _ _ _ _ _ :: l => gram l
  | .measure C _ _ :: l => gram l + (phi l)ᵀ * (Cᵀ * C) * phi l

theorem carried_eq (l : List (Event n m)) (x : Fin n → ℝ) : carried l x = phi l *ᵥ x := by
  induction l with
  | nil => exact (Matrix.one_mulVec x).symm
  | cons ev l ih =>
    cases ev with
    | move => simp only [carried, phi]; rw [ih, Matrix.mulVec_mulVec]
    | measure => exact ih

theorem gram_symm (l : List (Event n m)) : (gram l)ᵀ = gram l := by
  induction l with
  | nil => exact Matrix.transpose_zero
  | cons ev l ih =>
    cases ev with
    | move => exact ih
    | measure C R z =>
      simp only [gram]
      rw [Matrix.transpose_add, ih]
      simp only [Matrix.transpose_mul, Matrix.transpose_transpose, Matrix.mul_assoc]

theorem gram_form {k : Nat} (C : Matrix (Fin k) (Fin n) ℝ) (F : Matrix (Fin n) (Fin n) ℝ) (x : Fin n → ℝ) :
    x ⬝ᵥ (Fᵀ * (Cᵀ * C) * F) *ᵥ x = (C *ᵥ (F *ᵥ x)) ⬝ᵥ (C *ᵥ (F *ᵥ x)) := by
  have := quad_conj' (Cᵀ * C) Fᵀ x
  rw [Matrix.transpose_transpose] at this
  rw [this, ← Matrix.mulVec_mulVec, Matrix.dotProduct_mulVec, Matrix.vecMul_transpose]

theorem gram_nonneg (l : List (Event n m)) (x : Fin n → ℝ) : 0 ≤ x ⬝ᵥ gram l *ᵥ x := by
  induction l with
  | nil => simp [gram]
  | cons ev l ih =>
    cases ev with
    | move => exact ih
    | measure C R z =>
      simp only [gram]
      rw [Matrix.add_mulVec, dotProduct_add, gram_form]
      exact add_nonneg ih (by rw [← len_sq]; positivity)

theorem unseen_of (l : List (Event n m)) (x : Fin n → ℝ) (h : x ⬝ᵥ gram l *ᵥ x = 0) : Unseen l x := by
  induction l with
  | nil => trivial
  | cons ev l ih =>
    cases ev with
    | move => exact ih h
    | measure C R z =>
      simp only [gram] at h
      rw [Matrix.add_mulVec, dotProduct_add, gram_form] at h
      have a := gram_nonneg l x
      have b : 0 ≤ (C *ᵥ (phi l *ᵥ x)) ⬝ᵥ (C *ᵥ (phi l *ᵥ x)) := by rw [← len_sq]; positivity
      refine ⟨?_, ih (by linarith)⟩
      rw [carried_eq]
      exact dotProduct_self_eq_zero.mp (by linarith)

/-- every direction at the end is a combination of readings -/
theorem readable {l : List (Event n m)} (h : Shows l) (v : Fin n → ℝ) : ∃ q, (phi l)ᵀ *ᵥ v = gram l *ᵥ q := by
  let L : Fin n → ((Fin n → ℝ) →ₗ[ℝ] ℝ) := fun i => (LinearMap.proj i).comp (Matrix.mulVecLin (gram l))
  let Kf : (Fin n → ℝ) →ₗ[ℝ] ℝ :=
    { toFun := fun x => v ⬝ᵥ phi l *ᵥ x
      map_add' := fun x y => by rw [Matrix.mulVec_add, dotProduct_add]
      map_smul' := fun c x => by rw [Matrix.mulVec_smul, dotProduct_smul]; rfl }
  have hk : ⨅ i, LinearMap.ker (L i) ≤ LinearMap.ker Kf := by
    intro x hx
    rw [Submodule.mem_iInf] at hx
    have h0 : gram l *ᵥ x = 0 := by funext i; exact hx i
    have h1 := h x (unseen_of l x (by rw [h0, dotProduct_zero]))
    rw [carried_eq] at h1
    show v ⬝ᵥ phi l *ᵥ x = 0
    rw [h1, dotProduct_zero]
  obtain ⟨q, hq⟩ := (Submodule.mem_span_range_iff_exists_fun ℝ).mp (mem_span_of_iInf_ker_le_ker hk)
  refine ⟨q, ?_⟩
  funext j
  have := LinearMap.congr_fun hq (Pi.single j 1)
  have e1 : Kf (Pi.single j 1) = ((phi l)ᵀ *ᵥ v) j := by
    show v ⬝ᵥ phi l *ᵥ Pi.single j 1 = _
    rw [Matrix.mulVec_single_one, Matrix.mulVec, dotProduct_comm]
    rfl
  have e2 : (∑ i, q i • L i) (Pi.single j 1) = (gram l *ᵥ q) j := by
    rw [LinearMap.sum_apply]
    rw [← gram_symm l, Matrix.mulVec, dotProduct]
    refine Finset.sum_congr rfl fun i _ => ?_
    show q i * (gram l *ᵥ Pi.single j 1) i = _
    rw [Matrix.mulVec_single_one, mul_comm]
    rfl
  rw [← e1, ← e2, this]

/-- how the filter can estimate the direction `v` from a guess `w` before the stretch and the readings -/
theorem cov_read {l : List (Event n m)} (hok : ∀ ev ∈ l, ev.Ok) (v q : Fin n → ℝ) : ∃ c : ℝ, ∀ P0 : Matrix (Fin n) (Fin n) ℝ, P0.PosSemidef →
    v ⬝ᵥ cov P0 l *ᵥ v ≤ ((phi l)ᵀ *ᵥ v - gram l *ᵥ q) ⬝ᵥ P0 *ᵥ ((phi l)ᵀ *ᵥ v - gram l *ᵥ q) + c := by
  induction l generalizing v with
  | nil =>
    refine ⟨0, fun P0 _ => le_of_eq ?_⟩
    simp [phi, gram, cov, kalmanRec]
  | cons ev l ih =>
    have hok' : ∀ ev ∈ l, ev.Ok := fun ev hev => hok ev (List.mem_cons_of_mem _ hev)
    have ok := hok _ List.mem_cons_self
    cases ev with
    | move A B W V Rp Rc u =>
      obtain ⟨c, hc⟩ := ih hok' (Aᵀ *ᵥ v)
      refine ⟨c + v ⬝ᵥ (W * Rp * Wᵀ + V * Rc * Vᵀ) *ᵥ v, fun P0 h0 => ?_⟩
      have := hc P0 h0
      rw [cov_move, Matrix.add_mulVec, dotProduct_add, quad_conj']
      simp only [phi, gram]
      rw [Matrix.transpose_mul, ← Matrix.mulVec_mulVec]
      linarith
    | measure C R z =>
      have hR : R.PosDef := ok
      obtain ⟨c, hc⟩ := ih hok' (v - Cᵀ *ᵥ (C *ᵥ (phi l *ᵥ q)))
      refine ⟨c + (C *ᵥ (phi l *ᵥ q)) ⬝ᵥ R *ᵥ (C *ᵥ (phi l *ᵥ q)), fun P0 h0 => ?_⟩
      have a := hc P0 h0
      have b := post_dual (cov_psd h0 hok') C hR v (C *ᵥ (phi l *ᵥ q))
      rw [cov_measure]
      simp only [phi, gram]
      have e : (phi l)ᵀ *ᵥ (v - Cᵀ *ᵥ (C *ᵥ (phi l *ᵥ q))) - gram l *ᵥ q
          = (phi l)ᵀ *ᵥ v - (gram l + (phi l)ᵀ * (Cᵀ * C) * phi l) *ᵥ q := by
        rw [Matrix.add_mulVec, Matrix.mulVec_sub]
        simp only [Matrix.mulVec_mulVec, Matrix.mul_assoc]
        abel
      rw [e] at a
      linarith

/-- a covariance is at most the sum of its variances -/
theorem le_trace {P : Matrix (Fin n) (Fin n) ℝ} (h : P.PosSemidef) : ((∑ i, P i i) • (1 : Matrix (Fin n) (Fin n) ℝ) - P).PosSemidef := by
  obtain ⟨k, w, hw⟩ := Matrix.posSemidef_iff_eq_sum_vecMulVec.mp h
  simp only [star_trivial] at hw
  refine Matrix.PosSemidef.of_dotProduct_mulVec_nonneg ?_ ?_
  · show _ᴴ = _
    rw [conjTranspose_eq_transpose_of_trivial, Matrix.transpose_sub, Matrix.transpose_smul, Matrix.transpose_one, psd_symm h]
  · intro v
    rw [star_trivial, Matrix.sub_mulVec, dotProduct_sub, quad_one]
    have e : v ⬝ᵥ P *ᵥ v = ∑ i, (w i ⬝ᵥ v) ^ 2 := by
      rw [hw, Matrix.sum_mulVec, dotProduct_sum]
      refine Finset.sum_congr rfl fun i _ => ?_
      rw [Matrix.vecMulVec_mulVec, dotProduct_smul, MulOpposite.smul_eq_mul_unop, MulOpposite.unop_op, dotProduct_comm v, sq]
    have t : ∑ i, P i i = ∑ i, w i ⬝ᵥ w i := by
      rw [hw]
      simp only [Matrix.sum_apply, Matrix.vecMulVec_apply]
      rw [Finset.sum_comm]
      rfl
    rw [e, t, Finset.sum_mul, sub_nonneg]
    refine Finset.sum_le_sum fun i _ => ?_
    have := abs_dot_le (w i) v
    calc (w i ⬝ᵥ v) ^ 2 = |w i ⬝ᵥ v| ^ 2 := (sq_abs _).symm
      _ ≤ (len (w i) * len v) ^ 2 := pow_le_pow_left₀ (abs_nonneg _) this 2
      _ = w i ⬝ᵥ w i * len v ^ 2 := by rw [mul_pow, len_sq (w i)]

theorem cov_bounded {l : List (Event n m)} (hok : ∀ ev ∈ l, ev.Ok) (h : Shows l) : ∃ b : ℝ, 0 < b ∧ ∀ P0 : Matrix (Fin n) (Fin n) ℝ, P0.PosSemidef →
    (b • (1 : Matrix (Fin n) (Fin n) ℝ) - cov P0 l).PosSemidef := by
  have key : ∀ i : Fin n, ∃ c : ℝ, ∀ P0 : Matrix (Fin n) (Fin n) ℝ, P0.PosSemidef → cov P0 l i i ≤ c := by
    intro i
    obtain ⟨q, hq⟩ := readable h (Pi.single i 1)
    obtain ⟨c, hc⟩ := cov_read hok (Pi.single i 1) q
    refine ⟨c, fun P0 h0 => ?_⟩
    have := hc P0 h0
    rw [hq, sub_self, Matrix.mulVec_zero, dotProduct_zero, zero_add] at this
    simpa using this
  choose c hc using key
  refine ⟨(∑ i, |c i|) + 1, by positivity, fun P0 h0 => ?_⟩
  have hp := cov_psd h0 hok
  have t := le_trace hp
  have hle : ∑ i, cov P0 l i i ≤ (∑ i, |c i|) + 1 := by
    have : ∑ i, cov P0 l i i ≤ ∑ i, |c i| := Finset.sum_le_sum fun i _ => (hc i P0 h0).trans (le_abs_self _)
    linarith
  generalize ∑ i, cov P0 l i i = s at *
  generalize (∑ i, |c i|) + 1 = b at *
  have e : b • (1 : Matrix (Fin n) (Fin n) ℝ) - cov P0 l = (s • 1 - cov P0 l) + (b - s) • 1 := by module
  rw [e]; exact t.add (PosSemidef.one.smul (by linarith))

/-! ### The noise keeps the covariance up -/

theorem calm_of {l : List (Event n m)} (hok : ∀ ev ∈ l, ev.Ok) (v : Fin n → ℝ) (h : v ⬝ᵥ cov 0 l *ᵥ v = 0) : Calm l v := by
  induction l generalizing v with
  | nil => trivial
  | cons ev l ih =>
    have hok' : ∀ ev ∈ l, ev.Ok := fun ev hev => hok ev (List.mem_cons_of_mem _ hev)
    have ok := hok _ List.mem_cons_self
    have p0 : (cov 0 l).PosSemidef := cov_psd PosSemidef.zero hok'
    cases ev with
    | move A B W V Rp Rc u =>
      obtain ⟨o1, o2⟩ := ok
      have hQ : (W * Rp * Wᵀ + V * Rc * Vᵀ).PosSemidef := (psd_conj o1 W).add (psd_conj o2 V)
      rw [cov_move, Matrix.add_mulVec, dotProduct_add, quad_conj'] at h
      have a := psd_nonneg p0 (Aᵀ *ᵥ v)
      have b := psd_nonneg hQ v
      refine ⟨?_, ih hok' _ (by linarith)⟩
      have := (hQ.dotProduct_mulVec_zero_iff v).mp (by rw [star_trivial]; linarith)
      exact this
    | measure C R z =>
      have hR : R.PosDef := ok
      rw [cov_measure, post_joseph (psd_symm p0) (pd_isUnit_det (innov_pd p0 C hR)) (psd_symm hR.posSemidef), Matrix.add_mulVec,
        dotProduct_add, quad_conj', quad_conj'] at h
      generalize gain (cov 0 l) C R = G at h
      have a := psd_nonneg p0 ((1 - G * C)ᵀ *ᵥ v)
      have b := psd_nonneg hR.posSemidef (Gᵀ *ᵥ v)
      have hG : Gᵀ *ᵥ v = 0 := by
        by_contra hne
        have := hR.dotProduct_mulVec_pos hne
        rw [star_trivial] at this
        linarith
      have e : (1 - G * C)ᵀ *ᵥ v = v := by
        rw [Matrix.transpose_sub, Matrix.transpose_one, Matrix.transpose_mul, Matrix.sub_mulVec, Matrix.one_mulVec,
          ← Matrix.mulVec_mulVec, hG, Matrix.mulVec_zero, sub_zero]
      rw [e] at h a
      exact ih hok' v (by linarith)

theorem cov_pd {l : List (Event n m)} (hok : ∀ ev ∈ l, ev.Ok) (h : Stirred l) : (cov 0 l).PosDef := by
  have p0 : (cov 0 l).PosSemidef := cov_psd PosSemidef.zero hok
  refine PosDef.of_dotProduct_mulVec_pos p0.1 fun v hv => ?_
  refine lt_of_le_of_ne (p0.dotProduct_mulVec_nonneg v) fun h0 => hv (h v (calm_of hok v ?_))
  rw [star_trivial] at h0
  exact h0.symm

/-- a positive definite matrix is at least a multiple of the identity -/
theorem pd_floor {P : Matrix (Fin n) (Fin n) ℝ} (h : P.PosDef) : ∃ a : ℝ, 0 < a ∧ (P - a • (1 : Matrix (Fin n) (Fin n) ℝ)).PosSemidef := by
  -- `P⁻¹ ≤ t`, so `P ≥ 1 / t`
  have hi := h.inv
  have t := le_trace hi.posSemidef
  have ht0 : 0 ≤ ∑ i, P⁻¹ i i := Finset.sum_nonneg fun i _ => hi.posSemidef.diag_nonneg
  generalize ∑ i, P⁻¹ i i = s at *
  refine ⟨1 / (s + 1), by positivity, ?_⟩
  have t1 : ((s + 1) • (1 : Matrix (Fin n) (Fin n) ℝ) - P⁻¹).PosSemidef := by
    have e : (s + 1) • (1 : Matrix (Fin n) (Fin n) ℝ) - P⁻¹ = (s • 1 - P⁻¹) + 1 := by module
    rw [e]; exact t.add PosSemidef.one
  refine Matrix.PosSemidef.of_dotProduct_mulVec_nonneg ?_ ?_
  · show _ᴴ = _
    rw [conjTranspose_eq_transpose_of_trivial, Matrix.transpose_sub, Matrix.transpose_smul, Matrix.transpose_one,
      psd_symm h.posSemidef]
  · intro v
    rw [star_trivial, Matrix.sub_mulVec, dotProduct_sub, quad_one]
    -- Cauchy-Schwarz in the form `(v·v)² ≤ (v·Pv)(v·P⁻¹v)`: `0 ≤ (P v - c v)ᵀ P⁻¹ (P v - c v)`
    have hdet := pd_isUnit_det h
    have h1 : P⁻¹ * P = 1 := Matrix.nonsing_inv_mul P hdet
    have key : ∀ c : ℝ, 0 ≤ v ⬝ᵥ P *ᵥ v - 2 * c * len v ^ 2 + c ^ 2 * (v ⬝ᵥ P⁻¹ *ᵥ v) := by
      intro c
      have a := psd_nonneg hi.posSemidef (P *ᵥ v - c • v)
      have e1 : P⁻¹ *ᵥ (P *ᵥ v - c • v) = v - c • (P⁻¹ *ᵥ v) := by
        rw [Matrix.mulVec_sub, Matrix.mulVec_mulVec, h1, Matrix.one_mulVec, Matrix.mulVec_smul]
      have e2 : (P *ᵥ v) ⬝ᵥ (P⁻¹ *ᵥ v) = v ⬝ᵥ v := by
        rw [Matrix.dotProduct_mulVec, ← Matrix.mulVec_transpose, psd_symm hi.posSemidef, Matrix.mulVec_mulVec, h1, Matrix.one_mulVec]
      rw [e1, sub_dotProduct, dotProduct_sub, dotProduct_sub, smul_dotProduct, smul_dotProduct, dotProduct_smul, dotProduct_smul, e2,
        dotProduct_comm (P *ᵥ v) v, ← len_sq] at a
      simp only [smul_eq_mul] at a
      nlinarith
    have b := psd_nonneg t1 v
    rw [Matrix.sub_mulVec, dotProduct_sub, quad_one] at b
    have k := key (1 / (s + 1))
    have hs : 0 < s + 1 := by linarith
    have b' : (1 / (s + 1)) ^ 2 * (v ⬝ᵥ P⁻¹ *ᵥ v) ≤ 1 / (s + 1) * len v ^ 2 := by
      have : (1 / (s + 1)) ^ 2 * (v ⬝ᵥ P⁻¹ *ᵥ v) ≤ (1 / (s + 1)) ^ 2 * ((s + 1) * len v ^ 2) :=
        mul_le_mul_of_nonneg_left (by linarith) (by positivity)
      refine this.trans (le_of_eq ?_)
      field_simp
    linarith

/-! ### The error -/

/-- how the difference of two estimates with covariance `P` goes through a stretch -/
noncomputable def err (P : Matrix (Fin n) (Fin n) ℝ) : List (Event n m) → Matrix (Fin n) (Fin n) ℝ
  | [] => 1
  | .move A _ _ _ _ _ _ :: l => A * err P l
  | .measure C R _ :: l => (1 - gain (cov P l) C R * C) * err P l

theorem err_kind {P : Matrix (Fin n) (Fin n) ℝ} {l l' : List (Event n m)} (h : List.Forall₂ Event.SameKind l l') : err P l' = err P l := by
  induction h with
  | nil => rfl
  | cons he hl ih =>
    cases he with
    | move => simp only [err]; rw [ih]
    | measure => simp only [err]; rw [ih]; unfold cov; rw [show (kalmanRec 0 P _).2 = _ from cov_kind hl]; rfl

/-- what is left of the first uncertainty is at most the covariance minus what the noise alone makes of it -/
theorem err_cov {P : Matrix (Fin n) (Fin n) ℝ} (h0 : P.PosSemidef) {l : List (Event n m)} (hok : ∀ ev ∈ l, ev.Ok) :
    (cov P l - err P l * P * (err P l)ᵀ - cov 0 l).PosSemidef := by
  induction l with
  | nil =>
    show (P - 1 * P * 1ᵀ - 0).PosSemidef
    rw [Matrix.one_mul, Matrix.transpose_one, Matrix.mul_one, sub_self, sub_zero]; exact PosSemidef.zero
  | cons ev l ih =>
    have hok' : ∀ ev ∈ l, ev.Ok := fun ev hev => hok ev (List.mem_cons_of_mem _ hev)
    have ok := hok _ List.mem_cons_self
    have hF := ih hok'
    have p0 : (cov 0 l).PosSemidef := cov_psd PosSemidef.zero hok'
    have pP : (cov P l).PosSemidef := cov_psd h0 hok'
    cases ev with
    | move A B W V Rp Rc u =>
      simp only [cov_move, err]
      generalize W * Rp * Wᵀ + V * Rc * Vᵀ = Q
      generalize err P l = F at *
      have e : A * cov P l * Aᵀ + Q - A * F * P * (A * F)ᵀ - (A * cov 0 l * Aᵀ + Q) = A * (cov P l - F * P * Fᵀ - cov 0 l) * Aᵀ := by
        simp only [Matrix.mul_sub, Matrix.sub_mul, Matrix.transpose_mul, Matrix.mul_assoc]
        abel
      rw [e]; exact psd_conj hF A
    | measure C R z =>
      have hR : R.PosDef := ok
      simp only [cov_measure, err]
      have i := joseph_ge p0 C hR (gain (cov P l) C R)
      rw [post_joseph (psd_symm pP) (pd_isUnit_det (innov_pd pP C hR)) (psd_symm hR.posSemidef)]
      generalize gain (cov P l) C R = G at *
      generalize 1 - G * C = M at *
      generalize err P l = F at *
      have e : M * cov P l * Mᵀ + G * R * Gᵀ - M * F * P * (M * F)ᵀ - post (cov 0 l) C R
          = M * (cov P l - F * P * Fᵀ - cov 0 l) * Mᵀ + (M * cov 0 l * Mᵀ + G * R * Gᵀ - post (cov 0 l) C R) := by
        simp only [Matrix.mul_sub, Matrix.sub_mul, Matrix.transpose_mul, Matrix.mul_assoc]
        abel
      rw [e]; exact (psd_conj hF M).add i

theorem err_append (P : Matrix (Fin n) (Fin n) ℝ) (l l' : List (Event n m)) : err P (l ++ l') = err (cov P l') l * err P l' := by
  induction l with
  | nil => exact (Matrix.one_mul _).symm
  | cons ev l ih =>
    cases ev with
    | move => simp only [List.cons_append, err]; rw [ih, Matrix.mul_assoc]
    | measure => simp only [List.cons_append, err]; rw [ih, cov_append, Matrix.mul_assoc]

theorem err_state (P : Matrix (Fin n) (Fin n) ℝ) (l : List (Event n m)) (x y : Fin n → ℝ) :
    (kalmanRec x P l).1 - (kalmanRec y P l).1 = err P l *ᵥ (x - y) := by
  induction l with
  | nil => exact (Matrix.one_mulVec _).symm
  | cons ev l ih =>
    have hcov : ∀ x, (kalmanRec x P l).2 = cov P l := fun x => cov_kind (kind_refl l)
    cases ev with
    | move A B W V Rp Rc u =>
      simp only [kalmanRec, err]
      rw [← Matrix.mulVec_mulVec, ← ih, Matrix.mulVec_sub]
      abel
    | measure C R z =>
      simp only [kalmanRec, err]
      rw [hcov x, hcov y, ← Matrix.mulVec_mulVec, ← ih]
      unfold postState
      rw [Matrix.sub_mulVec, Matrix.one_mulVec, ← Matrix.mulVec_mulVec]
      simp only [Matrix.mulVec_sub]
      abel

theorem rec_append (x : Fin n → ℝ) (P : Matrix (Fin n) (Fin n) ℝ) (l l' : List (Event n m)) :
    kalmanRec x P (l ++ l') = kalmanRec (kalmanRec x P l').1 (kalmanRec x P l').2 l := by
  induction l with
  | nil => rfl
  | cons ev l ih =>
    cases ev with
    | move => simp only [List.cons_append, kalmanRec]; rw [ih]
    | measure => simp only [List.cons_append, kalmanRec]; rw [ih]

/-- a matrix that is small on one side is small on the other -/
theorem len_mulVec {k : Nat} {F : Matrix (Fin n) (Fin k) ℝ} {c : ℝ} (h : (c • (1 : Matrix (Fin n) (Fin n) ℝ) - F * Fᵀ).PosSemidef) (d : Fin k → ℝ) :
    len (F *ᵥ d) ≤ √c * len d := by
  have a := psd_nonneg h (F *ᵥ d)
  have e0 : (F *ᵥ d) ⬝ᵥ (F * Fᵀ) *ᵥ (F *ᵥ d) = len (Fᵀ *ᵥ (F *ᵥ d)) ^ 2 := by
    rw [len_sq, ← Matrix.mulVec_mulVec, Matrix.dotProduct_mulVec _ F, ← Matrix.mulVec_transpose]
  rw [Matrix.sub_mulVec, dotProduct_sub, quad_one, e0] at a
  have b : len (F *ᵥ d) ^ 2 ≤ len (Fᵀ *ᵥ (F *ᵥ d)) * len d := by
    rw [len_sq, Matrix.dotProduct_mulVec, ← Matrix.mulVec_transpose]
    exact (le_abs_self _).trans (abs_dot_le _ _)
  have g : len (Fᵀ *ᵥ (F *ᵥ d)) ≤ √c * len (F *ᵥ d) := by
    by_cases hc : 0 ≤ c
    · refine abs_le_of_sq_le_sq' ?_ (mul_nonneg (Real.sqrt_nonneg _) (len_nonneg _)) |>.2
      rw [mul_pow, Real.sq_sqrt hc]; linarith
    · have : len (F *ᵥ d) ^ 2 = 0 := by
        have h1 := sq_nonneg (len (F *ᵥ d))
        have h2 := sq_nonneg (len (Fᵀ *ᵥ (F *ᵥ d)))
        nlinarith
      have h3 : len (Fᵀ *ᵥ (F *ᵥ d)) ^ 2 ≤ 0 := by rw [this] at a; linarith
      have h4 : len (Fᵀ *ᵥ (F *ᵥ d)) = 0 := by nlinarith [sq_nonneg (len (Fᵀ *ᵥ (F *ᵥ d)))]
      rw [h4]; exact mul_nonneg (Real.sqrt_nonneg _) (len_nonneg _)
  rcases eq_or_lt_of_le (len_nonneg (F *ᵥ d)) with h0 | h0
  · rw [← h0]; exact mul_nonneg (Real.sqrt_nonneg _) (len_nonneg _)
  · have := b.trans (mul_le_mul_of_nonneg_right g (len_nonneg d))
    have h5 : len (F *ᵥ d) * len (F *ᵥ d) ≤ len (F *ᵥ d) * (√c * len d) := by nlinarith
    exact le_of_mul_le_mul_left h5 h0

/-- exact data -/
theorem rec_exact {y0 y : Fin n → ℝ} {evs : List (Event n m)} (h : Exactly y0 evs y) (P : Matrix (Fin n) (Fin n) ℝ) : (kalmanRec y0 P evs).1 = y := by
  induction h with
  | start => rfl
  | move _ ih => simp only [kalmanRec]; rw [ih]
  | measure _ ih => simp only [kalmanRec]; rw [ih]; unfold postState; rw [sub_self, Matrix.mulVec_zero, add_zero]

/-- what no reading shows stays as it is -/
theorem cov_unseen {P : Matrix (Fin n) (Fin n) ℝ} {l : List (Event n m)} {x : Fin n → ℝ} (h : Unseen l x) (t : ℝ) :
    cov (P + t • vecMulVec x x) l = cov P l + t • vecMulVec (carried l x) (carried l x) := by
  induction l with
  | nil => rfl
  | cons ev l ih =>
    cases ev with
    | move A B W V Rp Rc u =>
      simp only [cov_move, carried]
      rw [ih h]
      have e : vecMulVec (A *ᵥ carried l x) (A *ᵥ carried l x) = A * vecMulVec (carried l x) (carried l x) * Aᵀ := by
        rw [Matrix.mul_vecMulVec, Matrix.vecMulVec_mul, Matrix.vecMul_transpose]
      rw [e]
      simp only [Matrix.mul_add, Matrix.add_mul, Matrix.mul_smul, Matrix.smul_mul]
      abel
    | measure C R z =>
      obtain ⟨h1, h2⟩ := h
      simp only [cov_measure, carried]
      rw [ih h2]
      generalize carried l x = w at *
      have e1 : vecMulVec w w * Cᵀ = 0 := by rw [Matrix.vecMulVec_mul, Matrix.vecMul_transpose, h1]; ext i j; simp [Matrix.vecMulVec_apply]
      have e2 : C * vecMulVec w w = 0 := by rw [Matrix.mul_vecMulVec, h1]; ext i j; simp [Matrix.vecMulVec_apply]
      have e3 : innov (cov P l + t • vecMulVec w w) C R = innov (cov P l) C R := by
        unfold innov; rw [Matrix.add_mul, Matrix.smul_mul, e1, smul_zero, add_zero]
      have e4 : gain (cov P l + t • vecMulVec w w) C R = gain (cov P l) C R := by
        unfold gain; rw [e3, Matrix.add_mul, Matrix.smul_mul, e1, smul_zero, add_zero]
      unfold post
      rw [e4, Matrix.mul_add, Matrix.mul_smul, Matrix.sub_mul 1 _ (vecMulVec w w), Matrix.one_mul, Matrix.mul_assoc, e2, Matrix.mul_zero, sub_zero]

/-! ### Iterating a monotone map that brings everything together -/

theorem iterate_settles (Psi : Matrix (Fin n) (Fin n) ℝ → Matrix (Fin n) (Fin n) ℝ) (hpsd : ∀ P, P.PosSemidef → (Psi P).PosSemidef)
    (hmono : ∀ P Q, P.PosSemidef → (Q - P).PosSemidef → (Psi Q - Psi P).PosSemidef) (b : ℝ) (hb : 0 < b)
    (hceil : ∀ P, P.PosSemidef → (b • (1 : Matrix (Fin n) (Fin n) ℝ) - Psi P).PosSemidef) (r : Nat → ℝ) (hr : Tendsto r atTop (𝓝 0))
    (hrate : ∀ k P Q, P.PosSemidef → Q.PosSemidef → (r k • (1 : Matrix (Fin n) (Fin n) ℝ) - (Psi^[k + 1] P - Psi^[k + 1] Q)).PosSemidef) :
    ∃ L : Matrix (Fin n) (Fin n) ℝ, L.PosSemidef ∧ Psi L = L ∧ (L - Psi 0).PosSemidef ∧
      ∀ k P, P.PosSemidef → ∀ i j, |Psi^[k + 1] P i j - L i j| ≤ 2 * r k := by
  have hz : (0 : Matrix (Fin n) (Fin n) ℝ).PosSemidef := PosSemidef.zero
  have ipsd : ∀ k P, P.PosSemidef → (Psi^[k] P).PosSemidef := by
    intro k
    induction k with
    | zero => intro P h; exact h
    | succ k ih => intro P h; rw [Function.iterate_succ_apply]; exact ih _ (hpsd _ h)
  have imono : ∀ k P Q, P.PosSemidef → (Q - P).PosSemidef → (Psi^[k] Q - Psi^[k] P).PosSemidef := by
    intro k
    induction k with
    | zero => intro P Q _ h; exact h
    | succ k ih => intro P Q h0 h; simp only [Function.iterate_succ_apply]; exact ih _ _ (hpsd _ h0) (hmono _ _ h0 h)
  have dist : ∀ k P, P.PosSemidef → ∀ i j, |Psi^[k + 1] P i j - Psi^[k + 1] 0 i j| ≤ r k := by
    intro k P h i j
    have a : (Psi^[k + 1] P - Psi^[k + 1] 0).PosSemidef := imono _ _ _ hz (by rw [sub_zero]; exact h)
    have := abs_entry_le a (hrate k P 0 h hz) i j
    refine this.trans ?_
    have hr0 : 0 ≤ r k := by
      have := (abs_nonneg _).trans this
      have h1 : 0 < ((1 : Matrix (Fin n) (Fin n) ℝ) i i + (1 : Matrix (Fin n) (Fin n) ℝ) j j) / 2 := by simp
      exact nonneg_of_mul_nonneg_left this h1
    simp
  have step : ∀ k q i j, |Psi^[k + 1 + q] 0 i j - Psi^[k + 1] 0 i j| ≤ r k := by
    intro k q i j
    rw [Function.iterate_add_apply]
    exact dist k _ (ipsd q _ hz) i j
  have cauchy : ∀ i j, ∃ L, Tendsto (fun k => Psi^[k + 1] 0 i j) atTop (𝓝 L) := by
    intro i j
    refine cauchySeq_tendsto_of_complete ?_
    rw [Metric.cauchySeq_iff']
    intro δ hδ
    obtain ⟨N, hN⟩ := (Metric.tendsto_atTop.mp hr) δ hδ
    refine ⟨N, fun k hk => ?_⟩
    obtain ⟨q, rfl⟩ := Nat.exists_eq_add_of_le hk
    rw [Real.dist_eq]
    have h1 := step N q i j
    have h2 := hN N le_rfl
    rw [Real.dist_eq, sub_zero] at h2
    rw [show N + q + 1 = N + 1 + q by omega]
    exact lt_of_le_of_lt h1 (lt_of_le_of_lt (le_abs_self _) h2)
  choose L hL using cauchy
  have hLp : (Matrix.of L).PosSemidef := psd_of_tendsto (fun k => ipsd (k + 1) _ hz) hL
  have shift : ∀ k i j, Tendsto (fun q => Psi^[k + (q + 1)] 0 i j) atTop (𝓝 (L i j)) := by
    intro k i j
    refine ((hL i j).comp (_root_.Filter.tendsto_add_atTop_nat k)).congr fun q => ?_
    show Psi^[q + k + 1] 0 i j = _
    rw [show q + k + 1 = k + (q + 1) by omega]
  have lim : ∀ k i j, |Psi^[k + 1] 0 i j - L i j| ≤ r k := by
    intro k i j
    refine le_of_tendsto' ((shift (k + 1) i j).const_sub (Psi^[k + 1] 0 i j)).abs fun q => ?_
    rw [abs_sub_comm]
    exact step k (q + 1) i j
  have all : ∀ k P, P.PosSemidef → ∀ i j, |Psi^[k + 1] P i j - L i j| ≤ 2 * r k := by
    intro k P h i j
    have := abs_sub_le (Psi^[k + 1] P i j) (Psi^[k + 1] 0 i j) (L i j)
    have a := dist k P h i j
    have b := lim k i j
    linarith
  have conv : ∀ P, P.PosSemidef → ∀ i j, Tendsto (fun k => Psi^[k + 1] P i j) atTop (𝓝 (L i j)) := by
    intro P h i j
    rw [tendsto_iff_norm_sub_tendsto_zero]
    refine squeeze_zero (fun k => norm_nonneg _) (fun k => all k P h i j) ?_
    simpa using hr.const_mul 2
  have low : ∀ k, (Matrix.of L - Psi^[k] 0).PosSemidef := by
    intro k
    refine psd_of_tendsto (M := fun q => Psi^[k + (q + 1)] 0 - Psi^[k] 0) (fun q => ?_) fun i j => (shift k i j).sub_const _
    rw [Function.iterate_add_apply]
    exact imono k _ _ hz (by rw [sub_zero]; exact ipsd _ _ hz)
  have hone : (b • (1 : Matrix (Fin n) (Fin n) ℝ)).PosSemidef := PosSemidef.one.smul hb.le
  have up : ∀ k, (Psi^[k] (b • 1) - Matrix.of L).PosSemidef := by
    intro k
    refine psd_of_tendsto (M := fun q => Psi^[k] (b • 1) - Psi^[k + (q + 1)] 0) (fun q => ?_) fun i j => (shift k i j).const_sub _
    rw [Function.iterate_add_apply]
    refine imono k _ _ (ipsd _ _ hz) ?_
    rw [Function.iterate_succ_apply']
    exact hceil _ (ipsd _ _ hz)
  have g1 : (Psi (Matrix.of L) - Matrix.of L).PosSemidef := by
    refine psd_of_tendsto (M := fun k => Psi (Matrix.of L) - Psi^[k + 1] 0) (fun k => ?_) fun i j => (hL i j).const_sub _
    rw [Function.iterate_succ_apply']
    exact hmono _ _ (ipsd _ _ hz) (low k)
  have g2 : (Matrix.of L - Psi (Matrix.of L)).PosSemidef := by
    refine psd_of_tendsto (M := fun k => Psi^[k + 1] (b • 1) - Psi (Matrix.of L)) (fun k => ?_) fun i j => (conv _ hone i j).sub_const _
    rw [Function.iterate_succ_apply']
    exact hmono _ _ hLp (up k)
  refine ⟨Matrix.of L, hLp, ?_, low 1, all⟩
  ext i j
  have e : (0 : ℝ) • (1 : Matrix (Fin n) (Fin n) ℝ) - (Psi (Matrix.of L) - Matrix.of L) = Matrix.of L - Psi (Matrix.of L) := by
    rw [zero_smul]; abel
  have := abs_entry_le g1 (by rw [e]; exact g2) i j
  rw [zero_mul] at this
  exact sub_eq_zero.mp (abs_eq_zero.mp (le_antisymm this (abs_nonneg _)))

end Observed
end StateEstimation
