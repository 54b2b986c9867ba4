import Verif.Lemmas.History
import Verif.Examples.Linear
import Mathlib.LinearAlgebra.Matrix.Rank
import Mathlib.Analysis.Matrix.Order
import Mathlib.Data.Matrix.ColumnRowPartitioned

/-!
# C87: the Kalman filter's estimate is the end of the best explanation of everything it has been told
-/

set_option linter.unusedSectionVars false

namespace StateEstimation
namespace Props

open Matrix Kalman

section algebra

variable {ι κ μ : Type} [Fintype ι] [Fintype κ] [Fintype μ] [DecidableEq ι] [DecidableEq κ] [DecidableEq μ]

private theorem dot_tr (F : Matrix κ ι ℝ) (a : κ → ℝ) (b : ι → ℝ) : a ⬝ᵥ (F *ᵥ b) = (Fᵀ *ᵥ a) ⬝ᵥ b := by
  rw [Matrix.dotProduct_mulVec, Matrix.mulVec_transpose]

private theorem dot_symm {P : Matrix ι ι ℝ} (hP : Pᵀ = P) (a b : ι → ℝ) : a ⬝ᵥ (P *ᵥ b) = b ⬝ᵥ (P *ᵥ a) := by
  rw [dot_tr, hP, dotProduct_comm]

private theorem range_self_mul (G : Matrix κ ι ℝ) (v : ι → ℝ) : ∃ l, (G * Gᵀ) *ᵥ l = G *ᵥ v := by
  have hle : LinearMap.range (G * Gᵀ).mulVecLin ≤ LinearMap.range G.mulVecLin := by
    rintro _ ⟨l, rfl⟩
    exact ⟨Gᵀ *ᵥ l, by rw [Matrix.mulVecLin_apply, Matrix.mulVecLin_apply, Matrix.mulVec_mulVec]⟩
  have hr : Module.finrank ℝ (LinearMap.range (G * Gᵀ).mulVecLin) = Module.finrank ℝ (LinearMap.range G.mulVecLin) := by
    have := Matrix.rank_self_mul_transpose G
    exact this
  have := Submodule.eq_of_le_of_finrank_eq hle hr
  have hv : G *ᵥ v ∈ LinearMap.range (G * Gᵀ).mulVecLin := by rw [this]; exact ⟨v, rfl⟩
  obtain ⟨l, hl⟩ := hv
  exact ⟨l, hl⟩

open scoped ComplexOrder MatrixOrder Matrix.Norms.L2Operator in
private theorem psd_factor {P : Matrix ι ι ℝ} (hP : P.PosSemidef) : ∃ B : Matrix ι ι ℝ, P = Bᵀ * B := by
  obtain ⟨B, hB⟩ := CStarAlgebra.nonneg_iff_eq_star_mul_self.mp hP.nonneg
  exact ⟨B, by rw [hB, Matrix.star_eq_conjTranspose, conjTranspose_eq_transpose_of_trivial]⟩

private theorem quad_nonneg {P : Matrix ι ι ℝ} (hP : P.PosSemidef) (a : ι → ℝ) : 0 ≤ a ⬝ᵥ (P *ᵥ a) := by
  have := hP.dotProduct_mulVec_nonneg a
  simpa using this

/-- cheapest way to reach a sum of two noises -/
private theorem project {P : Matrix ι ι ℝ} {Q : Matrix μ μ ℝ} (hP : P.PosSemidef) (hQ : Q.PosSemidef) (A : Matrix κ ι ℝ)
    (W : Matrix κ μ ℝ) (l : ι → ℝ) (a : μ → ℝ) :
    ∃ l', (A * P * Aᵀ + W * Q * Wᵀ) *ᵥ l' = A *ᵥ (P *ᵥ l) + W *ᵥ (Q *ᵥ a) ∧
      l' ⬝ᵥ ((A * P * Aᵀ + W * Q * Wᵀ) *ᵥ l') ≤ l ⬝ᵥ (P *ᵥ l) + a ⬝ᵥ (Q *ᵥ a) := by
  obtain ⟨B, hB⟩ := psd_factor hP
  obtain ⟨D, hD⟩ := psd_factor hQ
  obtain ⟨l', hl'⟩ := range_self_mul (Matrix.fromCols (A * Bᵀ) (W * Dᵀ)) (Sum.elim (B *ᵥ l) (D *ᵥ a))
  have e1 : Matrix.fromCols (A * Bᵀ) (W * Dᵀ) * (Matrix.fromCols (A * Bᵀ) (W * Dᵀ))ᵀ = A * P * Aᵀ + W * Q * Wᵀ := by
    rw [Matrix.transpose_fromCols, Matrix.fromCols_mul_fromRows, hB, hD]
    simp only [Matrix.transpose_mul, Matrix.transpose_transpose, Matrix.mul_assoc]
  have e2 : Matrix.fromCols (A * Bᵀ) (W * Dᵀ) *ᵥ Sum.elim (B *ᵥ l) (D *ᵥ a) = A *ᵥ (P *ᵥ l) + W *ᵥ (Q *ᵥ a) := by
    rw [Matrix.fromCols_mulVec_sumElim, hB, hD]
    simp only [Matrix.mulVec_mulVec, Matrix.mul_assoc]
  rw [e1, e2] at hl'
  refine ⟨l', hl', ?_⟩
  have q1 := quad_nonneg hP (l - Aᵀ *ᵥ l')
  have q2 := quad_nonneg hQ (a - Wᵀ *ᵥ l')
  have c1 : l' ⬝ᵥ ((A * P * Aᵀ + W * Q * Wᵀ) *ᵥ l')
      = (Aᵀ *ᵥ l') ⬝ᵥ (P *ᵥ (Aᵀ *ᵥ l')) + (Wᵀ *ᵥ l') ⬝ᵥ (Q *ᵥ (Wᵀ *ᵥ l')) := by
    rw [Matrix.add_mulVec, dotProduct_add, ← Matrix.mulVec_mulVec l' (A * P) Aᵀ, ← Matrix.mulVec_mulVec (Aᵀ *ᵥ l') A P,
      ← Matrix.mulVec_mulVec l' (W * Q) Wᵀ, ← Matrix.mulVec_mulVec (Wᵀ *ᵥ l') W Q, dot_tr A, dot_tr W]
  have c2 : l' ⬝ᵥ ((A * P * Aᵀ + W * Q * Wᵀ) *ᵥ l') = (Aᵀ *ᵥ l') ⬝ᵥ (P *ᵥ l) + (Wᵀ *ᵥ l') ⬝ᵥ (Q *ᵥ a) := by
    rw [hl', dotProduct_add, dot_tr A, dot_tr W]
  have s1 : l ⬝ᵥ (P *ᵥ (Aᵀ *ᵥ l')) = (Aᵀ *ᵥ l') ⬝ᵥ (P *ᵥ l) := dot_symm (psd_symm hP) _ _
  have s2 : a ⬝ᵥ (Q *ᵥ (Wᵀ *ᵥ l')) = (Wᵀ *ᵥ l') ⬝ᵥ (Q *ᵥ a) := dot_symm (psd_symm hQ) _ _
  simp only [Matrix.mulVec_sub, dotProduct_sub, sub_dotProduct, s1, s2] at q1 q2
  linarith

private theorem quad_zero {P : Matrix ι ι ℝ} (hP : P.PosSemidef) {a : ι → ℝ} (h : a ⬝ᵥ (P *ᵥ a) = 0) : P *ᵥ a = 0 := by
  obtain ⟨B, hB⟩ := psd_factor hP
  rw [hB, ← Matrix.mulVec_mulVec, dot_tr, Matrix.transpose_transpose] at h
  have := dotProduct_self_eq_zero.mp h
  rw [hB, ← Matrix.mulVec_mulVec, this, Matrix.mulVec_zero]

/-- the cost of a measurement, with `l = r + Cᵀ s`, `e = S s` -/
private theorem measure_cost {P : Matrix ι ι ℝ} (hP : P.PosSemidef) (C : Matrix κ ι ℝ) {R : Matrix κ κ ℝ} (hR : R.PosDef)
    (r : ι → ℝ) (s : κ → ℝ) :
    (r + Cᵀ *ᵥ s) ⬝ᵥ (P *ᵥ (r + Cᵀ *ᵥ s))
      + (innov P C R *ᵥ s - C *ᵥ (P *ᵥ (r + Cᵀ *ᵥ s))) ⬝ᵥ (R⁻¹ *ᵥ (innov P C R *ᵥ s - C *ᵥ (P *ᵥ (r + Cᵀ *ᵥ s))))
      = s ⬝ᵥ (innov P C R *ᵥ s) + (r + info C R *ᵥ (P *ᵥ r)) ⬝ᵥ (P *ᵥ r) := by
  have hd : innov P C R *ᵥ s - C *ᵥ (P *ᵥ (r + Cᵀ *ᵥ s)) = R *ᵥ s - C *ᵥ (P *ᵥ r) := by
    unfold innov
    simp only [Matrix.add_mulVec, Matrix.mulVec_add, ← Matrix.mulVec_mulVec]
    abel
  have hRi : R⁻¹ *ᵥ (R *ᵥ s) = s := by
    rw [Matrix.mulVec_mulVec, Matrix.nonsing_inv_mul _ (pd_isUnit_det hR), Matrix.one_mulVec]
  have hRs : R⁻¹ᵀ = R⁻¹ := by rw [Matrix.transpose_nonsing_inv, psd_symm hR.posSemidef]
  rw [hd]
  have t1 : (Cᵀ *ᵥ s) ⬝ᵥ (P *ᵥ r) = s ⬝ᵥ (C *ᵥ (P *ᵥ r)) := (dot_tr C s _).symm
  have t2 : r ⬝ᵥ (P *ᵥ (Cᵀ *ᵥ s)) = s ⬝ᵥ (C *ᵥ (P *ᵥ r)) := by rw [dot_symm (psd_symm hP), t1]
  have t3 : (Cᵀ *ᵥ s) ⬝ᵥ (P *ᵥ (Cᵀ *ᵥ s)) = s ⬝ᵥ (C *ᵥ (P *ᵥ (Cᵀ *ᵥ s))) := (dot_tr C s _).symm
  have t4 : (R *ᵥ s) ⬝ᵥ (R⁻¹ *ᵥ (C *ᵥ (P *ᵥ r))) = s ⬝ᵥ (C *ᵥ (P *ᵥ r)) := by
    rw [dot_tr, hRs, hRi]
  have t5 : (info C R *ᵥ (P *ᵥ r)) ⬝ᵥ (P *ᵥ r) = (C *ᵥ (P *ᵥ r)) ⬝ᵥ (R⁻¹ *ᵥ (C *ᵥ (P *ᵥ r))) := by
    unfold info
    rw [← Matrix.mulVec_mulVec (P *ᵥ r) (Cᵀ * R⁻¹) C, ← Matrix.mulVec_mulVec (C *ᵥ (P *ᵥ r)) Cᵀ R⁻¹, dotProduct_comm,
      dot_tr, Matrix.transpose_transpose]
  have t6 : (C *ᵥ (P *ᵥ r)) ⬝ᵥ s = s ⬝ᵥ (C *ᵥ (P *ᵥ r)) := dotProduct_comm _ _
  have t7 : (R *ᵥ s) ⬝ᵥ s = s ⬝ᵥ (R *ᵥ s) := dotProduct_comm _ _
  have hS : innov P C R *ᵥ s = C *ᵥ (P *ᵥ (Cᵀ *ᵥ s)) + R *ᵥ s := by
    unfold innov
    simp only [Matrix.add_mulVec, ← Matrix.mulVec_mulVec]
  rw [hS]
  simp only [Matrix.mulVec_add, Matrix.mulVec_sub, dotProduct_add, add_dotProduct, dotProduct_sub, sub_dotProduct, hRi, t1, t2, t3,
    t4, t5, t6, t7]
  ring

end algebra

variable {n m : Nat}

/-- For an invertible covariance the misfit is the usual weighted square. -/
theorem misfit_inv {a : Nat} {Q : Matrix (Fin a) (Fin a) ℝ} (hQ : Q.PosDef) (w : Fin a → ℝ) (c : ℝ) :
    c ∈ Misfit Q w ↔ c = w ⬝ᵥ (Q⁻¹ *ᵥ w) := by
  have hu := pd_isUnit_det hQ
  constructor
  · rintro ⟨b, rfl, rfl⟩
    rw [Matrix.mulVec_mulVec, Matrix.nonsing_inv_mul _ hu, Matrix.one_mulVec, dotProduct_comm]
  · rintro rfl
    refine ⟨Q⁻¹ *ᵥ w, ?_, ?_⟩
    · rw [Matrix.mulVec_mulVec, Matrix.mul_nonsing_inv _ hu, Matrix.one_mulVec]
    · rw [Matrix.mulVec_mulVec, Matrix.mul_nonsing_inv _ hu, Matrix.one_mulVec, dotProduct_comm]

/-- the normalised squares of the innovations, added up -/
noncomputable def nisSum (x0 : Fin n → ℝ) (P0 : Matrix (Fin n) (Fin n) ℝ) : List (Event n m) → ℝ
  | [] => 0
  | .move _ _ _ _ _ _ _ :: evs => nisSum x0 P0 evs
  | .measure C R z :: evs => nisSum x0 P0 evs + (z - C *ᵥ (kalmanRec x0 P0 evs).1) ⬝ᵥ
      ((C * (kalmanRec x0 P0 evs).2 * Cᵀ + R)⁻¹ *ᵥ (z - C *ᵥ (kalmanRec x0 P0 evs).1))

/-- costs of all explanations, exactly -/
private theorem costs {x0 : Fin n → ℝ} {P0 : Matrix (Fin n) (Fin n) ℝ} (h0 : P0.PosSemidef) :
    ∀ (evs : List (Event n m)), (∀ ev ∈ evs, ev.Ok) → ∃ k : ℝ, k = nisSum x0 P0 evs ∧
      (∀ y c, Explains x0 P0 evs y c → ∃ l, y = (kalmanRec x0 P0 evs).1 + (kalmanRec x0 P0 evs).2 *ᵥ l ∧
        k + l ⬝ᵥ ((kalmanRec x0 P0 evs).2 *ᵥ l) ≤ c) ∧
      (∀ l, Explains x0 P0 evs ((kalmanRec x0 P0 evs).1 + (kalmanRec x0 P0 evs).2 *ᵥ l)
        (k + l ⬝ᵥ ((kalmanRec x0 P0 evs).2 *ᵥ l))) := by
  intro evs
  induction evs with
  | nil =>
    intro _
    refine ⟨0, rfl, ?_, ?_⟩
    · rintro y c (⟨⟨b, h1, rfl⟩⟩)
      exact ⟨b, by show y = x0 + P0 *ᵥ b; rw [← h1]; abel, by show 0 + b ⬝ᵥ (P0 *ᵥ b) ≤ _; rw [zero_add]⟩
    · intro l
      refine .start ⟨l, ?_, ?_⟩
      · show x0 + P0 *ᵥ l - x0 = _; abel
      · show 0 + l ⬝ᵥ (P0 *ᵥ l) = _; rw [zero_add]
  | cons ev evs ih =>
    intro hok
    have hok' := fun e he => hok e (List.mem_cons_of_mem _ he)
    have hev := hok ev List.mem_cons_self
    obtain ⟨k, ek, ih1, ih2⟩ := ih hok'
    have hP := kalmanRec_psd (x0 := x0) h0 hok'
    cases ev with
    | @move p A B W V Rp Rc u =>
      have e1 : kalmanRec x0 P0 (.move A B W V Rp Rc u :: evs)
        = (A *ᵥ (kalmanRec x0 P0 evs).1 + B *ᵥ u, A * (kalmanRec x0 P0 evs).2 * Aᵀ + W * Rp * Wᵀ + V * Rc * Vᵀ) := rfl
      rw [e1]
      have en : nisSum x0 P0 (.move A B W V Rp Rc u :: evs) = k := ek.symm
      rw [en]
      clear ek en
      generalize (kalmanRec x0 P0 evs).1 = x at *
      generalize (kalmanRec x0 P0 evs).2 = P at *
      dsimp only
      refine ⟨k, rfl, ?_, ?_⟩
      · intro y c h
        cases h with
        | @move _ y c _ _ _ _ _ _ _ _ w v cw cv hE hw hv =>
          obtain ⟨l, rfl, hl⟩ := ih1 _ _ hE
          obtain ⟨a, rfl, rfl⟩ := hw
          obtain ⟨b, rfl, rfl⟩ := hv
          obtain ⟨l1, p1, p2⟩ := project hP hev.1 A W l a
          obtain ⟨l2, p3, p4⟩ := project ((psd_conj hP A).add (psd_conj hev.1 W)) hev.2 1 V l1 b
          rw [Matrix.one_mul, Matrix.transpose_one, Matrix.mul_one] at p3 p4
          refine ⟨l2, ?_, by linarith⟩
          rw [p3, p1, Matrix.one_mulVec, Matrix.mulVec_add]
          abel
      · intro l
        have hE := Explains.move (A := A) (B := B) (W := W) (V := V) (Rp := Rp) (Rc := Rc) (u := u) (ih2 (Aᵀ *ᵥ l))
          (w := Rp *ᵥ (Wᵀ *ᵥ l)) (v := Rc *ᵥ (Vᵀ *ᵥ l)) ⟨_, rfl, rfl⟩ ⟨_, rfl, rfl⟩
        have ey : A *ᵥ x + B *ᵥ u + (A * P * Aᵀ + W * Rp * Wᵀ + V * Rc * Vᵀ) *ᵥ l
            = A *ᵥ (x + P *ᵥ (Aᵀ *ᵥ l)) + B *ᵥ u + W *ᵥ (Rp *ᵥ (Wᵀ *ᵥ l)) + V *ᵥ (Rc *ᵥ (Vᵀ *ᵥ l)) := by
          simp only [Matrix.add_mulVec, Matrix.mulVec_add, Matrix.mulVec_mulVec, Matrix.mul_assoc]
          abel
        have ec : l ⬝ᵥ ((A * P * Aᵀ + W * Rp * Wᵀ + V * Rc * Vᵀ) *ᵥ l)
            = (Aᵀ *ᵥ l) ⬝ᵥ (P *ᵥ (Aᵀ *ᵥ l)) + (Wᵀ *ᵥ l) ⬝ᵥ (Rp *ᵥ (Wᵀ *ᵥ l)) + (Vᵀ *ᵥ l) ⬝ᵥ (Rc *ᵥ (Vᵀ *ᵥ l)) := by
          rw [← dot_tr A, ← dot_tr W, ← dot_tr V]
          simp only [Matrix.add_mulVec, dotProduct_add, Matrix.mulVec_mulVec, Matrix.mul_assoc]
        rw [ey, ec, ← add_assoc, ← add_assoc]
        exact hE
    | @measure q C R z =>
      have e1 : kalmanRec x0 P0 (.measure C R z :: evs)
        = (postState (kalmanRec x0 P0 evs).1 (kalmanRec x0 P0 evs).2 C R z, post (kalmanRec x0 P0 evs).2 C R) := rfl
      have en : nisSum x0 P0 (.measure C R z :: evs) = k + (z - C *ᵥ (kalmanRec x0 P0 evs).1) ⬝ᵥ
          ((C * (kalmanRec x0 P0 evs).2 * Cᵀ + R)⁻¹ *ᵥ (z - C *ᵥ (kalmanRec x0 P0 evs).1)) := by rw [ek]; rfl
      rw [e1, en]
      clear ek en
      generalize (kalmanRec x0 P0 evs).1 = x at *
      generalize (kalmanRec x0 P0 evs).2 = P at *
      dsimp only
      have hR : R.PosDef := hev
      have hS := innov_pd hP C hR
      have hSu := pd_isUnit_det hS
      have hRu := pd_isUnit_det hR
      -- innovation and its dual
      obtain ⟨s, hs⟩ : ∃ s, innov P C R *ᵥ s = z - C *ᵥ x := ⟨(innov P C R)⁻¹ *ᵥ (z - C *ᵥ x), by
        rw [Matrix.mulVec_mulVec, Matrix.mul_nonsing_inv _ hSu, Matrix.one_mulVec]⟩
      have hKe : gain P C R *ᵥ (z - C *ᵥ x) = P *ᵥ (Cᵀ *ᵥ s) := by
        rw [← hs, Matrix.mulVec_mulVec, gain_mul_innov hSu, Matrix.mulVec_mulVec]
      have hx' : postState x P C R z = x + P *ᵥ (Cᵀ *ᵥ s) := by unfold postState; rw [hKe]
      -- P = P' (1 + N P)
      have hPP : post P C R * (1 + info C R * P) = P := by
        have h := shrink_mul hSu hRu
        have : post P C R * (1 + info C R * P) = (1 - gain P C R * C) * (1 + P * info C R) * P := by
          unfold post
          simp only [Matrix.mul_add, Matrix.add_mul, Matrix.mul_one, Matrix.mul_assoc]
        rw [this, h, Matrix.one_mul]
      have hPr : ∀ r, post P C R *ᵥ (r + info C R *ᵥ (P *ᵥ r)) = P *ᵥ r := by
        intro r
        have h : (post P C R * (1 + info C R * P)) *ᵥ r = P *ᵥ r := by rw [hPP]
        rw [← Matrix.mulVec_mulVec, Matrix.add_mulVec, Matrix.one_mulVec, ← Matrix.mulVec_mulVec] at h
        exact h
      have hPs := psd_symm hP
      have hNs : (info C R)ᵀ = info C R := by
        unfold info
        rw [Matrix.transpose_mul, Matrix.transpose_mul, Matrix.transpose_nonsing_inv, psd_symm hR.posSemidef,
          Matrix.transpose_transpose, Matrix.mul_assoc]
      -- cost at y = x + P (r + Cᵀ s)
      have hcost : ∀ r, ∀ cz ∈ Misfit R (z - C *ᵥ (x + P *ᵥ (r + Cᵀ *ᵥ s))),
          (r + Cᵀ *ᵥ s) ⬝ᵥ (P *ᵥ (r + Cᵀ *ᵥ s)) + cz
            = s ⬝ᵥ (innov P C R *ᵥ s) + (r + info C R *ᵥ (P *ᵥ r)) ⬝ᵥ (post P C R *ᵥ (r + info C R *ᵥ (P *ᵥ r))) := by
        intro r cz hcz
        rw [misfit_inv hR] at hcz
        have ez : z - C *ᵥ (x + P *ᵥ (r + Cᵀ *ᵥ s)) = innov P C R *ᵥ s - C *ᵥ (P *ᵥ (r + Cᵀ *ᵥ s)) := by
          rw [hs, Matrix.mulVec_add]; abel
        rw [hcz, ez, measure_cost hP C hR r s]
        rw [hPr r]
      have hy : ∀ r, x + P *ᵥ (r + Cᵀ *ᵥ s) = postState x P C R z + post P C R *ᵥ (r + info C R *ᵥ (P *ᵥ r)) := by
        intro r
        rw [hPr r, hx', Matrix.mulVec_add]
        abel
      refine ⟨k + s ⬝ᵥ (innov P C R *ᵥ s), ?_, ?_, ?_⟩
      · rw [show C * P * Cᵀ + R = innov P C R by unfold innov; rw [Matrix.mul_assoc], ← hs, Matrix.mulVec_mulVec s,
          Matrix.nonsing_inv_mul _ hSu, Matrix.one_mulVec, dotProduct_comm]
      · intro y c h
        cases h with
        | @measure _ y c _ _ _ _ cz hE hz =>
          obtain ⟨l, rfl, hl⟩ := ih1 _ _ hE
          obtain ⟨r, rfl⟩ : ∃ r, l = r + Cᵀ *ᵥ s := ⟨l - Cᵀ *ᵥ s, by abel⟩
          refine ⟨r + info C R *ᵥ (P *ᵥ r), hy r, ?_⟩
          have := hcost r cz hz
          linarith
      · intro l'
        obtain ⟨r, hr⟩ : ∃ r, l' = r + info C R *ᵥ (P *ᵥ r) := by
          have h := congrArg Matrix.transpose (shrink_mul hSu hRu)
          rw [Matrix.transpose_mul, Matrix.transpose_add, Matrix.transpose_mul, Matrix.transpose_one, hPs, hNs] at h
          refine ⟨(1 - gain P C R * C)ᵀ *ᵥ l', ?_⟩
          have h2 := congrArg (fun M => M *ᵥ l') h
          simp only [Matrix.one_mulVec] at h2
          rw [← Matrix.mulVec_mulVec, Matrix.add_mulVec, Matrix.one_mulVec, ← Matrix.mulVec_mulVec] at h2
          exact h2.symm
        subst hr
        rw [← hy r]
        have hm : (z - C *ᵥ (x + P *ᵥ (r + Cᵀ *ᵥ s))) ⬝ᵥ (R⁻¹ *ᵥ (z - C *ᵥ (x + P *ᵥ (r + Cᵀ *ᵥ s))))
            ∈ Misfit R (z - C *ᵥ (x + P *ᵥ (r + Cᵀ *ᵥ s))) := (misfit_inv hR _ _).mpr rfl
        have := Explains.measure (ih2 (r + Cᵀ *ᵥ s)) hm
        have hc := hcost r _ hm
        rw [add_assoc, ← hc, ← add_assoc]
        exact this

variable {T K X Y : Type} [DecidableEq K] [LinearOrder T] [ExactTime T] {kd : K → Nat}

/-- **C87.** After any number of in-order calls of `predict(u, t)`, `predict(t)` and `correct(z, R, t, j)`, the Kalman
filter's state is the end of the best explanation: among all histories (first state, process noises, control noises,
measurement errors) that agree with everything the filter has been told, those of least total misfit end in the reported
state, and no others do.  The reported covariance says how much worse the explanations of other states are: the least
misfit of a history ending in `x + P l` is `lᵀ P l` above the optimum (for invertible `P`: `dᵀ P⁻¹ d` at distance `d`), and
states not of this form cannot be explained at all. -/
theorem C87_best_explanation {sc : SysClass T LinSysData X} {mc : K → MeasClass T LinMeasData Y}
    (hsc : SysContract LinSysData.Sized sc) (hmc : ∀ j, MeasContract LinMeasData.Sized (mc j))
    (ops : sc.PlainOps) (mops : ∀ j, (mc j).PlainOps) {x0 : Fin n → ℝ} {P0 : Matrix (Fin n) (Fin n) ℝ} (h0 : P0.PosSemidef)
    {f ctl} {evs : List (Event n m)} (h : Recorded sc mc n m kd x0 P0 f ctl evs) (hok : ∀ ev ∈ evs, ev.Ok) :
    ∃ (x : Fin n → ℝ) (P : Matrix (Fin n) (Fin n) ℝ) (best : ℝ), f.getState = .of x ∧ f.getCovariance = .of P ∧
      Explains x0 P0 evs x best ∧
      (∀ y c, Explains x0 P0 evs y c → best ≤ c ∧ (c = best → y = x)) ∧
      (∀ y, (∃ c, Explains x0 P0 evs y c) ↔ ∃ l, y = x + P *ᵥ l) ∧
      (∀ l, IsLeast {c | Explains x0 P0 evs (x + P *ᵥ l) c} (best + l ⬝ᵥ (P *ᵥ l))) := by
  have I := h.inv hsc hmc ops mops h0 hok
  obtain ⟨k, _, h1, h2⟩ := costs (x0 := x0) h0 evs hok
  have hP := kalmanRec_psd (x0 := x0) h0 hok
  refine ⟨(kalmanRec x0 P0 evs).1, (kalmanRec x0 P0 evs).2, k, I.x, I.cov, ?_, ?_, ?_, ?_⟩
  · simpa using h2 0
  · intro y c hE
    obtain ⟨l, rfl, hl⟩ := h1 y c hE
    have hq := quad_nonneg hP l
    refine ⟨by linarith, ?_⟩
    rintro rfl
    rw [quad_zero hP (le_antisymm (by linarith) hq), add_zero]
  · intro y
    constructor
    · rintro ⟨c, hE⟩
      obtain ⟨l, rfl, _⟩ := h1 y c hE
      exact ⟨l, rfl⟩
    · rintro ⟨l, rfl⟩
      exact ⟨_, h2 l⟩
  · intro l
    refine ⟨h2 l, ?_⟩
    intro c hE
    obtain ⟨l', hl, hc⟩ := h1 _ c hE
    have hPl : (kalmanRec x0 P0 evs).2 *ᵥ l = (kalmanRec x0 P0 evs).2 *ᵥ l' := add_left_cancel hl
    have : l ⬝ᵥ ((kalmanRec x0 P0 evs).2 *ᵥ l) = l' ⬝ᵥ ((kalmanRec x0 P0 evs).2 *ᵥ l') := by
      rw [hPl, dot_symm (psd_symm hP), hPl]
    rw [this]; exact hc

/-- the least cost of an explanation -/
private theorem least_cost {x0 : Fin n → ℝ} {P0 : Matrix (Fin n) (Fin n) ℝ} (h0 : P0.PosSemidef)
    (evs : List (Event n m)) (hok : ∀ ev ∈ evs, ev.Ok) : IsLeast {c | ∃ y, Explains x0 P0 evs y c} (nisSum x0 P0 evs) := by
  obtain ⟨k, rfl, h1, h2⟩ := costs (x0 := x0) h0 evs hok
  refine ⟨⟨_, by simpa using h2 0⟩, ?_⟩
  rintro c ⟨y, hE⟩
  obtain ⟨l, _, hl⟩ := h1 y c hE
  have := quad_nonneg (kalmanRec_psd (x0 := x0) h0 hok) l
  linarith

/-- **C128.** How badly what a Kalman filter has been told fits together is what its innovations say, added up: the least
total misfit of a history that agrees with everything is zero in the beginning; whatever the filter is told about motions does
not change it; and a measurement adds exactly the normalised square of its innovation, `νᵀ (C P Cᵀ + R)⁻¹ ν` with
`ν = z - C x`, where `x` and `P` are the state and the covariance the filter reports before the measurement. -/
theorem C128_misfit_is_sum_of_innovations {sc : SysClass T LinSysData X} {mc : K → MeasClass T LinMeasData Y}
    (hsc : SysContract LinSysData.Sized sc) (hmc : ∀ j, MeasContract LinMeasData.Sized (mc j))
    (ops : sc.PlainOps) (mops : ∀ j, (mc j).PlainOps) {x0 : Fin n → ℝ} {P0 : Matrix (Fin n) (Fin n) ℝ} (h0 : P0.PosSemidef)
    {f ctl} {evs : List (Event n m)} (h : Recorded sc mc n m kd x0 P0 f ctl evs) (hok : ∀ ev ∈ evs, ev.Ok) :
    IsLeast {c | ∃ y, Explains (m := m) x0 P0 [] y c} 0 ∧
    ∃ (x : Fin n → ℝ) (P : Matrix (Fin n) (Fin n) ℝ) (least : ℝ), f.getState = .of x ∧ f.getCovariance = .of P ∧
      IsLeast {c | ∃ y, Explains x0 P0 evs y c} least ∧
      (∀ (p : Nat) A B W V Rp Rc u, (Event.move (p := p) A B W V Rp Rc u).Ok →
        IsLeast {c | ∃ y, Explains x0 P0 (Event.move (p := p) A B W V Rp Rc u :: evs) y c} least) ∧
      (∀ (k : Nat) (C : Matrix (Fin k) (Fin n) ℝ) R z, R.PosDef →
        IsLeast {c | ∃ y, Explains x0 P0 (Event.measure C R z :: evs) y c}
          (least + (z - C *ᵥ x) ⬝ᵥ ((C * P * Cᵀ + R)⁻¹ *ᵥ (z - C *ᵥ x)))) := by
  have I := h.inv hsc hmc ops mops h0 hok
  refine ⟨least_cost h0 [] (by simp), (kalmanRec x0 P0 evs).1, (kalmanRec x0 P0 evs).2, nisSum x0 P0 evs, I.x, I.cov,
    least_cost h0 evs hok, fun p A B W V Rp Rc u hm => ?_, fun k C R z hR => ?_⟩
  · exact least_cost h0 (Event.move A B W V Rp Rc u :: evs) (List.forall_mem_cons.mpr ⟨hm, hok⟩)
  · exact least_cost h0 (Event.measure C R z :: evs) (List.forall_mem_cons.mpr ⟨hR, hok⟩)

/-! A case that meets the hypotheses (of C87 and C128): the constant-velocity model, believed to be near the origin, is accelerated for a
second, then its position is measured a second later. -/

example : ∃ (f : Filter ℝ DVec DMat Unit (Env Unit LinSysData Unit LinMeasData Unit)) (evs : List (Event 2 1)),
    Recorded Examples.cvClass (fun _ => Examples.posClass) 2 1 (fun _ => 1) ![0, 0] 1 f ![3] evs ∧ evs.length = 3 ∧
      (∀ ev ∈ evs, ev.Ok) ∧ f.getStateTime = 2 := by
  have sc := Examples.cv_contract
  have mcn : ∀ _ : Unit, MeasContract LinMeasData.Sized Examples.posClass := fun _ => Examples.pos_contract
  have o : Examples.cvClass.PlainOps := Examples.plain_ops _
  have mo : ∀ _ : Unit, Examples.posClass.PlainOps := fun _ => Examples.plain_mops _
  have p0 : (1 : Matrix (Fin 2) (Fin 2) ℝ).PosSemidef := PosSemidef.one
  have r0 : Recorded (T := ℝ) Examples.cvClass (fun _ : Unit => Examples.posClass) 2 1 (fun _ => 1) ![0, 0] 1
      (Filter.construct (kfPlant Examples.cvClass (fun _ => Examples.posClass)) {rewindHistory := false, historyWindow := 1, allowPast := false}
        Examples.cvEnv (.of ![0, 0]) (.of 1) 0) 0 [] :=
    .start _ _ _ ⟨rfl, rfl, ⟨⟨rfl, rfl⟩, rfl, rfl⟩, ⟨rfl, rfl⟩, ⟨rfl, rfl⟩, ⟨rfl, rfl⟩, ⟨rfl, rfl⟩⟩
      (fun _ => ⟨rfl, rfl, ⟨rfl, rfl⟩, ⟨rfl, rfl⟩⟩) ⟨rfl, fun _ => rfl⟩
  have ok0 : ∀ ev ∈ ([] : List (Event 2 1)), ev.Ok := by intro ev h; cases h
  have ok1 : ∀ {p : Nat} (s : Sys LinSysData Unit) (A B W V) (Rp : Matrix (Fin p) (Fin p) ℝ) (Rc) (u : Fin 1 → ℝ),
      s.Rp = Examples.cvEnv.sys.Rp → s.Rc = Examples.cvEnv.sys.Rc → s.Holds A B W V Rp Rc →
      (Event.move (n := 2) A B W V Rp Rc u).Ok := by
    intro p s A B W V Rp Rc u h1 h2 hh
    have a1 : Examples.cvEnv.sys.Rp.PSD := DMat.PSD_of (n := 2).mpr PosSemidef.zero
    have a2 : Examples.cvEnv.sys.Rc.PSD := DMat.PSD_of (n := 1).mpr PosSemidef.zero
    rw [← h1, hh.Rp] at a1
    rw [← h2, hh.Rc] at a2
    exact ⟨DMat.PSD_of.mp a1, DMat.PSD_of.mp a2⟩
  obtain ⟨g, p, A, B, W, V, Rp, Rc, r1, t1, b1, c1, hh⟩ :=
    r0.can_predict sc mcn o mo p0 ok0 (by norm_num) ![7] 1 (by show (0 : ℝ) ≤ 1; norm_num)
  have k1 := ok1 g.env.sys A B W V Rp Rc ![7] b1 c1 hh
  have ok2 : ∀ ev ∈ [Event.move A B W V Rp Rc ![7]], ev.Ok := by intro ev h; rw [List.mem_singleton.mp h]; exact k1
  obtain ⟨g', p', A', B', W', V', Rp', Rc', r2, t2, b2, c2, hh'⟩ :=
    r1.can_predict sc mcn o mo p0 ok2 (by norm_num) ![3] 2 (by rw [t1]; norm_num)
  have k2 := ok1 g'.env.sys A' B' W' V' Rp' Rc' ![3] (b2.trans b1) (c2.trans c1) hh'
  have ok3 : ∀ ev ∈ [Event.move A' B' W' V' Rp' Rc' ![3], Event.move A B W V Rp Rc ![7]], ev.Ok := by
    intro ev h
    rcases List.mem_cons.mp h with rfl | h
    · exact k2
    · exact ok2 ev h
  obtain ⟨g'', C, r3, t3⟩ := r2.can_correct sc mcn o mo p0 ok3 () ![5] 1 PosDef.one
  refine ⟨g'', _, r3, rfl, ?_, t3.trans t2⟩
  intro ev h
  rcases List.mem_cons.mp h with rfl | h
  · exact PosDef.one
  · exact ok3 ev h

end Props
end StateEstimation
