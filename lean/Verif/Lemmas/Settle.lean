import Verif.Props.Forgetting
import Mathlib.Topology.Order.MonotoneConvergence
import Mathlib.Topology.Instances.Matrix

/-! # Repeating a cycle of events -/

set_option linter.unusedSectionVars false

namespace StateEstimation
namespace Settle

open Matrix Kalman Topology
open _root_.Filter (Tendsto atTop)

variable {n m : Nat}

/-- the covariance part of the recursion -/
noncomputable def cov (P0 : Matrix (Fin n) (Fin n) ℝ) (l : List (Event n m)) : Matrix (Fin n) (Fin n) ℝ := (kalmanRec 0 P0 l).2

theorem cov_kind {x0 : Fin n → ℝ} {P0 : Matrix (Fin n) (Fin n) ℝ} {l l' : List (Event n m)} (h : List.Forall₂ Event.SameKind l l') :
    (kalmanRec x0 P0 l').2 = cov P0 l := by
  unfold cov
  induction h with
  | nil => rfl
  | cons he _ ih =>
    cases he with
    | move => simp only [kalmanRec]; rw [ih]
    | measure => simp only [kalmanRec]; rw [ih]

theorem kind_refl (l : List (Event n m)) : List.Forall₂ Event.SameKind l l := by
  induction l with
  | nil => exact .nil
  | cons e l ih => exact .cons (by cases e; exact .move _ _ _ _ _ _ _ _; exact .measure _ _ _ _) ih

theorem cov_append {P0 : Matrix (Fin n) (Fin n) ℝ} (l l' : List (Event n m)) : cov P0 (l ++ l') = cov (cov P0 l') l := by
  induction l with
  | nil => rfl
  | cons e l ih =>
    cases e with
    | move A B W V Rp Rc u =>
      have e1 : ∀ Q : Matrix (Fin n) (Fin n) ℝ, ∀ l, cov Q (.move A B W V Rp Rc u :: l) = A * cov Q l * Aᵀ + W * Rp * Wᵀ + V * Rc * Vᵀ :=
        fun _ _ => rfl
      rw [List.cons_append, e1, e1, ih]
    | measure C R z =>
      have e1 : ∀ Q : Matrix (Fin n) (Fin n) ℝ, ∀ l : List (Event n m), cov Q (.measure C R z :: l) = post (cov Q l) C R := fun _ _ => rfl
      rw [List.cons_append, e1, e1, ih]

theorem cov_psd {P0 : Matrix (Fin n) (Fin n) ℝ} (h0 : P0.PosSemidef) {l : List (Event n m)} (hok : ∀ ev ∈ l, ev.Ok) :
    (cov P0 l).PosSemidef := kalmanRec_psd h0 hok

theorem cov_mono {P P' : Matrix (Fin n) (Fin n) ℝ} (h0 : P.PosSemidef) (h : (P' - P).PosSemidef) {l : List (Event n m)}
    (hok : ∀ ev ∈ l, ev.Ok) : (cov P' l - cov P l).PosSemidef := by
  induction l with
  | nil => exact h
  | cons e l ih =>
    have i := ih (fun ev hev => hok ev (List.mem_cons_of_mem _ hev))
    have ip := cov_psd h0 (fun ev hev => hok ev (List.mem_cons_of_mem _ hev))
    have ok := hok _ List.mem_cons_self
    cases e with
    | move A B W V Rp Rc u =>
      have e1 : ∀ Q : Matrix (Fin n) (Fin n) ℝ, ∀ l, cov Q (.move A B W V Rp Rc u :: l) = A * cov Q l * Aᵀ + W * Rp * Wᵀ + V * Rc * Vᵀ :=
        fun _ _ => rfl
      rw [e1, e1]
      have : A * cov P' l * Aᵀ + W * Rp * Wᵀ + V * Rc * Vᵀ - (A * cov P l * Aᵀ + W * Rp * Wᵀ + V * Rc * Vᵀ)
          = A * (cov P' l - cov P l) * Aᵀ := by
        simp only [Matrix.mul_sub, Matrix.sub_mul]; abel
      rw [this]; exact psd_conj i A
    | measure C R z =>
      have hR : R.PosDef := ok
      exact post_mono ip i hR (by rw [sub_self]; exact PosSemidef.zero)

theorem cov_ceil {P0 Pc : Matrix (Fin n) (Fin n) ℝ} {eps : ℝ} (h0 : P0.PosSemidef) (hc : (Pc - P0).PosSemidef)
    {l : List (Event n m)} (hok : ∀ ev ∈ l, ev.Ok) (hst : ∀ ev ∈ l, ev.Stirs eps Pc) : (Pc - cov P0 l).PosSemidef := by
  induction l with
  | nil => exact hc
  | cons e l ih =>
    have i := ih (fun ev hev => hok ev (List.mem_cons_of_mem _ hev)) (fun ev hev => hst ev (List.mem_cons_of_mem _ hev))
    have ip := cov_psd h0 (fun ev hev => hok ev (List.mem_cons_of_mem _ hev))
    have ok := hok _ List.mem_cons_self
    have st := hst _ List.mem_cons_self
    cases e with
    | move A B W V Rp Rc u =>
      have e1 : cov P0 (.move A B W V Rp Rc u :: l) = A * cov P0 l * Aᵀ + W * Rp * Wᵀ + V * Rc * Vᵀ := rfl
      rw [e1]
      have : Pc - (A * cov P0 l * Aᵀ + W * Rp * Wᵀ + V * Rc * Vᵀ)
          = (Pc - (A * Pc * Aᵀ + (W * Rp * Wᵀ + V * Rc * Vᵀ))) + A * (Pc - cov P0 l) * Aᵀ := by
        simp only [Matrix.mul_sub, Matrix.sub_mul]; abel
      rw [this]; exact st.2.add (psd_conj i A)
    | measure C R z =>
      have hR : R.PosDef := ok
      have e1 : cov P0 (.measure C R z :: l) = post (cov P0 l) C R := rfl
      rw [e1]
      have e : Pc - post (cov P0 l) C R = (Pc - cov P0 l) + (cov P0 l - post (cov P0 l) C R) := by abel
      rw [e]; exact i.add (post_le ip C hR)

/-- once something has moved, any two covariances below the ceiling are within a factor of each other -/
theorem cov_any {P P' Pc : Matrix (Fin n) (Fin n) ℝ} {eps : ℝ} (heps : 0 < eps) (h0 : P.PosSemidef) (h0' : P'.PosSemidef)
    (hc : (Pc - P).PosSemidef) (hc' : (Pc - P').PosSemidef) {l : List (Event n m)} (hok : ∀ ev ∈ l, ev.Ok)
    (hst : ∀ ev ∈ l, ev.Stirs eps Pc) {k : Nat} (hk : motions l = k + 1) :
    ((1 + 1 / eps / (1 + eps) ^ k) • cov P' l - cov P l).PosSemidef := by
  induction l generalizing k with
  | nil => cases hk
  | cons e l ih =>
    have ok := hok _ List.mem_cons_self
    have st := hst _ List.mem_cons_self
    have hok' : ∀ ev ∈ l, ev.Ok := fun ev hev => hok ev (List.mem_cons_of_mem _ hev)
    have hst' : ∀ ev ∈ l, ev.Stirs eps Pc := fun ev hev => hst ev (List.mem_cons_of_mem _ hev)
    have ip := cov_psd h0 hok'
    have ip' := cov_psd h0' hok'
    have ic := cov_ceil h0 hc hok' hst'
    have ic' := cov_ceil h0' hc' hok' hst'
    have hr0 : ∀ j : Nat, 0 ≤ 1 / eps / (1 + eps) ^ j := fun j => by positivity
    cases e with
    | move A B W V Rp Rc u =>
      have e1 : ∀ Q : Matrix (Fin n) (Fin n) ℝ, cov Q (.move A B W V Rp Rc u :: l) = A * cov Q l * Aᵀ + (W * Rp * Wᵀ + V * Rc * Vᵀ) :=
        fun _ => add_assoc _ _ _
      rw [e1, e1]
      obtain ⟨s1, s2⟩ := st
      generalize W * Rp * Wᵀ + V * Rc * Vᵀ = Q at *
      simp only [motions, Nat.add_right_cancel_iff] at hk
      cases k with
      | zero =>
        rw [pow_zero, div_one]
        have e : (1 + 1 / eps) • (A * cov P' l * Aᵀ + Q) - (A * cov P l * Aᵀ + Q)
            = (1 + 1 / eps) • (A * cov P' l * Aᵀ) + (1 / eps) • (Q - eps • (A * Pc * Aᵀ)) + A * (Pc - cov P l) * Aᵀ := by
          have h2 : (1 / eps) * eps = 1 := by field_simp
          simp only [Matrix.mul_sub, Matrix.sub_mul, smul_sub, smul_smul, h2]
          module
        rw [e]
        exact (((psd_conj ip' A).smul (by positivity)).add (s1.smul (by positivity))).add (psd_conj ic A)
      | succ k =>
        have i3 := ih hok' hst' hk
        have hr : 1 / eps / (1 + eps) ^ (k + 1) = 1 / eps / (1 + eps) ^ k / (1 + eps) := by rw [pow_succ, div_mul_eq_div_div]
        rw [hr]
        have hr0 := hr0 k
        generalize 1 / eps / (1 + eps) ^ k = r at *
        have e : (1 + r / (1 + eps)) • (A * cov P' l * Aᵀ + Q) - (A * cov P l * Aᵀ + Q) =
            A * ((1 + r) • cov P' l - cov P l) * Aᵀ +
              (r / (1 + eps)) • ((Q - eps • (A * Pc * Aᵀ)) + eps • (A * (Pc - cov P' l) * Aᵀ)) := by
          have h1 : (1 : ℝ) + eps ≠ 0 := by positivity
          have h2 : r = r / (1 + eps) + r / (1 + eps) * eps := by field_simp
          generalize r / (1 + eps) = q at *
          subst h2
          simp only [Matrix.mul_sub, Matrix.sub_mul, Matrix.mul_smul, Matrix.smul_mul]
          module
        rw [e]
        exact (psd_conj i3 A).add ((s1.add ((psd_conj ic' A).smul heps.le)).smul (by positivity))
    | measure C R z =>
      have hR : R.PosDef := ok
      have e1 : ∀ Q : Matrix (Fin n) (Fin n) ℝ, cov Q (.measure C R z :: l) = post (cov Q l) C R := fun _ => rfl
      rw [e1, e1]
      have i3 := ih hok' hst' hk
      have hr0 := hr0 k
      generalize 1 / eps / (1 + eps) ^ k = r at *
      rw [← post_smul (by positivity) (pd_isUnit_det (innov_pd ip' C hR))]
      refine post_mono ip i3 hR ?_
      have e : (1 + r) • R - R = r • R := by module
      rw [e]; exact hR.posSemidef.smul hr0

/-! ### entries -/

theorem form_single (M : Matrix (Fin n) (Fin n) ℝ) (hs : Mᵀ = M) (i j : Fin n) (a : ℝ) :
    (Pi.single i 1 + Pi.single j a) ⬝ᵥ M *ᵥ (Pi.single i 1 + Pi.single j a) = M i i + 2 * a * M i j + a * a * M j j := by
  have h : M j i = M i j := by rw [← Matrix.transpose_apply M i j, hs]
  simp only [Matrix.mulVec_add, dotProduct_add, add_dotProduct, Matrix.mulVec_single, single_dotProduct, Pi.smul_apply, MulOpposite.smul_eq_mul_unop,
    MulOpposite.unop_op, Matrix.col_apply, one_mul, mul_one, h]
  ring

theorem abs_entry {M : Matrix (Fin n) (Fin n) ℝ} (h : M.PosSemidef) (i j : Fin n) : |M i j| ≤ (M i i + M j j) / 2 := by
  have a := h.dotProduct_mulVec_nonneg (Pi.single i 1 + Pi.single j 1)
  have b := h.dotProduct_mulVec_nonneg (Pi.single i 1 + Pi.single j (-1))
  rw [star_trivial, form_single M (psd_symm h)] at a b
  rw [abs_le]
  constructor <;> linarith

/-- a difference between 0 and `r Pc` -/
theorem abs_entry_le {M Pc : Matrix (Fin n) (Fin n) ℝ} {r : ℝ} (h : M.PosSemidef) (h' : (r • Pc - M).PosSemidef) (i j : Fin n) :
    |M i j| ≤ r * ((Pc i i + Pc j j) / 2) := by
  have a := h'.diag_nonneg (i := i)
  have b := h'.diag_nonneg (i := j)
  simp only [Matrix.sub_apply, Matrix.smul_apply, smul_eq_mul] at a b
  have := abs_entry h i j
  linarith

theorem psd_of_tendsto {M : Nat → Matrix (Fin n) (Fin n) ℝ} {L : Matrix (Fin n) (Fin n) ℝ} (h : ∀ k, (M k).PosSemidef)
    (hl : ∀ i j, Tendsto (fun k => M k i j) atTop (𝓝 (L i j))) : L.PosSemidef := by
  refine Matrix.PosSemidef.of_dotProduct_mulVec_nonneg ?_ ?_
  · show Lᴴ = L
    rw [conjTranspose_eq_transpose_of_trivial]
    ext i j
    refine tendsto_nhds_unique (hl j i) ?_
    have e : (fun k => M k j i) = fun k => M k i j := by
      funext k
      rw [← Matrix.transpose_apply (M k) i j, psd_symm (h k)]
    rw [e]
    exact hl i j
  · intro v
    have t : Tendsto (fun k => star v ⬝ᵥ M k *ᵥ v) atTop (𝓝 (star v ⬝ᵥ L *ᵥ v)) := by
      simp only [dotProduct, Matrix.mulVec]
      exact tendsto_finsetSum _ fun i _ => (tendsto_finsetSum _ fun j _ => (hl i j).mul_const _).const_mul _
    exact ge_of_tendsto' t (fun k => (h k).dotProduct_mulVec_nonneg v)

end Settle
end StateEstimation
