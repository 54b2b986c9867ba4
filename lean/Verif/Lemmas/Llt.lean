import Verif.Model.Llt
import Verif.Spec.Sigma
import Mathlib.Tactic.FieldSimp
import Mathlib.Tactic.LinearCombination
import Mathlib.Algebra.Order.Star.Real

namespace StateEstimation

open Matrix

namespace Llt

/-- positive definite on the first `k` coordinates, zero elsewhere -/
structure Lead {n : Nat} (k : Nat) (M : Matrix (Fin n) (Fin n) ℝ) : Prop where
  symm : ∀ i j, M i j = M j i
  zero : ∀ i j : Fin n, k ≤ i.val → M i j = 0
  pos : ∀ v : Fin n → ℝ, (∃ i : Fin n, i.val < k ∧ v i ≠ 0) → 0 < ∑ i, ∑ j, v i * M i j * v j

theorem Lead.factor {n : Nat} : ∀ (k : Nat) (M : Matrix (Fin n) (Fin n) ℝ), Lead k M →
    ∃ G : Matrix (Fin n) (Fin n) ℝ, (∀ i j, i < j → G i j = 0) ∧ (∀ i : Fin n, i.val < k → 0 < G i i) ∧
      (∀ i j : Fin n, k ≤ i.val → G i j = 0) ∧ G * Gᵀ = M := by
  induction n with
  | zero => exact fun k M _ => ⟨0, fun i => i.elim0, fun i => i.elim0, fun i => i.elim0, Subsingleton.elim _ _⟩
  | succ n ih =>
    intro k M h
    cases k with
    | zero =>
      refine ⟨0, fun _ _ _ => rfl, fun i hi => absurd hi (Nat.not_lt_zero _), fun _ _ _ => rfl, ?_⟩
      ext i j
      simp [h.zero i j (Nat.zero_le _)]
    | succ k =>
      have ha : 0 < M 0 0 := by
        have := h.pos (Pi.single 0 1) ⟨0, Nat.succ_pos _, by simp⟩
        simpa [Fin.sum_univ_succ] using this
      have ha' := ha.ne'
      let S : Matrix (Fin n) (Fin n) ℝ := fun i j => M i.succ j.succ - M i.succ 0 * M 0 j.succ / M 0 0
      have hS : Lead k S := by
        refine ⟨fun i j => ?_, fun i j hi => ?_, fun v hv => ?_⟩
        · simp only [S]
          rw [h.symm i.succ j.succ, h.symm i.succ 0, h.symm 0 j.succ]
          ring
        · simp only [S]
          rw [h.zero i.succ j.succ (by simpa using hi), h.zero i.succ 0 (by simpa using hi)]
          ring
        · obtain ⟨i, hi, hvi⟩ := hv
          have hp := h.pos (Fin.cons (-(∑ j, M 0 j.succ * v j) / M 0 0) v)
            ⟨i.succ, by simpa using hi, by simpa using hvi⟩
          refine hp.trans_eq ?_
          simp only [Fin.sum_univ_succ, Fin.cons_zero, Fin.cons_succ, S]
          set b : ℝ := ∑ j, M 0 j.succ * v j with hb
          have e1 : ∀ c : ℝ, ∑ j : Fin n, c * M 0 j.succ * v j = c * b := fun c => by
            rw [hb, Finset.mul_sum]; exact Finset.sum_congr rfl fun j _ => by ring
          have e2 : ∀ c : ℝ, ∑ j : Fin n, v j * M j.succ 0 * c = b * c := fun c => by
            rw [hb, Finset.sum_mul]; exact Finset.sum_congr rfl fun j _ => by rw [h.symm j.succ 0]; ring
          have e3 : ∀ i : Fin n, ∑ j : Fin n, v i * (M i.succ j.succ - M i.succ 0 * M 0 j.succ / M 0 0) * v j
              = ∑ j : Fin n, v i * M i.succ j.succ * v j - v i * M i.succ 0 * (b / M 0 0) := fun i => by
            have : v i * M i.succ 0 * (b / M 0 0) = ∑ j : Fin n, (v i * M i.succ 0 / M 0 0) * M 0 j.succ * v j := by
              rw [e1]; ring
            rw [this, ← Finset.sum_sub_distrib]
            exact Finset.sum_congr rfl fun j _ => by ring
          rw [Finset.sum_congr rfl fun i _ => e3 i, Finset.sum_sub_distrib, e2, e1, Finset.sum_add_distrib, e2]
          field_simp
          ring
      obtain ⟨G, hG, hGp, hGz, hGG⟩ := ih k S hS
      have hr : 0 < Real.sqrt (M 0 0) := Real.sqrt_pos.mpr ha
      have hrr : Real.sqrt (M 0 0) * Real.sqrt (M 0 0) = M 0 0 := Real.mul_self_sqrt ha.le
      let r := Real.sqrt (M 0 0)
      let F : Matrix (Fin (n + 1)) (Fin (n + 1)) ℝ := fun i j =>
        Fin.cases (motive := fun _ => ℝ) (Fin.cases (motive := fun _ => ℝ) r (fun _ => 0) j)
          (fun i' => Fin.cases (motive := fun _ => ℝ) (M i'.succ 0 / r) (fun j' => G i' j') j) i
      have F00 : F 0 0 = r := rfl
      have F0s : ∀ j : Fin n, F 0 j.succ = 0 := fun j => rfl
      have Fs0 : ∀ i : Fin n, F i.succ 0 = M i.succ 0 / r := fun i => rfl
      have Fss : ∀ i j : Fin n, F i.succ j.succ = G i j := fun i j => rfl
      have hr' : r ≠ 0 := hr.ne'
      refine ⟨F, fun i j hij => ?_, fun i hi => ?_, fun i j hi => ?_, ?_⟩
      · cases i using Fin.cases with
        | zero =>
          cases j using Fin.cases with
          | zero => exact absurd hij (lt_irrefl _)
          | succ j => exact F0s j
        | succ i =>
          cases j using Fin.cases with
          | zero => exact absurd hij (Fin.not_lt_zero _)
          | succ j => rw [Fss]; exact hG i j (Fin.succ_lt_succ_iff.mp hij)
      · cases i using Fin.cases with
        | zero => exact hr
        | succ i => rw [Fss]; exact hGp i (by simpa using hi)
      · cases i using Fin.cases with
        | zero => simp at hi
        | succ i =>
          cases j using Fin.cases with
          | zero => rw [Fs0, h.zero i.succ 0 hi, zero_div]
          | succ j => rw [Fss]; exact hGz i j (by simpa using hi)
      · have hrr' : r * r = M 0 0 := hrr
        ext i j
        simp only [mul_apply, transpose_apply, Fin.sum_univ_succ]
        cases i using Fin.cases with
        | zero =>
          cases j using Fin.cases with
          | zero => simp [F00, F0s, hrr']
          | succ j => simp only [F00, F0s, Fs0, zero_mul, Finset.sum_const_zero, add_zero]; rw [h.symm 0 j.succ]; field_simp
        | succ i =>
          cases j using Fin.cases with
          | zero => simp only [F00, F0s, Fs0, mul_zero, Finset.sum_const_zero, add_zero]; field_simp
          | succ j =>
            simp only [Fs0, Fss]
            have e := congrFun (congrFun hGG i) j
            simp only [mul_apply, transpose_apply, S] at e
            rw [e, h.symm 0 j.succ, ← hrr']
            field_simp
            ring

/-- The work matrix after `k` passes, when the factor is `G`: columns before `k` hold `G`, the rest still holds `M`. -/
def work {n : Nat} (G M : Matrix (Fin n) (Fin n) ℝ) (k : Nat) (A : Nat → Nat → ℝ) : Prop :=
  ∀ i j : Fin n, j ≤ i → A i j = if j.val < k then G i j else M i j

theorem sum_lt {n k : Nat} (hk : k < n) (f : Nat → ℝ) (g : Fin n → ℝ) (hfg : ∀ i : Fin n, i.val < k → f i = g i)
    (hz : ∀ i : Fin n, k ≤ i.val → g i = 0) : ∑ l ∈ Finset.range k, f l = ∑ i, g i := by
  have e : ∑ i, g i = ∑ l ∈ Finset.range n, (if h : l < n then g ⟨l, h⟩ else 0) := by
    rw [Finset.sum_range]
    exact Finset.sum_congr rfl fun i _ => by simp
  rw [e, ← Finset.sum_subset (Finset.range_subset_range.mpr hk.le)]
  · refine Finset.sum_congr rfl fun l hl => ?_
    have hl := Finset.mem_range.mp hl
    rw [dif_pos (hl.trans hk)]
    exact hfg ⟨l, hl.trans hk⟩ hl
  · intro l hl hl'
    have hl := Finset.mem_range.mp hl
    have hl' : ¬ l < k := fun h => hl' (Finset.mem_range.mpr h)
    rw [dif_pos hl]
    exact hz ⟨l, hl⟩ (not_lt.mp hl')

theorem row_sum {n : Nat} {G : Matrix (Fin n) (Fin n) ℝ} (hG : ∀ i j, i < j → G i j = 0) (i k : Fin n)
    {A : Nat → Nat → ℝ} (hA : ∀ i j : Fin n, j ≤ i → j < k → A i j = G i j) (hik : k ≤ i) :
    ∑ l ∈ Finset.range k, A i l * A k l = (G * Gᵀ) i k - G i k * G k k := by
  rw [sum_lt (n := n) k.isLt _ (fun l => if l < k then G i l * G k l else 0)
    (fun l hl => by
      rw [if_pos (Fin.lt_def.mpr hl), hA i l (le_trans (Fin.le_def.mpr hl.le) hik) (Fin.lt_def.mpr hl),
        hA k l (Fin.le_def.mpr hl.le) (Fin.lt_def.mpr hl)])
    (fun l hl => if_neg (not_lt.mpr (Fin.le_def.mpr hl)))]
  rw [mul_apply, eq_sub_iff_add_eq, ← Finset.sum_erase_add _ _ (Finset.mem_univ k),
    ← Finset.sum_erase_add _ _ (Finset.mem_univ k), if_neg (lt_irrefl _), add_zero, transpose_apply]
  congr 1
  refine Finset.sum_congr rfl fun l hl => ?_
  have hne := Finset.ne_of_mem_erase hl
  split
  · rfl
  · next h => rw [transpose_apply, hG k l (lt_of_le_of_ne (not_lt.mp h) hne.symm), mul_zero]

theorem loop_spec {n k0 : Nat} {G M : Matrix (Fin n) (Fin n) ℝ} (hG : ∀ i j, i < j → G i j = 0)
    (hp : ∀ i : Fin n, i.val < k0 → 0 < G i i) (hz : ∀ i j : Fin n, k0 ≤ i.val → G i j = 0) (hGG : G * Gᵀ = M) :
    ∀ (fuel k : Nat) (A : Nat → Nat → ℝ), fuel + k = n → k ≤ k0 → work G M k A →
      ∀ i j : Fin n, j ≤ i → lltLoop fuel k A i j = G i j := by
  intro fuel
  induction fuel with
  | zero =>
    intro k A hn _ hA i j hij
    rw [lltLoop, hA i j hij, if_pos (by have := j.isLt; omega)]
  | succ fuel ih =>
    intro k A hn hk hA i j hij
    have hkn : k < n := by omega
    set K : Fin n := ⟨k, hkn⟩ with hK
    have hA' : ∀ i j : Fin n, j ≤ i → j < K → A i j = G i j := fun i j hij hj => by
      rw [hA i j hij, if_pos (Fin.lt_def.mp hj)]
    have hrow : ∀ i : Fin n, K ≤ i → A i k - ∑ l ∈ Finset.range k, A i l * A k l = G i K * G K K := fun i hi => by
      have h1 := row_sum hG i K hA' hi
      have h2 := hA i K hi
      rw [if_neg (lt_irrefl _)] at h2
      have h1' : ∑ l ∈ Finset.range k, A i l * A k l = (G * Gᵀ) i K - G i K * G K K := h1
      have h2' : A i k = M i K := h2
      rw [h1', h2', hGG]; ring
    have hpiv : lltPivot k A = G K K * G K K := hrow K le_rfl
    rw [lltLoop, hpiv]
    rcases Nat.lt_or_ge k k0 with hk0 | hk0
    · have hpos := hp K hk0
      rw [if_neg (not_le.mpr (mul_pos hpos hpos)), Real.sqrt_mul_self hpos.le]
      refine ih (k + 1) _ (by omega) hk0 (fun i j hij => ?_) i j hij
      unfold lltColumn
      by_cases hj : j.val = k
      · have hjK : j = K := Fin.ext hj
        rw [if_pos hj, if_pos (show j.val < k + 1 by omega)]
        by_cases hi : i.val = k
        · have hiK : i = K := Fin.ext hi
          rw [if_pos hi, hiK, hjK]
        · have hki : k < i.val := lt_of_le_of_ne (by rw [← hj]; exact Fin.le_def.mp hij) (Ne.symm hi)
          rw [if_neg hi, if_pos hki, hrow i (Fin.le_def.mpr hki.le), hjK]
          field_simp
      · rw [if_neg hj, hA i j hij]
        by_cases hjk : j.val < k
        · rw [if_pos hjk, if_pos (by omega)]
        · rw [if_neg hjk, if_neg (by omega)]
    · have e : G K K = 0 := hz K K hk0
      rw [e, mul_zero, if_pos le_rfl, hA i j hij]
      split
      · rfl
      · next hj =>
        have hik : k0 ≤ i.val := by have := Fin.le_def.mp hij; omega
        rw [hz i j hik, ← hGG, mul_apply]
        exact Finset.sum_eq_zero fun l _ => by rw [hz i l hik, zero_mul]

theorem Lead.lower {n k : Nat} {M : Matrix (Fin n) (Fin n) ℝ} (h : Lead k M) (hk : k ≤ n) :
    lltLower M * (lltLower M)ᵀ = M ∧ ∀ i j, i < j → lltLower M i j = 0 := by
  obtain ⟨G, hG, hp, hz, hGG⟩ := h.factor
  have e : lltLower M = G := by
    ext i j
    unfold lltLower
    split
    · next hij =>
      refine loop_spec hG hp hz hGG n 0 _ rfl (Nat.zero_le _) (fun a b _ => ?_) i j hij
      simp
    · next hij => exact (hG i j (not_le.mp hij)).symm
  rw [e]
  exact ⟨hGG, hG⟩

theorem Lead.of_posDef {n : Nat} {M : Matrix (Fin n) (Fin n) ℝ} (h : M.PosDef) : Lead n M := by
  refine ⟨fun i j => ?_, fun i _ hi => absurd i.isLt (not_lt.mpr hi), fun v ⟨i, _, hi⟩ => ?_⟩
  · simpa using (h.isHermitian.apply i j).symm
  · have h2 := h.dotProduct_mulVec_pos (x := v) (fun e => hi (congrFun e i))
    refine h2.trans_eq ?_
    simp only [dotProduct, mulVec, star_trivial, Finset.mul_sum]
    exact Finset.sum_congr rfl fun i _ => Finset.sum_congr rfl fun j _ => by ring

end Llt

theorem eigenLlt_spec : LltSpec eigenLlt := fun M hM =>
  ⟨lltLower M, eigenLlt_of M, ((Llt.Lead.of_posDef hM).lower le_rfl).1⟩

end StateEstimation
