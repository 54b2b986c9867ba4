import Verif.Spec.Subset
import Mathlib.Tactic.Linarith

/-! # Subsets in terms of index functions -/

namespace StateEstimation

open Matrix

variable {n k r c l : Nat}

theorem Selects.isEmpty {L : List Nat} {σ : Fin k → Fin n} (h : Selects L σ) (he : L = []) : k = n ∧ ∀ i, (σ i).val = i.val := by
  have h1 := h.list
  rw [if_pos he] at h1
  have hk : k = n := by have := congrArg List.length h1; simpa using this.symm
  subst hk
  refine ⟨rfl, fun i => ?_⟩
  have h2 : (List.range k)[i.val]? = (List.ofFn fun i => (σ i).val)[i.val]? := by rw [h1]
  simpa using h2.symm

theorem Selects.length {L : List Nat} {σ : Fin k → Fin n} (h : Selects L σ) (he : L ≠ []) : L.length = k := by
  have h1 := h.list
  rw [if_neg he] at h1
  rw [h1, List.length_ofFn]

theorem Selects.mapAt {L : List Nat} {σ : Fin k → Fin n} (h : Selects L σ) (i : Fin k) : mapAt L i = (σ i).val := by
  unfold StateEstimation.mapAt
  by_cases he : L = []
  · rw [if_pos (by rw [he]; rfl), (h.isEmpty he).2 i]
  · have h1 := h.list
    rw [if_neg he] at h1
    rw [if_neg (by simpa using he), h1]
    simp

theorem Selects.mapSize {L : List Nat} {σ : Fin k → Fin n} (h : Selects L σ) : mapSize L n = k := by
  unfold StateEstimation.mapSize
  by_cases he : L = []
  · rw [if_pos (by rw [he]; rfl), (h.isEmpty he).1]
  · rw [if_neg (by simpa using he), h.length he]

theorem Selects.mapList {L : List Nat} {σ : Fin k → Fin n} (h : Selects L σ) : mapList L n = List.ofFn fun i => (σ i).val := by
  unfold StateEstimation.mapList
  rw [← h.list]
  by_cases he : L = []
  · rw [if_pos (by rw [he]; rfl), if_pos he]
  · rw [if_neg (by simpa using he), if_neg he]

theorem selects_nil : Selects [] (id : Fin n → Fin n) :=
  ⟨by rw [if_pos rfl]; apply List.ext_getElem <;> simp, Function.injective_id⟩

/-- Every sorted-out index list selects something. -/
theorem selects_of {L : List Nat} (hL : L ≠ []) (hn : L.Nodup) (hlt : ∀ i ∈ L, i < n) :
    ∃ σ : Fin L.length → Fin n, Selects L σ := by
  refine ⟨fun i => ⟨L[i], hlt _ (List.getElem_mem _)⟩, ⟨?_, ?_⟩⟩
  · rw [if_neg hL]; apply List.ext_getElem <;> simp
  · intro a b h
    injection h with h
    exact Fin.ext ((List.Nodup.getElem_inj_iff hn).mp h)

theorem getSubset_of {L : List Nat} {σ : Fin k → Fin n} (h : Selects L σ) (x : Fin n → ℝ) :
    getSubset (.of x) L = some (.of (x ∘ σ)) := by
  unfold getSubset
  by_cases he : L = []
  · rw [if_neg (by simp [he])]
    obtain ⟨h1, h2⟩ := h.isEmpty he
    subst h1
    have : σ = id := funext fun i => Fin.ext (h2 i)
    rw [this]; rfl
  · rw [if_pos (by simpa using he)]
    have h1 := h.length he
    subst h1
    rw [dif_pos (fun i => by rw [h.mapAt i]; exact (σ i).isLt)]
    congr 2
    funext i
    show x _ = x (σ i)
    congr 1
    exact Fin.ext (h.mapAt i)

theorem getSubset2_of {L M : List Nat} {σ : Fin k → Fin r} {τ : Fin l → Fin c} (h : Selects L σ) (h' : Selects M τ)
    (A : Matrix (Fin r) (Fin c) ℝ) : getSubset2 (.of A) L M = some (.of (A.submatrix σ τ)) := by
  unfold getSubset2
  by_cases he : L = [] ∧ M = []
  · rw [if_neg (by simp [he.1, he.2])]
    obtain ⟨h1, h2⟩ := h.isEmpty he.1
    obtain ⟨h3, h4⟩ := h'.isEmpty he.2
    subst h1 h3
    have e1 : σ = id := funext fun i => Fin.ext (h2 i)
    have e2 : τ = id := funext fun i => Fin.ext (h4 i)
    rw [e1, e2]; rfl
  · have hc : (!L.isEmpty || !M.isEmpty) = true := by
      by_cases h1 : L = []
      · have : M ≠ [] := fun h2 => he ⟨h1, h2⟩
        simp [this]
      · simp [h1]
    rw [if_pos hc]
    dsimp only [DMat.of_rows, DMat.of_cols]
    have e1 := h.mapSize
    have e2 := h'.mapSize
    have key : ∀ (a b : Nat) (ha : a = k) (hb : b = l),
        (if h : ∀ (i : Fin a) (j : Fin b), mapAt L i < r ∧ mapAt M j < c then
          some (⟨a, b, fun i j => A ⟨mapAt L i, (h i j).1⟩ ⟨mapAt M j, (h i j).2⟩⟩ : DMat) else none)
          = some (.of (A.submatrix σ τ)) := by
      intro a b ha hb
      subst ha hb
      rw [dif_pos (fun i j => ⟨by rw [h.mapAt i]; exact (σ i).isLt, by rw [h'.mapAt j]; exact (τ j).isLt⟩)]
      congr 2
      funext i j
      show A _ _ = A (σ i) (τ j)
      congr 1
      · exact Fin.ext (h.mapAt i)
      · exact Fin.ext (h'.mapAt j)
    exact key _ _ e1 e2

theorem getSubsetSq_of {L : List Nat} {σ : Fin k → Fin n} (h : Selects L σ)
    (A : Matrix (Fin n) (Fin n) ℝ) : getSubsetSq (.of A) L = some (.of (A.submatrix σ σ)) := by
  unfold getSubsetSq
  by_cases he : L = []
  · rw [if_neg (by simp [he])]
    obtain ⟨h1, h2⟩ := h.isEmpty he
    subst h1
    have e1 : σ = id := funext fun i => Fin.ext (h2 i)
    rw [e1]; rfl
  · rw [if_pos (by simpa using he)]
    have h1 := h.length he
    subst h1
    rw [dif_pos (fun i j => ⟨by rw [h.mapAt i]; exact (σ i).isLt, by rw [h.mapAt j]; exact (σ j).isLt⟩)]
    congr 2
    funext i j
    show A _ _ = A (σ i) (σ j)
    congr 1
    · exact Fin.ext (h.mapAt i)
    · exact Fin.ext (h.mapAt j)

/-! ### Writing back -/

theorem set_of (v : Fin n → ℝ) (i : Fin n) (c : ℝ) : (DVec.of v).set? i c = some (.of (Function.update v i c)) := by
  unfold DVec.set?
  rw [if_pos i.isLt]
  congr 2
  funext j
  show (if j.val = i.val then c else v j) = _
  by_cases h : j = i
  · rw [h, if_pos rfl, Function.update_self]
  · rw [if_neg (fun h' => h (Fin.ext h')), Function.update_of_ne h]

theorem get_of_fin (v : Fin n → ℝ) (i : Fin n) : (DVec.of v).get? i = some (v i) := by
  unfold DVec.get?
  rw [dif_pos i.isLt]

theorem get2_of (A : Matrix (Fin r) (Fin c) ℝ) (i : Fin r) (j : Fin c) : (DMat.of A).get? i j = some (A i j) := by
  unfold DMat.get?
  rw [dif_pos ⟨i.isLt, j.isLt⟩]

theorem set2_of (A : Matrix (Fin r) (Fin c) ℝ) (i : Fin r) (j : Fin c) (v : ℝ) :
    ∃ B : Matrix (Fin r) (Fin c) ℝ, (DMat.of A).set? i j v = some (.of B) ∧ B i j = v ∧
      ∀ a b, ¬ (i = a ∧ j = b) → B a b = A a b := by
  refine ⟨fun a b => if a.val = i.val ∧ b.val = j.val then v else A a b, ?_, ?_, ?_⟩
  · unfold DMat.set?
    rw [if_pos ⟨i.isLt, j.isLt⟩]
  · exact if_pos ⟨rfl, rfl⟩
  · intro a b h
    exact if_neg fun h' => h ⟨Fin.ext h'.1.symm, Fin.ext h'.2.symm⟩

theorem writeVec_of {σ : Fin k → Fin n} (hσ : Function.Injective σ) (v : Fin k → ℝ) : ∀ (fuel i : Nat) (full : Fin n → ℝ),
    i + fuel = k → ∃ full', writeVec (.of v) i ((List.ofFn fun j => (σ j).val).drop i) (.of full) = some (.of full') ∧
      (∀ j, i ≤ j.val → full' (σ j) = v j) ∧ ∀ a, (∀ j, i ≤ j.val → σ j ≠ a) → full' a = full a := by
  intro fuel
  induction fuel with
  | zero =>
    intro i full hi
    rw [List.drop_eq_nil_of_le (by simp; omega)]
    exact ⟨full, rfl, fun j hj => absurd j.isLt (by omega), fun _ _ => rfl⟩
  | succ fuel ih =>
    intro i full hi
    have hik : i < k := by omega
    rw [List.drop_eq_getElem_cons (by simpa using hik)]
    simp only [List.getElem_ofFn]
    unfold writeVec
    obtain ⟨f', h1, h2, h3⟩ := ih (i + 1) (Function.update full (σ ⟨i, hik⟩) (v ⟨i, hik⟩)) (by omega)
    refine ⟨f', ?_, ?_, ?_⟩
    · have e1 := get_of_fin v ⟨i, hik⟩
      simp only [Option.bind_eq_bind, e1, Option.bind_some, set_of]
      exact h1
    · intro j hj
      by_cases hji : j.val = i
      · have : j = ⟨i, hik⟩ := Fin.ext hji
        subst this
        rw [h3 (σ ⟨i, hik⟩), Function.update_self]
        intro j' hj' he
        have := hσ he
        rw [this] at hj'
        exact absurd hj' (by simp)
      · exact h2 j (by omega)
    · intro a ha
      rw [h3 a (fun j hj => ha j (by omega)), Function.update_of_ne]
      exact fun he => ha ⟨i, hik⟩ (Nat.le_refl _) he.symm

theorem writeVec_full {σ : Fin k → Fin n} (hσ : Function.Injective σ) (v : Fin k → ℝ) (full : Fin n → ℝ) :
    ∃ full', writeVec (.of v) 0 (List.ofFn fun j => (σ j).val) (.of full) = some (.of full') ∧ OverwritesVec σ v full full' := by
  obtain ⟨f', h1, h2, h3⟩ := writeVec_of hσ v k 0 full (by omega)
  rw [List.drop_zero] at h1
  exact ⟨f', h1, fun i => h2 i (Nat.zero_le _), fun a ha => h3 a fun j _ => ha j⟩

theorem OverwritesVec.eq {σ : Fin k → Fin n} {v : Fin k → ℝ} {full f g : Fin n → ℝ} (hf : OverwritesVec σ v full f)
    (hg : OverwritesVec σ v full g) : f = g := by
  funext a
  by_cases h : ∃ i, σ i = a
  · obtain ⟨i, rfl⟩ := h; rw [hf.selected, hg.selected]
  · rw [hf.others a fun i hi => h ⟨i, hi⟩, hg.others a fun i hi => h ⟨i, hi⟩]

theorem OverwritesMat.eq {σ : Fin k → Fin r} {τ : Fin l → Fin c} {S : Matrix (Fin k) (Fin l) ℝ}
    {full f g : Matrix (Fin r) (Fin c) ℝ} (hf : OverwritesMat σ τ S full f) (hg : OverwritesMat σ τ S full g) : f = g := by
  funext a b
  by_cases h : ∃ i j, σ i = a ∧ τ j = b
  · obtain ⟨i, j, rfl, rfl⟩ := h; rw [hf.selected, hg.selected]
  · rw [hf.others a b fun i j hi => h ⟨i, j, hi⟩, hg.others a b fun i j hi => h ⟨i, j, hi⟩]

theorem Selects.drop {L : List Nat} {σ : Fin k → Fin n} (h : Selects L σ) (he : L ≠ []) : L = List.ofFn fun j => (σ j).val := by
  have h1 := h.list
  rwa [if_neg he] at h1

theorem convertSubsetToFull_of {L : List Nat} {σ : Fin k → Fin n} (h : Selects L σ) (v : Fin k → ℝ) (full : Fin n → ℝ) :
    ∃ full', convertSubsetToFull (.of v) (.of full) L = some (.of full') ∧ OverwritesVec σ v full full' := by
  unfold convertSubsetToFull
  by_cases he : L = []
  · rw [if_neg (by simp [he])]
    obtain ⟨h1, h2⟩ := h.isEmpty he
    subst h1
    have e1 : σ = id := funext fun i => Fin.ext (h2 i)
    subst e1
    exact ⟨v, rfl, fun _ => rfl, fun a ha => absurd rfl (ha a)⟩
  · rw [if_pos (by simpa using he), h.drop he]
    exact writeVec_full h.inj v full

theorem convertSubsetToFullZeroed_of {L : List Nat} {σ : Fin k → Fin n} (h : Selects L σ) (v : Fin k → ℝ) :
    ∃ full', convertSubsetToFullZeroed (.of v) L n = some (.of full') ∧ OverwritesVec σ v 0 full' := by
  unfold convertSubsetToFullZeroed
  by_cases he : L = []
  · rw [if_neg (by simp [he])]
    obtain ⟨h1, h2⟩ := h.isEmpty he
    subst h1
    have e1 : σ = id := funext fun i => Fin.ext (h2 i)
    subst e1
    exact ⟨v, rfl, fun _ => rfl, fun a ha => absurd rfl (ha a)⟩
  · rw [if_pos (by simpa using he), h.drop he]
    exact writeVec_full h.inj v 0

theorem writeRow_of {τ : Fin l → Fin c} (hτ : Function.Injective τ) (S : Matrix (Fin k) (Fin l) ℝ) (i : Fin k) (row : Fin r) :
    ∀ (fuel j : Nat) (full : Matrix (Fin r) (Fin c) ℝ), j + fuel = l →
    ∃ full', writeRow (.of S) i row j ((List.ofFn fun j => (τ j).val).drop j) (.of full) = some (.of full') ∧
      (∀ b : Fin l, j ≤ b.val → full' row (τ b) = S i b) ∧
      ∀ a b, (∀ b' : Fin l, j ≤ b'.val → ¬ (row = a ∧ τ b' = b)) → full' a b = full a b := by
  intro fuel
  induction fuel with
  | zero =>
    intro j full hj
    rw [List.drop_eq_nil_of_le (by simp; omega)]
    exact ⟨full, rfl, fun b hb => absurd b.isLt (by omega), fun _ _ _ => rfl⟩
  | succ fuel ih =>
    intro j full hj
    have hjl : j < l := by omega
    rw [List.drop_eq_getElem_cons (by simpa using hjl)]
    simp only [List.getElem_ofFn]
    unfold writeRow
    obtain ⟨B, b1, b2, b3⟩ := set2_of full row (τ ⟨j, hjl⟩) (S i ⟨j, hjl⟩)
    obtain ⟨f', h1, h2, h3⟩ := ih (j + 1) B (by omega)
    refine ⟨f', ?_, ?_, ?_⟩
    · have e1 := get2_of S i ⟨j, hjl⟩
      simp only [Option.bind_eq_bind, e1, Option.bind_some, b1]
      exact h1
    · intro b hb
      by_cases hbj : b.val = j
      · have : b = ⟨j, hjl⟩ := Fin.ext hbj
        subst this
        rw [h3 row (τ ⟨j, hjl⟩), b2]
        rintro b' hb' ⟨_, he⟩
        have := hτ he
        rw [this] at hb'
        exact absurd hb' (by simp)
      · exact h2 b (by omega)
    · intro a b ha
      rw [h3 a b (fun b' hb' => ha b' (by omega)), b3 a b (ha ⟨j, hjl⟩ (Nat.le_refl _))]

theorem writeMat_of {σ : Fin k → Fin r} (hσ : Function.Injective σ) {τ : Fin l → Fin c} (hτ : Function.Injective τ)
    (S : Matrix (Fin k) (Fin l) ℝ) :
    ∀ (fuel i : Nat) (full : Matrix (Fin r) (Fin c) ℝ), i + fuel = k →
    ∃ full', writeMat (.of S) (List.ofFn fun j => (τ j).val) i ((List.ofFn fun j => (σ j).val).drop i) (.of full)
        = some (.of full') ∧
      (∀ (a : Fin k) (b : Fin l), i ≤ a.val → full' (σ a) (τ b) = S a b) ∧
      ∀ a b, (∀ (a' : Fin k) (b' : Fin l), i ≤ a'.val → ¬ (σ a' = a ∧ τ b' = b)) → full' a b = full a b := by
  intro fuel
  induction fuel with
  | zero =>
    intro i full hi
    rw [List.drop_eq_nil_of_le (by simp; omega)]
    exact ⟨full, rfl, fun a _ ha => absurd a.isLt (by omega), fun _ _ _ => rfl⟩
  | succ fuel ih =>
    intro i full hi
    have hik : i < k := by omega
    rw [List.drop_eq_getElem_cons (by simpa using hik)]
    simp only [List.getElem_ofFn]
    unfold writeMat
    obtain ⟨B, b1, b2, b3⟩ := writeRow_of hτ S ⟨i, hik⟩ (σ ⟨i, hik⟩) l 0 full (by omega)
    rw [List.drop_zero] at b1
    obtain ⟨f', h1, h2, h3⟩ := ih (i + 1) B (by omega)
    refine ⟨f', ?_, ?_, ?_⟩
    · simp only [Option.bind_eq_bind, b1, Option.bind_some]
      exact h1
    · intro a b ha
      by_cases hai : a.val = i
      · have : a = ⟨i, hik⟩ := Fin.ext hai
        subst this
        rw [h3 (σ ⟨i, hik⟩) (τ b), b2 b (Nat.zero_le _)]
        rintro a' b' ha' ⟨he, _⟩
        have := hσ he
        rw [this] at ha'
        exact absurd ha' (by simp)
      · exact h2 a b (by omega)
    · intro a b ha
      rw [h3 a b (fun a' b' h' => ha a' b' (by omega)), b3 a b (fun b' _ => ha ⟨i, hik⟩ b' (Nat.le_refl _))]

theorem writeMat_full {σ : Fin k → Fin r} (hσ : Function.Injective σ) {τ : Fin l → Fin c} (hτ : Function.Injective τ)
    (S : Matrix (Fin k) (Fin l) ℝ) (full : Matrix (Fin r) (Fin c) ℝ) :
    ∃ full', writeMat (.of S) (List.ofFn fun j => (τ j).val) 0 (List.ofFn fun j => (σ j).val) (.of full)
        = some (.of full') ∧ OverwritesMat σ τ S full full' := by
  obtain ⟨f', h1, h2, h3⟩ := writeMat_of hσ hτ S k 0 full (by omega)
  rw [List.drop_zero] at h1
  exact ⟨f', h1, fun i j => h2 i j (Nat.zero_le _), fun a b ha => h3 a b fun i j _ => ha i j⟩

theorem convertSubsetToFullSq_of {L : List Nat} {σ : Fin k → Fin n} (h : Selects L σ) (S : Matrix (Fin k) (Fin k) ℝ)
    (full : Matrix (Fin n) (Fin n) ℝ) :
    ∃ full', convertSubsetToFullSq (.of S) (.of full) L = some (.of full') ∧ OverwritesMat σ σ S full full' := by
  unfold convertSubsetToFullSq
  by_cases he : L = []
  · rw [if_neg (by simp [he])]
    obtain ⟨h1, h2⟩ := h.isEmpty he
    subst h1
    have e1 : σ = id := funext fun i => Fin.ext (h2 i)
    subst e1
    exact ⟨S, rfl, fun _ _ => rfl, fun a b ha => absurd ⟨rfl, rfl⟩ (ha a b)⟩
  · rw [if_pos (by simpa using he), h.drop he]
    exact writeMat_full h.inj h.inj S full

theorem convertSubsetToFullZeroedSq_of {L : List Nat} {σ : Fin k → Fin n} (h : Selects L σ) (S : Matrix (Fin k) (Fin k) ℝ) :
    ∃ full', convertSubsetToFullZeroedSq (.of S) L n = some (.of full') ∧ OverwritesMat σ σ S 0 full' := by
  unfold convertSubsetToFullZeroedSq
  by_cases he : L = []
  · rw [if_neg (by simp [he])]
    obtain ⟨h1, h2⟩ := h.isEmpty he
    subst h1
    have e1 : σ = id := funext fun i => Fin.ext (h2 i)
    subst e1
    exact ⟨S, rfl, fun _ _ => rfl, fun a b ha => absurd ⟨rfl, rfl⟩ (ha a b)⟩
  · rw [if_pos (by simpa using he), h.drop he]
    exact writeMat_full h.inj h.inj S 0

theorem nonempty_or {L M : List Nat} (he : ¬ (L = [] ∧ M = [])) : (!L.isEmpty || !M.isEmpty) = true := by
  by_cases h1 : L = []
  · have : M ≠ [] := fun h2 => he ⟨h1, h2⟩
    simp [this]
  · simp [h1]

theorem convertSubsetToFull2_of {L M : List Nat} {σ : Fin k → Fin r} {τ : Fin l → Fin c} (h : Selects L σ) (h' : Selects M τ)
    (S : Matrix (Fin k) (Fin l) ℝ) (full : Matrix (Fin r) (Fin c) ℝ) :
    ∃ full', convertSubsetToFull2 (.of S) (.of full) L M = some (.of full') ∧ OverwritesMat σ τ S full full' := by
  unfold convertSubsetToFull2
  by_cases he : L = [] ∧ M = []
  · rw [if_neg (by simp [he.1, he.2])]
    obtain ⟨h1, h2⟩ := h.isEmpty he.1
    obtain ⟨h3, h4⟩ := h'.isEmpty he.2
    subst h1 h3
    have e1 : σ = id := funext fun i => Fin.ext (h2 i)
    have e2 : τ = id := funext fun i => Fin.ext (h4 i)
    subst e1 e2
    exact ⟨S, rfl, fun _ _ => rfl, fun a b ha => absurd ⟨rfl, rfl⟩ (ha a b)⟩
  · rw [if_pos (nonempty_or he)]
    dsimp only [DMat.of_rows, DMat.of_cols]
    rw [h.mapList, h'.mapList]
    exact writeMat_full h.inj h'.inj S full

theorem convertSubsetToFullZeroed2_of {L M : List Nat} {σ : Fin k → Fin r} {τ : Fin l → Fin c} (h : Selects L σ) (h' : Selects M τ)
    (S : Matrix (Fin k) (Fin l) ℝ) :
    ∃ full', convertSubsetToFullZeroed2 (.of S) L M r c = some (.of full') ∧ OverwritesMat σ τ S 0 full' := by
  unfold convertSubsetToFullZeroed2
  by_cases he : L = [] ∧ M = []
  · rw [if_neg (by simp [he.1, he.2])]
    obtain ⟨h1, h2⟩ := h.isEmpty he.1
    obtain ⟨h3, h4⟩ := h'.isEmpty he.2
    subst h1 h3
    have e1 : σ = id := funext fun i => Fin.ext (h2 i)
    have e2 : τ = id := funext fun i => Fin.ext (h4 i)
    subst e1 e2
    exact ⟨S, rfl, fun _ _ => rfl, fun a b ha => absurd ⟨rfl, rfl⟩ (ha a b)⟩
  · rw [if_pos (nonempty_or he), h.mapList, h'.mapList]
    exact writeMat_full h.inj h'.inj S 0

end StateEstimation
