import Verif.Lemmas.Subset
import Verif.Model.VS

/-!
# C43-C45: subsets of vectors and matrices, and the active index lists
-/

namespace StateEstimation.Props

open StateEstimation Matrix

/-- A usable index list for `n` entries: no index twice, no index out of range. -/
def Usable (map : List Nat) (n : Nat) : Prop := map.Nodup ∧ ∀ i ∈ map, i < n

/-- How many entries a list stands for: the empty list means all. -/
def countOf (map : List Nat) (n : Nat) : Nat := if map = [] then n else map.length

theorem Usable.selects {map : List Nat} {n : Nat} (h : Usable map n) :
    ∃ σ : Fin (countOf map n) → Fin n, Selects map σ := by
  unfold countOf
  by_cases he : map = []
  · rw [if_pos he, he]; exact ⟨id, selects_nil⟩
  · rw [if_neg he]; exact selects_of he h.1 h.2

theorem selected_mem {map : List Nat} {n k : Nat} {σ : Fin k → Fin n} (h : Selects map σ) (a : Fin n) :
    (map ≠ [] ∧ a.val ∉ map) ↔ ∀ i, σ i ≠ a := by
  by_cases he : map = []
  · obtain ⟨hk, hv⟩ := h.isEmpty he
    subst hk
    constructor
    · intro h1; exact absurd he h1.1
    · intro h1; exact absurd (Fin.ext (hv a)) (h1 a)
  · constructor
    · rintro ⟨_, h2⟩ i rfl
      exact h2 (by rw [h.drop he, List.mem_ofFn]; exact ⟨i, rfl⟩)
    · intro h1
      refine ⟨he, fun h2 => ?_⟩
      rw [h.drop he, List.mem_ofFn] at h2
      obtain ⟨i, hi⟩ := h2
      exact h1 i (Fin.ext hi)

/-- The specification of inserting a subset into a vector: entry `map[j]` of the result is entry `j` of the subset, all
entries not named by the map are those of `full`. -/
structure Inserted (sub full : DVec) (map : List Nat) (r : DVec) : Prop where
  size : r.size = full.size
  named : ∀ j i : Nat, (if map = [] then some j else map[j]?) = some i → r.get? i = sub.get? j
  others : ∀ a : Nat, map ≠ [] → a ∉ map → r.get? a = full.get? a

/-- Same for a matrix: an entry is named if its row and its column are. -/
structure InsertedMat (sub full : DMat) (rowMap colMap : List Nat) (r : DMat) : Prop where
  size : r.Is full.rows full.cols
  named : ∀ i a j b : Nat, (if rowMap = [] then some i else rowMap[i]?) = some a →
    (if colMap = [] then some j else colMap[j]?) = some b → r.get? a b = sub.get? i j
  others : ∀ a b : Nat, (rowMap ≠ [] ∧ a ∉ rowMap) ∨ (colMap ≠ [] ∧ b ∉ colMap) → r.get? a b = full.get? a b

theorem named_iff {map : List Nat} {n k : Nat} {σ : Fin k → Fin n} (h : Selects map σ) {j i : Nat}
    (hj : (if map = [] then some j else map[j]?) = some i) :
    (∃ hk : j < k, i = (σ ⟨j, hk⟩).val) ∨ (k ≤ j ∧ n ≤ i) := by
  by_cases he : map = []
  · obtain ⟨hk, hv⟩ := h.isEmpty he
    subst hk
    rw [if_pos he] at hj
    injection hj with hj
    subst hj
    rcases Nat.lt_or_ge j k with h1 | h1
    · exact .inl ⟨h1, (hv ⟨j, h1⟩).symm⟩
    · exact .inr ⟨h1, h1⟩
  · rw [if_neg he, h.drop he] at hj
    rw [List.getElem?_ofFn] at hj
    split at hj
    next h1 => injection hj with hj; exact .inl ⟨h1, hj.symm⟩
    next => cases hj

theorem inserted_of {map : List Nat} {n k : Nat} {σ : Fin k → Fin n} (h : Selects map σ) {v : Fin k → ℝ} {f f' : Fin n → ℝ}
    (ho : OverwritesVec σ v f f') : Inserted (.of v) (.of f) map (.of f') where
  size := rfl
  named j i hj := by
    rcases named_iff h hj with ⟨hk, rfl⟩ | ⟨h1, h2⟩
    · rw [get_of_fin, ho.selected]
      exact (get_of_fin v ⟨j, hk⟩).symm
    · unfold DVec.get?
      rw [dif_neg (by simpa using h2), dif_neg (by simpa using h1)]
  others a h1 h2 := by
    by_cases ha : a < n
    · have := ho.others ⟨a, ha⟩ ((selected_mem h ⟨a, ha⟩).mp ⟨h1, h2⟩)
      exact ((get_of_fin f' ⟨a, ha⟩).trans (congrArg some this)).trans (get_of_fin f ⟨a, ha⟩).symm
    · unfold DVec.get?
      rw [dif_neg (by simpa using ha), dif_neg (by simpa using ha)]

theorem insertedMat_of {L M : List Nat} {r c k l : Nat} {σ : Fin k → Fin r} {τ : Fin l → Fin c} (h : Selects L σ)
    (h' : Selects M τ) {S : Matrix (Fin k) (Fin l) ℝ} {f f' : Matrix (Fin r) (Fin c) ℝ}
    (ho : OverwritesMat σ τ S f f') : InsertedMat (.of S) (.of f) L M (.of f') where
  size := ⟨rfl, rfl⟩
  named i a j b hi hj := by
    rcases named_iff h hi with ⟨hk, rfl⟩ | ⟨h1, h2⟩
    · rcases named_iff h' hj with ⟨hk', rfl⟩ | ⟨h1, h2⟩
      · rw [get2_of, ho.selected]
        exact (get2_of S ⟨i, hk⟩ ⟨j, hk'⟩).symm
      · unfold DMat.get?
        rw [dif_neg fun h => absurd h.2 (by simpa using h2), dif_neg fun h => absurd h.2 (by simpa using h1)]
    · unfold DMat.get?
      rw [dif_neg fun h => absurd h.1 (by simpa using h2), dif_neg fun h => absurd h.1 (by simpa using h1)]
  others a b hab := by
    by_cases ha : a < r ∧ b < c
    · have := ho.others ⟨a, ha.1⟩ ⟨b, ha.2⟩ (by
        rintro i j ⟨h1, h2⟩
        rcases hab with h3 | h3
        · exact (selected_mem h ⟨a, ha.1⟩).mp h3 i h1
        · exact (selected_mem h' ⟨b, ha.2⟩).mp h3 j h2)
      exact ((get2_of f' ⟨a, ha.1⟩ ⟨b, ha.2⟩).trans (congrArg some this)).trans (get2_of f ⟨a, ha.1⟩ ⟨b, ha.2⟩).symm
    · unfold DMat.get?
      rw [dif_neg ha, dif_neg ha]

/-- C43, vectors: inserting a subset changes exactly the named entries, and extracting it again gives it back. -/
theorem C43_insert_vector (sub full : DVec) (map : List Nat) (hm : Usable map full.size)
    (hs : sub.size = countOf map full.size) :
    ∃ r, convertSubsetToFull sub full map = some r ∧ Inserted sub full map r ∧ getSubset r map = some sub := by
  obtain ⟨n, f⟩ := full
  obtain ⟨v, rfl⟩ := sub.exists_of hs
  obtain ⟨σ, hσ⟩ := hm.selects
  obtain ⟨f', h1, h2⟩ := convertSubsetToFull_of hσ v f
  refine ⟨.of f', h1, inserted_of hσ h2, ?_⟩
  rw [getSubset_of hσ, show f' ∘ σ = v from funext h2.selected]

/-- C43, vectors: inserting what was extracted changes nothing. -/
theorem C43_extract_vector (full : DVec) (map : List Nat) (hm : Usable map full.size) :
    ∃ s, getSubset full map = some s ∧ s.size = countOf map full.size ∧ convertSubsetToFull s full map = some full := by
  obtain ⟨n, f⟩ := full
  obtain ⟨σ, hσ⟩ := hm.selects
  refine ⟨_, getSubset_of hσ f, rfl, ?_⟩
  obtain ⟨f', h1, h2⟩ := convertSubsetToFull_of hσ (f ∘ σ) f
  rw [h1, h2.eq (g := f) ⟨fun _ => rfl, fun _ _ => rfl⟩]

/-- C43, vectors: the zeroed form inserts into a zero vector. -/
theorem C43_zeroed_vector (sub : DVec) (n : Nat) (map : List Nat) (hm : Usable map n) (hs : sub.size = countOf map n) :
    ∃ r, convertSubsetToFullZeroed sub map n = some r ∧ Inserted sub (DVec.zero n) map r ∧ getSubset r map = some sub := by
  obtain ⟨v, rfl⟩ := sub.exists_of hs
  obtain ⟨σ, hσ⟩ := hm.selects
  obtain ⟨f', h1, h2⟩ := convertSubsetToFullZeroed_of hσ v
  refine ⟨.of f', h1, inserted_of hσ h2, ?_⟩
  rw [getSubset_of hσ, show f' ∘ σ = v from funext h2.selected]

/-- C43, matrices with separate row and column maps. -/
theorem C43_insert_matrix (sub full : DMat) (rowMap colMap : List Nat) (hr : Usable rowMap full.rows)
    (hc : Usable colMap full.cols) (hs : sub.Is (countOf rowMap full.rows) (countOf colMap full.cols)) :
    ∃ r, convertSubsetToFull2 sub full rowMap colMap = some r ∧ InsertedMat sub full rowMap colMap r ∧
      getSubset2 r rowMap colMap = some sub := by
  obtain ⟨r, c, f⟩ := full
  obtain ⟨v, rfl⟩ := sub.exists_of hs.1 hs.2
  obtain ⟨σ, hσ⟩ := hr.selects
  obtain ⟨τ, hτ⟩ := hc.selects
  obtain ⟨f', h1, h2⟩ := convertSubsetToFull2_of hσ hτ v f
  refine ⟨.of f', h1, insertedMat_of hσ hτ h2, ?_⟩
  rw [getSubset2_of hσ hτ, show f'.submatrix σ τ = v from Matrix.ext h2.selected]

/-- C43, matrices: inserting what was extracted changes nothing. -/
theorem C43_extract_matrix (full : DMat) (rowMap colMap : List Nat) (hr : Usable rowMap full.rows)
    (hc : Usable colMap full.cols) :
    ∃ s, getSubset2 full rowMap colMap = some s ∧ s.Is (countOf rowMap full.rows) (countOf colMap full.cols) ∧
      convertSubsetToFull2 s full rowMap colMap = some full := by
  obtain ⟨r, c, f⟩ := full
  obtain ⟨σ, hσ⟩ := hr.selects
  obtain ⟨τ, hτ⟩ := hc.selects
  refine ⟨_, getSubset2_of hσ hτ f, ⟨rfl, rfl⟩, ?_⟩
  obtain ⟨f', h1, h2⟩ := convertSubsetToFull2_of hσ hτ (f.submatrix σ τ) f
  rw [h1, h2.eq (g := f) ⟨fun _ _ => rfl, fun _ _ _ => rfl⟩]

/-- C43, matrices: the zeroed form with two maps. -/
theorem C43_zeroed_matrix (sub : DMat) (m n : Nat) (rowMap colMap : List Nat) (hr : Usable rowMap m)
    (hc : Usable colMap n) (hs : sub.Is (countOf rowMap m) (countOf colMap n)) :
    ∃ r, convertSubsetToFullZeroed2 sub rowMap colMap m n = some r ∧ InsertedMat sub (DMat.zero m n) rowMap colMap r ∧
      getSubset2 r rowMap colMap = some sub := by
  obtain ⟨v, rfl⟩ := sub.exists_of hs.1 hs.2
  obtain ⟨σ, hσ⟩ := hr.selects
  obtain ⟨τ, hτ⟩ := hc.selects
  obtain ⟨f', h1, h2⟩ := convertSubsetToFullZeroed2_of hσ hτ v
  refine ⟨.of f', h1, insertedMat_of hσ hτ h2, ?_⟩
  rw [getSubset2_of hσ hτ, show f'.submatrix σ τ = v from Matrix.ext h2.selected]

/-- C43, square matrices with one map: all three functions at once. -/
theorem C43_square (sub full : DMat) (n : Nat) (map : List Nat) (hf : full.Is n n) (hm : Usable map n)
    (hs : sub.Is (countOf map n) (countOf map n)) :
    (∃ r, convertSubsetToFullSq sub full map = some r ∧ InsertedMat sub full map map r ∧ getSubsetSq r map = some sub) ∧
    (∃ s, getSubsetSq full map = some s ∧ convertSubsetToFullSq s full map = some full) ∧
    (∃ r, convertSubsetToFullZeroedSq sub map n = some r ∧ InsertedMat sub (DMat.zero n n) map map r ∧
      getSubsetSq r map = some sub) := by
  obtain ⟨f, rfl⟩ := full.exists_of hf.1 hf.2
  obtain ⟨v, rfl⟩ := sub.exists_of hs.1 hs.2
  obtain ⟨σ, hσ⟩ := hm.selects
  obtain ⟨f', h1, h2⟩ := convertSubsetToFullSq_of hσ v f
  obtain ⟨g, g1, g2⟩ := convertSubsetToFullSq_of hσ (f.submatrix σ σ) f
  obtain ⟨w, w1, w2⟩ := convertSubsetToFullZeroedSq_of hσ v
  refine ⟨⟨.of f', h1, insertedMat_of hσ hσ h2, ?_⟩, ⟨_, getSubsetSq_of hσ f, ?_⟩,
    ⟨.of w, w1, insertedMat_of hσ hσ w2, ?_⟩⟩
  · rw [getSubsetSq_of hσ, show f'.submatrix σ σ = v from Matrix.ext h2.selected]
  · rw [g1, g2.eq (g := f) ⟨fun _ _ => rfl, fun _ _ _ => rfl⟩]
  · rw [getSubsetSq_of hσ, show w.submatrix σ σ = v from Matrix.ext w2.selected]

/-- C43: the empty map means "everything". -/
theorem C43_empty_map (x y : DVec) (A B : DMat) :
    getSubset x [] = some x ∧ convertSubsetToFull y x [] = some y ∧ getSubset2 A [] [] = some A ∧
    convertSubsetToFull2 B A [] [] = some B ∧ getSubsetSq A [] = some A ∧ convertSubsetToFullSq B A [] = some B :=
  ⟨rfl, rfl, rfl, rfl, rfl, rfl⟩

/-- The hypotheses are satisfiable: the map `2, 0` of a vector with 4 entries. -/
example : Usable [2, 0] 4 ∧ countOf [2, 0] 4 = 2 ∧ Usable [] 4 ∧ countOf [] 4 = 4 := by
  unfold Usable countOf; decide

/-! ### C44 -/

theorem validIndices_eq (n : Nat) (l : List Nat) : validIndices n l = l.filter (· < n) := by
  induction l with
  | nil => rfl
  | cons a l ih => unfold validIndices; rw [ih]; by_cases h : a < n <;> simp [h]

theorem markUsed_length (u : List Bool) (i : Nat) : (markUsed u i).length = u.length := by
  induction u generalizing i with
  | nil => rfl
  | cons a u ih => cases i <;> simp [markUsed, ih]

theorem markUsed_get (u : List Bool) (i j : Nat) (hj : j < u.length) :
    (markUsed u i)[j]? = some (decide (j = i) || u[j]) := by
  induction u generalizing i j with
  | nil => simp at hj
  | cons a u ih =>
    cases i with
    | zero => cases j <;> simp [markUsed] <;> simpa using hj
    | succ i =>
      cases j with
      | zero => simp [markUsed]
      | succ j => simp only [markUsed, List.getElem?_cons_succ, List.getElem_cons_succ]; rw [ih i j (by simpa using hj)]; simp

theorem foldl_markUsed (l : List Nat) (u : List Bool) :
    (l.foldl markUsed u).length = u.length ∧
    ∀ j (hj : j < u.length), (l.foldl markUsed u)[j]? = some (decide (j ∈ l) || u[j]) := by
  induction l generalizing u with
  | nil => exact ⟨rfl, fun j hj => by simp [hj]⟩
  | cons a l ih =>
    obtain ⟨h1, h2⟩ := ih (markUsed u a)
    refine ⟨h1.trans (markUsed_length u a), fun j hj => ?_⟩
    have hj' : j < (markUsed u a).length := by rwa [markUsed_length]
    have h3 := markUsed_get u a j hj
    rw [List.getElem?_eq_getElem hj'] at h3
    injection h3 with h3
    rw [List.foldl_cons, h2 j hj', h3]
    by_cases e1 : j = a <;> by_cases e2 : j ∈ l <;> simp [e1, e2]

/-- What an active list and its usage marks must be after setting them to `l` for `n` indices: ascending, with every
in-range entry of `l` as often as `l` has it and nothing else; one usage mark per index, set exactly for the entries of
the list - or for all indices if there are none. -/
structure Normalised (n : Nat) (l active : List Nat) (usage : List Bool) : Prop where
  ascending : active.Pairwise (· ≤ ·)
  entries : ∀ i, active.count i = if i < n then l.count i else 0
  marks : usage.length = n
  used : ∀ i, i < n → usage[i]? = some (decide (i ∈ l ∨ ∀ j ∈ l, n ≤ j))

theorem usageOf_get (l : List Nat) (n : Nat) (u : List Bool) (hu : u.length = n) :
    (usageOf u (validIndices n l)).length = n ∧
    ∀ i, i < n → (usageOf u (validIndices n l))[i]? = some (decide (i ∈ l ∨ ∀ j ∈ l, n ≤ j)) := by
  unfold usageOf
  rw [validIndices_eq]
  by_cases he : l.filter (· < n) = []
  · rw [he, if_neg (by simp)]
    refine ⟨by simpa using hu, fun i hi => ?_⟩
    have h : ∀ j ∈ l, n ≤ j := by
      rw [List.filter_eq_nil_iff] at he
      intro j hj; simpa using he j hj
    rw [List.getElem?_map, List.getElem?_eq_getElem (by omega)]
    simp only [Option.map_some, Option.some.injEq]
    exact (decide_eq_true (Or.inr h)).symm
  · rw [if_pos (by simpa using he)]
    obtain ⟨h1, h2⟩ := foldl_markUsed (l.filter (· < n)) (u.map fun _ => false)
    refine ⟨by rw [h1]; simpa using hu, fun i hi => ?_⟩
    rw [h2 i (by simpa [hu] using hi)]
    have h : ¬ ∀ j ∈ l, n ≤ j := by
      intro h; apply he; rw [List.filter_eq_nil_iff]; intro j hj; simpa using h j hj
    by_cases e : i ∈ l <;> simp [e, hi, -not_forall] <;> first | (push Not at h; simpa using h) | skip

theorem sortIndices_normal (n : Nat) (l : List Nat) :
    (sortIndices (validIndices n l)).Pairwise (· ≤ ·) ∧
    ∀ i, (sortIndices (validIndices n l)).count i = if i < n then l.count i else 0 := by
  unfold sortIndices
  refine ⟨List.pairwise_insertionSort _ _, fun i => ?_⟩
  rw [(List.perm_insertionSort _ _).count_eq, validIndices_eq]
  by_cases h : i < n
  · rw [if_pos h, List.count_filter (by simpa using h)]
  · rw [if_neg h, List.count_eq_zero]
    intro h'; simp at h'; exact h h'.2

/-- C44 for states. -/
theorem C44_states (f : FilterModel) (l : List Nat) (hu : f.stateUsage.length = f.stateDims) :
    Normalised f.stateDims l (f.setActiveStates l).activeStates (f.setActiveStates l).stateUsage :=
  have h := sortIndices_normal f.stateDims l
  have g := usageOf_get l f.stateDims f.stateUsage hu
  ⟨h.1, h.2, g.1, g.2⟩

/-- C44 for controls. -/
theorem C44_controls {D X : Type} (s : Sys D X) (l : List Nat) (hu : s.controlUsage.length = s.controlDims) :
    Normalised s.controlDims l (s.setActiveControls l).activeControls (s.setActiveControls l).controlUsage :=
  have h := sortIndices_normal s.controlDims l
  have g := usageOf_get l s.controlDims s.controlUsage hu
  ⟨h.1, h.2, g.1, g.2⟩

/-- C44 for measurements. -/
theorem C44_measurements {D X : Type} (s : Meas D X) (l : List Nat) (hu : s.measurementUsage.length = s.measDims) :
    Normalised s.measDims l (s.setActiveMeasurements l).activeMeasurements (s.setActiveMeasurements l).measurementUsage :=
  have h := sortIndices_normal s.measDims l
  have g := usageOf_get l s.measDims s.measurementUsage hu
  ⟨h.1, h.2, g.1, g.2⟩

/-- C44: the hypothesis on the usage marks holds of every object, however it was configured: the constructors establish
it and the setters keep it. -/
theorem C44_marks_always_sized {D X : Type} (n m p k : Nat) (d : D) (e : X) :
    (FilterModel.construct n).stateUsage.length = n ∧ (FilterModel.construct n).stateDims = n ∧
    (Sys.construct n m p d e).controlUsage.length = m ∧ (Sys.construct n m p d e).controlDims = m ∧
    (Meas.construct n k d e).measurementUsage.length = k ∧ (Meas.construct n k d e).measDims = k := by
  refine ⟨(usageOf_get [] n _ (by simp)).1, rfl, (usageOf_get [] m _ (by simp)).1, rfl, (usageOf_get [] k _ (by simp)).1, rfl⟩

/-- C44: an empty list means every index is used, and the number of active states is the number of states. -/
theorem C44_empty_means_all (f : FilterModel) (hu : f.stateUsage.length = f.stateDims) :
    (f.setActiveStates []).activeStateSize = f.stateDims ∧
    ∀ i, i < f.stateDims → (f.setActiveStates []).stateUsage[i]? = some true :=
  ⟨rfl, fun i hi => by rw [(C44_states f [] hu).used i hi]; simp⟩

/-- How many entries a list of in-range indices has, counted by the usage marks. -/
theorem marks_count (n : Nat) (l : List Nat) (hl : l.Nodup) (u : List Bool) (hu : u.length = n) :
    (if (sortIndices (validIndices n l)).isEmpty then n else (sortIndices (validIndices n l)).length) =
      (usageOf u (validIndices n l)).count true := by
  obtain ⟨h1, h2⟩ := usageOf_get l n u hu
  have hmap : usageOf u (validIndices n l) = (List.range n).map fun i => decide (i ∈ l ∨ ∀ j ∈ l, n ≤ j) := by
    apply List.ext_getElem?
    intro i
    by_cases hi : i < n
    · rw [h2 i hi, List.getElem?_map, List.getElem?_range hi]
      rfl
    · rw [List.getElem?_eq_none (by omega), List.getElem?_eq_none (by simpa using hi)]
  have hlen : (sortIndices (validIndices n l)).length = (l.filter (· < n)).length := by
    unfold sortIndices
    rw [List.length_insertionSort, validIndices_eq]
  rw [hmap, List.count, List.countP_map]
  simp only [List.isEmpty_iff_length_eq_zero, hlen]
  by_cases he : l.filter (· < n) = []
  · have h : ∀ j ∈ l, n ≤ j := by
      rw [List.filter_eq_nil_iff] at he
      intro j hj; simpa using he j hj
    rw [he, if_pos (by simp)]
    rw [List.countP_eq_length.mpr]
    · simp
    · intro i _
      simp only [Function.comp, beq_iff_eq, decide_eq_true_eq]
      exact Or.inr h
  · rw [if_neg (by simpa using he)]
    have h : ¬ ∀ j ∈ l, n ≤ j := by
      intro h; apply he; rw [List.filter_eq_nil_iff]; intro j hj; simpa using h j hj
    rw [List.countP_eq_length_filter]
    refine List.Perm.length_eq ((List.perm_ext_iff_of_nodup (hl.filter _) (List.nodup_range.filter _)).mpr fun i => ?_)
    simp [-not_forall, h, and_comm]

/-- C44: `activeStateSize()`, `activeControlSize()` and `activeMeasurementSize()` are the number of usage marks that are
set, after `setActive*` with any list that names no index twice. -/
theorem C44_sizes {D X : Type} (f : FilterModel) (s : Sys D X) (m : Meas D X) (l : List Nat) (hl : l.Nodup)
    (hf : f.stateUsage.length = f.stateDims) (hs : s.controlUsage.length = s.controlDims)
    (hm : m.measurementUsage.length = m.measDims) :
    (f.setActiveStates l).activeStateSize = (f.setActiveStates l).stateUsage.count true ∧
    (s.setActiveControls l).activeControlSize = (s.setActiveControls l).controlUsage.count true ∧
    (m.setActiveMeasurements l).activeMeasurementSize = (m.setActiveMeasurements l).measurementUsage.count true :=
  ⟨marks_count _ l hl _ hf, marks_count _ l hl _ hs, marks_count _ l hl _ hm⟩

/-- C44: a freshly constructed model uses all its states, controls and measurements. -/
theorem C44_all_at_construction {D X : Type} (n m p k : Nat) (d : D) (e : X) :
    (FilterModel.construct n).activeStateSize = n ∧ (Sys.construct n m p d e).activeStateSize = n ∧
    (Sys.construct n m p d e).activeControlSize = m ∧ (Meas.construct n k d e).activeMeasurementSize = k ∧
    (FilterModel.construct n).stateUsage = List.replicate n true ∧
    (Sys.construct n m p d e).controlUsage = List.replicate m true ∧
    (Meas.construct n k d e).measurementUsage = List.replicate k true := by
  refine ⟨rfl, rfl, rfl, rfl, ?_, ?_, ?_⟩ <;> exact List.map_replicate

/-- C44: lists without repeated indices become usable maps. -/
theorem C44_usable (f : FilterModel) (l : List Nat) (hl : l.Nodup) :
    Usable (f.setActiveStates l).activeStates f.stateDims := by
  obtain ⟨h1, h2⟩ := sortIndices_normal f.stateDims l
  constructor
  · rw [List.nodup_iff_count_le_one]
    intro i
    show (sortIndices (validIndices f.stateDims l)).count i ≤ 1
    rw [h2]
    split
    · exact List.nodup_iff_count_le_one.mp hl i
    · exact Nat.zero_le _
  · intro i hi
    by_contra h
    have := h2 i
    rw [if_neg h, List.count_eq_zero] at this
    exact this hi

example : ((Sys.construct 4 3 1 () () : Sys Unit Unit).setActiveControls [2, 0]).activeControlSize = 2 := by decide +kernel
example : ((FilterModel.construct 4).setActiveStates [3, 9, 1]).activeStates = [1, 3] := by decide
example : ((FilterModel.construct 4).setActiveStates [3, 9, 1]).stateUsage = [false, true, false, true] := by decide

/-! ### C45 -/

/-- C45, the part that holds: out-of-range indices next to usable ones, and the order of the list, do not matter. -/
theorem C45_invalid_ignored_partial (f : FilterModel) (l l' : List Nat)
    (h : (l.filter (· < f.stateDims)).Perm (l'.filter (· < f.stateDims))) :
    f.setActiveStates l = f.setActiveStates l' := by
  have h1 : sortIndices (validIndices f.stateDims l) = sortIndices (validIndices f.stateDims l') := by
    unfold sortIndices
    rw [validIndices_eq, validIndices_eq]
    exact List.Perm.eq_of_pairwise (le := (· ≤ ·)) (fun a b _ _ => Nat.le_antisymm) (List.pairwise_insertionSort _ _)
      (List.pairwise_insertionSort _ _) ((List.perm_insertionSort _ _).trans (h.trans (List.perm_insertionSort _ _).symm))
  have h2 : usageOf f.stateUsage (validIndices f.stateDims l) = usageOf f.stateUsage (validIndices f.stateDims l') := by
    unfold usageOf
    rw [validIndices_eq, validIndices_eq]
    have he : (l.filter (· < f.stateDims)).isEmpty = (l'.filter (· < f.stateDims)).isEmpty := h.isEmpty_eq
    rw [he]
    split
    · obtain ⟨a1, a2⟩ := foldl_markUsed (l.filter (· < f.stateDims)) (f.stateUsage.map fun _ => false)
      obtain ⟨b1, b2⟩ := foldl_markUsed (l'.filter (· < f.stateDims)) (f.stateUsage.map fun _ => false)
      apply List.ext_getElem?
      intro i
      by_cases hi : i < (f.stateUsage.map fun _ => false).length
      · rw [a2 i hi, b2 i hi]
        have : i ∈ l.filter (· < f.stateDims) ↔ i ∈ l'.filter (· < f.stateDims) := h.mem_iff
        simp only [this]
      · rw [List.getElem?_eq_none (by omega), List.getElem?_eq_none (by omega)]
    · rfl
  show ({ f with activeStates := _, stateUsage := _ } : FilterModel) = { f with activeStates := _, stateUsage := _ }
  rw [h1, h2]

/-- C45 is false: a list that names only out-of-range indices activates every state, for every number of states. -/
theorem C45_refuted_only_invalid (f : FilterModel) (l : List Nat) (hl : ∀ i ∈ l, f.stateDims ≤ i) :
    f.setActiveStates l = f.setActiveStates [] := by
  apply C45_invalid_ignored_partial
  rw [List.filter_eq_nil_iff.mpr]
  · simp
  · intro i hi; simpa using hl i hi

/-- C45 is false: a repeated index stays in the active list twice. -/
theorem C45_refuted_repeated_kept : ((FilterModel.construct 2).setActiveStates [0, 0]).activeStates = [0, 0] ∧
    ((FilterModel.construct 2).setActiveStates [0, 0]).activeStateSize = 2 ∧
    ((FilterModel.construct 2).setActiveStates [0]).activeStateSize = 1 := by decide

end StateEstimation.Props
