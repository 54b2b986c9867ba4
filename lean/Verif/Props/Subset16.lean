import Verif.Lemmas.Subset16
import Verif.Props.Subsets

/-!
# C79: the 16-bit integers of the subset functions

`U16.*` is data_subset_utilities.cpp with its `uint16_t` counters, indices and sizes.
-/

set_option linter.unusedSectionVars false

namespace StateEstimation.Props

open StateEstimation Matrix

/-- The indices as numbers. -/
abbrev idx (map : List UInt16) : List Nat := map.map UInt16.toNat

theorem idx_isEmpty (map : List UInt16) : (idx map).isEmpty = map.isEmpty := by cases map <;> rfl

theorem mapAt_get (map : List UInt16) (hm : map.isEmpty = false) (i : Nat) (hi : i < map.length) :
    (map[i]?).map UInt16.toNat = some (mapAt (idx map) i) := by
  unfold mapAt
  rw [idx_isEmpty, hm]
  simp [List.getD_eq_getElem?_getD, hi]

theorem getVec_of_lt (x : DVec) (i : Nat) (h : i < x.size) : x.get? i = some (x.val ⟨i, h⟩) := by
  unfold DVec.get?; rw [dif_pos h]
theorem getVec_of_ge (x : DVec) (i : Nat) (h : ¬ i < x.size) : x.get? i = none := by
  unfold DVec.get?; rw [dif_neg h]
theorem getMat_of_lt (x : DMat) (i j : Nat) (h : i < x.rows ∧ j < x.cols) : x.get? i j = some (x.val ⟨i, h.1⟩ ⟨j, h.2⟩) := by
  unfold DMat.get?; rw [dif_pos h]
theorem getMat_of_ge (x : DMat) (i j : Nat) (h : ¬ (i < x.rows ∧ j < x.cols)) : x.get? i j = none := by
  unfold DMat.get?; rw [dif_neg h]

/-- `getSubset(x, map)` for vectors: the 16-bit loop computes what the mathematical function does, failures included, whatever
was in the memory of the new vector. -/
theorem C79_getSubset (junk : Nat → ℝ) (x : DVec) (map : List UInt16) (h : map.length < 65536) :
    U16.getSubset junk x map = getSubset x (idx map) := by
  unfold U16.getSubset getSubset
  rw [idx_isEmpty]
  cases hm : map.isEmpty with
  | true => rfl
  | false =>
    simp only [Bool.not_false, if_true]
    rw [U16.for16_zero h]
    have e : ∀ a, U16.loopN (fun i (s : DVec) => (map[(UInt16.ofNat i).toNat]?).bind fun r => (x.get? r.toNat).bind fun v =>
          s.set? (UInt16.ofNat i).toNat v) map.length 0 a
        = U16.loopN (fun i (s : DVec) => (x.get? (mapAt (idx map) i)).bind fun v => s.set? i v) map.length 0 a := by
      intro a
      refine U16.loopN_congr _ _ _ fun j _ hj s => ?_
      rw [U16.toNat_ofNat (by omega)]
      have := mapAt_get map hm j (by omega)
      obtain ⟨r, h1, h2⟩ := Option.map_eq_some_iff.mp this
      rw [h1, Option.bind_some, h2]
    have hlen : (idx map).length = map.length := List.length_map _
    refine (e _).trans ?_
    have hf := U16.fillVec (n := map.length) (fun i => x.get? (mapAt (idx map) i)) map.length 0 (fun i => junk i) (by omega)
    by_cases hr : ∀ i : Fin (idx map).length, mapAt (idx map) i < x.size
    · rw [dif_pos hr]
      refine (hf.1 (fun b => x.val ⟨mapAt (idx map) b, hr ⟨b, by omega⟩⟩) fun b _ => getVec_of_lt _ _ _).trans ?_
      have : ∀ (n m : Nat) (hnm : n = m) (f : Fin n → ℝ) (g : Fin m → ℝ), (∀ i : Fin n, f i = g (Fin.cast hnm i)) →
          some (DVec.mk n f) = some (DVec.mk m g) := by
        intro n m hnm f g hfg
        subst hnm
        congr 2; funext i; exact hfg i
      exact this _ _ hlen.symm _ _ fun i => by rw [if_pos (Nat.zero_le _)]; rfl
    · rw [dif_neg hr]
      push Not at hr
      obtain ⟨i, hi⟩ := hr
      exact hf.2 ⟨⟨i, by have := i.isLt; omega⟩, Nat.zero_le _, getVec_of_ge _ _ (by simpa using hi)⟩

theorem at16_get (map : List UInt16) (i : Nat) (hi : i < 65536) (hm : map.isEmpty = false → i < map.length) :
    (U16.at16 map (UInt16.ofNat i)).map UInt16.toNat = some (mapAt (idx map) i) := by
  unfold U16.at16 mapAt
  rw [idx_isEmpty]
  cases hb : map.isEmpty with
  | true => simp [U16.toNat_ofNat hi]
  | false =>
    rw [U16.toNat_ofNat hi]
    have := mapAt_get map hb i (hm hb)
    unfold mapAt at this
    rw [idx_isEmpty, hb] at this
    exact this

theorem size16_eq (map : List UInt16) (n : Nat) (h : map.length < 65536) (hn : n < 65536) :
    (U16.size16 map n).toNat = mapSize (idx map) n := by
  unfold U16.size16 mapSize
  rw [idx_isEmpty]
  split
  · exact U16.toNat_ofNat hn
  · rw [U16.toNat_ofNat h]; exact (List.length_map _).symm

theorem mapSize_lt (map : List UInt16) (n : Nat) (h : map.length < 65536) (hn : n < 65536) : mapSize (idx map) n < 65536 := by
  unfold mapSize
  split
  · exact hn
  · rw [List.length_map]; exact h

theorem lt_of_mapSize (map : List UInt16) {n i : Nat} (hi : i < mapSize (idx map) n) (hm : map.isEmpty = false) : i < map.length := by
  unfold mapSize at hi
  rw [idx_isEmpty, hm] at hi
  simpa using hi

theorem fill2 (junk : Nat → Nat → ℝ) (x : DMat) (rowMap colMap : List UInt16) (rows cols : Nat)
    (hr : rows < 65536) (hc : cols < 65536) (hr' : ∀ i, i < rows → rowMap.isEmpty = false → i < rowMap.length)
    (hc' : ∀ i, i < cols → colMap.isEmpty = false → i < colMap.length) :
    U16.for16 rows (fun i subset =>
      U16.for16 cols (fun j (subset : DMat) => do
        let r ← U16.at16 rowMap i
        let c ← U16.at16 colMap j
        let v ← x.get? r.toNat c.toNat
        subset.set? i.toNat j.toNat v) 0 subset) 0 ⟨rows, cols, fun i j => junk i j⟩
    = if h : ∀ (i : Fin rows) (j : Fin cols), mapAt (idx rowMap) i < x.rows ∧ mapAt (idx colMap) j < x.cols then
        some ⟨rows, cols, fun i j => x.val ⟨mapAt (idx rowMap) i, (h i j).1⟩ ⟨mapAt (idx colMap) j, (h i j).2⟩⟩
      else none := by
  rw [U16.for16_zero hr]
  have e : ∀ a, U16.loopN (fun i (s : DMat) => U16.for16 cols (fun j (s : DMat) => (U16.at16 rowMap (UInt16.ofNat i)).bind fun r =>
        (U16.at16 colMap j).bind fun c => (x.get? r.toNat c.toNat).bind fun v => s.set? (UInt16.ofNat i).toNat j.toNat v) 0 s) rows 0 a
      = U16.loopN (fun i (s : DMat) => U16.loopN (fun j (s : DMat) => (x.get? (mapAt (idx rowMap) i) (mapAt (idx colMap) j)).bind
          fun v => s.set? i j v) cols 0 s) rows 0 a := by
    intro a
    refine U16.loopN_congr _ _ _ fun i _ hi s => ?_
    rw [U16.for16_zero hc]
    refine U16.loopN_congr _ _ _ fun j _ hj s => ?_
    rw [U16.toNat_ofNat (by omega), U16.toNat_ofNat (by omega)]
    obtain ⟨r, h1, h2⟩ := Option.map_eq_some_iff.mp (at16_get rowMap i (by omega) (hr' i (by omega)))
    obtain ⟨c, h3, h4⟩ := Option.map_eq_some_iff.mp (at16_get colMap j (by omega) (hc' j (by omega)))
    rw [h1, Option.bind_some, h2, h3, Option.bind_some, h4]
  refine (e _).trans ?_
  have hf := U16.fillMat (r := rows) (c := cols) (fun i j => x.get? (mapAt (idx rowMap) i) (mapAt (idx colMap) j)) rows 0
    (fun i j => junk i j) (by omega)
  by_cases h : ∀ (i : Fin rows) (j : Fin cols), mapAt (idx rowMap) i < x.rows ∧ mapAt (idx colMap) j < x.cols
  · rw [dif_pos h]
    refine (hf.1 (fun i j => x.val ⟨mapAt (idx rowMap) i, (h i j).1⟩ ⟨mapAt (idx colMap) j, (h i j).2⟩)
      fun a b _ => getMat_of_lt _ _ _ (h a b)).trans ?_
    congr 2
  · rw [dif_neg h]
    simp only [not_forall] at h
    obtain ⟨i, j, hij⟩ := h
    exact hf.2 ⟨i, j, Nat.zero_le _, getMat_of_ge _ _ _ hij⟩

/-- `getSubset(x, row_map, col_map)`. -/
theorem C79_getSubset2 (junk : Nat → Nat → ℝ) (x : DMat) (rowMap colMap : List UInt16) (hr : rowMap.length < 65536)
    (hc : colMap.length < 65536) (hxr : x.rows < 65536) (hxc : x.cols < 65536) :
    U16.getSubset2 junk x rowMap colMap = getSubset2 x (idx rowMap) (idx colMap) := by
  unfold U16.getSubset2 getSubset2
  rw [idx_isEmpty, idx_isEmpty]
  split
  · dsimp only
    rw [size16_eq _ _ hr hxr, size16_eq _ _ hc hxc]
    exact fill2 junk x rowMap colMap _ _ (mapSize_lt _ _ hr hxr) (mapSize_lt _ _ hc hxc)
      (fun i hi hm => lt_of_mapSize rowMap hi hm) (fun i hi hm => lt_of_mapSize colMap hi hm)
  · rfl

theorem at16_nonempty (map : List UInt16) (h : map.isEmpty = false) (i : UInt16) : U16.at16 map i = map[i.toNat]? := by
  unfold U16.at16; rw [h]; rfl

/-- `getSubset(x, map)` for matrices. -/
theorem C79_getSubsetSq (junk : Nat → Nat → ℝ) (x : DMat) (map : List UInt16) (h : map.length < 65536) :
    U16.getSubsetSq junk x map = getSubsetSq x (idx map) := by
  unfold U16.getSubsetSq getSubsetSq
  rw [idx_isEmpty]
  cases hm : map.isEmpty with
  | true => rfl
  | false =>
    simp only [Bool.not_false, if_true, ← at16_nonempty map hm]
    rw [fill2 junk x map map _ _ h h (fun i hi _ => hi) (fun i hi _ => hi)]
    have hlen : (idx map).length = map.length := List.length_map _
    rw [← hlen]

theorem idx_get (map : List UInt16) (i : Nat) : (idx map)[i]? = (map[i]?).map UInt16.toNat := List.getElem?_map

theorem writeVec_eq (sub full : DVec) (map : List UInt16) (h : map.length < 65536) :
    U16.writeVec sub map full = writeVec sub 0 (idx map) full := by
  unfold U16.writeVec
  rw [U16.for16_zero h, ← U16.writeVec_loop sub (idx map) (idx map) 0 full rfl, List.length_map]
  refine U16.loopN_congr _ _ _ fun j _ hj s => ?_
  rw [U16.toNat_ofNat (by omega), idx_get]
  cases map[j]? <;> rfl

theorem mapList_get (map : List UInt16) (n i : Nat) (hi : i < mapSize (idx map) n) (hn : mapSize (idx map) n < 65536) :
    (U16.at16 map (UInt16.ofNat i)).map UInt16.toNat = (mapList (idx map) n)[i]? := by
  unfold U16.at16 mapList
  unfold mapSize at hi hn
  rw [idx_isEmpty] at *
  cases hb : map.isEmpty with
  | true =>
    rw [hb] at hi hn
    simp only [if_true] at hi hn ⊢
    rw [List.getElem?_range hi]
    simp [U16.toNat_ofNat (show i < 65536 by omega)]
  | false =>
    rw [hb] at hi hn
    simp only [Bool.false_eq_true, if_false] at hi hn ⊢
    rw [U16.toNat_ofNat (by omega), idx_get]

theorem mapList_length (map : List UInt16) (n : Nat) : (mapList (idx map) n).length = mapSize (idx map) n := by
  unfold mapList mapSize
  split
  · exact List.length_range
  · rfl

theorem writeMat_eq (sub full : DMat) (rowMap colMap : List UInt16) (rows cols : Nat)
    (hr : mapSize (idx rowMap) rows < 65536) (hc : mapSize (idx colMap) cols < 65536) :
    U16.writeMat sub rowMap colMap (mapSize (idx rowMap) rows) (mapSize (idx colMap) cols) full
      = writeMat sub (mapList (idx colMap) cols) 0 (mapList (idx rowMap) rows) full := by
  unfold U16.writeMat
  rw [U16.for16_zero hr, ← U16.writeMat_loop sub _ (mapList (idx rowMap) rows) (mapList (idx rowMap) rows) 0 full rfl, mapList_length, mapList_length]
  refine U16.loopN_congr _ _ _ fun i _ hi s => ?_
  rw [U16.for16_zero hc]
  refine U16.loopN_congr _ _ _ fun j _ hj s => ?_
  have h1 := mapList_get rowMap rows i (by omega) hr
  have h2 := mapList_get colMap cols j (by omega) hc
  rw [← h1, ← h2, U16.toNat_ofNat (show i < 65536 by omega), U16.toNat_ofNat (show j < 65536 by omega)]
  cases U16.at16 rowMap (UInt16.ofNat i) with
  | none => rfl
  | some r =>
    cases U16.at16 colMap (UInt16.ofNat j) with
    | none => rfl
    | some c => rfl

/-- `convertSubsetToFull` and its zeroed form for vectors. -/
theorem C79_writeVec (sub full : DVec) (map : List UInt16) (n : UInt16) (h : map.length < 65536) :
    U16.convertSubsetToFull sub full map = convertSubsetToFull sub full (idx map) ∧
    U16.convertSubsetToFullZeroed sub map n = convertSubsetToFullZeroed sub (idx map) n.toNat := by
  unfold U16.convertSubsetToFull convertSubsetToFull U16.convertSubsetToFullZeroed convertSubsetToFullZeroed
  rw [idx_isEmpty, writeVec_eq _ _ _ h, writeVec_eq _ _ _ h]
  exact ⟨rfl, rfl⟩

/-- `convertSubsetToFull` and its zeroed form for matrices with two maps. -/
theorem C79_writeMat2 (sub full : DMat) (rowMap colMap : List UInt16) (m n : UInt16) (hr : rowMap.length < 65536)
    (hc : colMap.length < 65536) (hxr : full.rows < 65536) (hxc : full.cols < 65536) :
    U16.convertSubsetToFull2 sub full rowMap colMap = convertSubsetToFull2 sub full (idx rowMap) (idx colMap) ∧
    U16.convertSubsetToFullZeroed2 sub rowMap colMap m n
      = convertSubsetToFullZeroed2 sub (idx rowMap) (idx colMap) m.toNat n.toNat := by
  have hm : m.toNat < 65536 := m.toNat_lt
  have hn : n.toNat < 65536 := n.toNat_lt
  unfold U16.convertSubsetToFull2 convertSubsetToFull2 U16.convertSubsetToFullZeroed2 convertSubsetToFullZeroed2
  rw [idx_isEmpty, idx_isEmpty, size16_eq _ _ hr hxr, size16_eq _ _ hc hxc, size16_eq _ _ hr hm, size16_eq _ _ hc hn,
    writeMat_eq _ _ _ _ _ _ (mapSize_lt _ _ hr hxr) (mapSize_lt _ _ hc hxc),
    writeMat_eq _ _ _ _ _ _ (mapSize_lt _ _ hr hm) (mapSize_lt _ _ hc hn)]
  exact ⟨rfl, rfl⟩

theorem mapSize_nonempty (map : List UInt16) (h : map.isEmpty = false) (n : Nat) : map.length = mapSize (idx map) n := by
  unfold mapSize; rw [idx_isEmpty, h]; simp
theorem mapList_nonempty (map : List UInt16) (h : map.isEmpty = false) (n : Nat) : mapList (idx map) n = idx map := by
  unfold mapList; rw [idx_isEmpty, h]; simp

/-- `convertSubsetToFull` and its zeroed form for matrices with one map. -/
theorem C79_writeMatSq (sub full : DMat) (map : List UInt16) (m : UInt16) (h : map.length < 65536) :
    U16.convertSubsetToFullSq sub full map = convertSubsetToFullSq sub full (idx map) ∧
    U16.convertSubsetToFullZeroedSq sub map m = convertSubsetToFullZeroedSq sub (idx map) m.toNat := by
  unfold U16.convertSubsetToFullSq convertSubsetToFullSq U16.convertSubsetToFullZeroedSq convertSubsetToFullZeroedSq
  rw [idx_isEmpty]
  cases hm : map.isEmpty with
  | true => exact ⟨rfl, rfl⟩
  | false =>
    have hs : mapSize (idx map) 0 < 65536 := by rw [← mapSize_nonempty map hm]; exact h
    simp only [Bool.not_false, if_true]
    constructor
    · have := writeMat_eq sub full map map 0 0 hs hs
      rw [← mapSize_nonempty map hm, mapList_nonempty map hm] at this
      exact this
    · have := writeMat_eq sub (DMat.zero m.toNat m.toNat) map map 0 0 hs hs
      rw [← mapSize_nonempty map hm, mapList_nonempty map hm] at this
      exact this

/-- A usable list of 16-bit indices for a model of at most 65535 entries is short enough. -/
theorem usable_length {map : List UInt16} {n : Nat} (h : Usable (idx map) n) : map.length ≤ n := by
  have h1 : (idx map).toFinset ⊆ Finset.range n := fun i hi => Finset.mem_range.mpr (h.2 i (List.mem_toFinset.mp hi))
  have h2 := Finset.card_le_card h1
  rw [List.toFinset_card_of_nodup h.1, Finset.card_range, List.length_map] at h2
  exact h2

/-- **C79.**  For every vector of a model (at most 65535 entries) and every list of distinct valid indices, the program's loops
end, replace exactly the named entries, and reading the subset back gives what was written. -/
theorem C79_roundtrip_vector (junk : Nat → ℝ) (sub full : DVec) (map : List UInt16) (hn : full.size < 65536)
    (hm : Usable (idx map) full.size) (hs : sub.size = countOf (idx map) full.size) :
    ∃ r, U16.convertSubsetToFull sub full map = some r ∧ Inserted sub full (idx map) r ∧ U16.getSubset junk r map = some sub := by
  have hl : map.length < 65536 := lt_of_le_of_lt (usable_length hm) hn
  rw [(C79_writeVec sub full map 0 hl).1]
  simp only [C79_getSubset junk _ map hl]
  exact C43_insert_vector sub full (idx map) hm hs

/-- **C79** for matrices. -/
theorem C79_roundtrip_matrix (junk : Nat → Nat → ℝ) (sub full : DMat) (rowMap colMap : List UInt16) (hr : full.rows < 65536)
    (hc : full.cols < 65536) (hmr : Usable (idx rowMap) full.rows) (hmc : Usable (idx colMap) full.cols)
    (hs : sub.Is (countOf (idx rowMap) full.rows) (countOf (idx colMap) full.cols)) :
    ∃ r, U16.convertSubsetToFull2 sub full rowMap colMap = some r ∧ InsertedMat sub full (idx rowMap) (idx colMap) r ∧
      U16.getSubset2 junk r rowMap colMap = some sub := by
  have hl : rowMap.length < 65536 := lt_of_le_of_lt (usable_length hmr) hr
  have hl' : colMap.length < 65536 := lt_of_le_of_lt (usable_length hmc) hc
  obtain ⟨r, h1, h2, h3⟩ := C43_insert_matrix sub full (idx rowMap) (idx colMap) hmr hmc hs
  refine ⟨r, by rw [(C79_writeMat2 sub full rowMap colMap 0 0 hl hl' hr hc).1]; exact h1, h2, ?_⟩
  rw [C79_getSubset2 junk r rowMap colMap hl hl' (by rw [h2.size.1]; exact hr) (by rw [h2.size.2]; exact hc)]
  exact h3

/-- Beyond the bound (which needs repeated indices), the counter never reaches the end: the vector functions do not return. -/
theorem C79_long_list_never_returns (junk : Nat → ℝ) (x sub : DVec) (map : List UInt16) (n : UInt16) (h : 65536 ≤ map.length) :
    U16.getSubset junk x map = none ∧ U16.convertSubsetToFull sub x map = none ∧ U16.convertSubsetToFullZeroed sub map n = none := by
  have hm : map.isEmpty = false := by
    cases map with
    | nil => simp at h
    | cons => rfl
  unfold U16.getSubset U16.convertSubsetToFull U16.convertSubsetToFullZeroed U16.writeVec
  rw [hm]
  exact ⟨U16.for16_never h _ _ _, U16.for16_never h _ _ _, U16.for16_never h _ _ _⟩

/-- With two maps the counts are cut to 16 bits first: a list of exactly 65536 rows gives a matrix with no row at all. -/
theorem C79_long_list_is_dropped (junk : Nat → Nat → ℝ) (x : DMat) (rowMap colMap : List UInt16) (h : rowMap.length = 65536) :
    ∃ r, U16.getSubset2 junk x rowMap colMap = some r ∧ r.rows = 0 := by
  have hm : rowMap.isEmpty = false := by
    cases rowMap with
    | nil => simp at h
    | cons => rfl
  have hz : U16.size16 rowMap x.rows = 0 := by
    unfold U16.size16; rw [hm, h, if_neg (by decide)]; rfl
  unfold U16.getSubset2
  rw [hm, hz]
  simp only [Bool.not_false, Bool.true_or, if_true]
  rw [U16.for16]
  exact ⟨_, rfl, rfl⟩

/-- The hypotheses of the round trip can be met: entries 2 and 0 of a vector with 4 entries. -/
example (junk : Nat → ℝ) : ∃ r, U16.convertSubsetToFull (.const 2 7) (.const 4 1) [2, 0] = some r ∧
    Inserted (.const 2 7) (.const 4 1) [2, 0] r ∧ U16.getSubset junk r [2, 0] = some (.const 2 7) :=
  C79_roundtrip_vector junk (.const 2 7) (.const 4 1) [2, 0] (by decide) ⟨by decide, by decide⟩ rfl

/-- and those of the long lists: index 0 named 65536 times. -/
example (junk : Nat → ℝ) : U16.getSubset junk (.const 4 1) (List.replicate 65536 0) = none :=
  (C79_long_list_never_returns junk (.const 4 1) (.const 4 1) (List.replicate 65536 0) 0 (by rw [List.length_replicate])).1

end StateEstimation.Props
