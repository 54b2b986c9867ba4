import Verif.Model.Subset

/-!
# data_subset_utilities.cpp with its 16-bit integers

The same functions as in Model/Subset.lean, with `uint16_t` loop counters, indices and truncated row and column counts,
and with the loops as they are written.  `none` is, as everywhere, a failed assertion, or a loop that never ends.
-/

namespace StateEstimation

namespace U16

/-- `for (uint16_t i = ...; i < size; ++i) body`: the comparison is done in a wider type, the increment wraps. -/
def for16 {α : Type} (size : Nat) (body : UInt16 → α → Option α) (i : UInt16) (a : α) : Option α :=
  if i.toNat < size then do
    let a ← body i a
    for16 size body (i + 1) a
  else some a
partial_fixpoint

/-- `getSubset(x, map)`, data_subset_utilities.cpp:6-17.  `junk` is the uninitialized content of the new vector. -/
def getSubset (junk : Nat → ℝ) (x : DVec) (map : List UInt16) : Option DVec :=
  if !map.isEmpty then
    for16 map.length (fun i subset => do
      let r ← map[i.toNat]?
      let v ← x.get? r.toNat
      subset.set? i.toNat v) 0 ⟨map.length, fun i => junk i⟩
  else some x

/-- `map.empty() ? i : map[i]`. -/
def at16 (map : List UInt16) (i : UInt16) : Option UInt16 := if map.isEmpty then some i else map[i.toNat]?
/-- `uint16_t rows = map.empty() ? size : map.size()`: truncated to 16 bits. -/
def size16 (map : List UInt16) (size : Nat) : UInt16 := UInt16.ofNat (if map.isEmpty then size else map.length)

/-- `getSubset(x, row_map, col_map)`, data_subset_utilities.cpp:19-37. -/
def getSubset2 (junk : Nat → Nat → ℝ) (x : DMat) (rowMap colMap : List UInt16) : Option DMat :=
  if !rowMap.isEmpty || !colMap.isEmpty then
    let rows := size16 rowMap x.rows
    let cols := size16 colMap x.cols
    for16 rows.toNat (fun i subset =>
      for16 cols.toNat (fun j subset => do
        let r ← at16 rowMap i
        let c ← at16 colMap j
        let v ← x.get? r.toNat c.toNat
        subset.set? i.toNat j.toNat v) 0 subset) 0 ⟨rows.toNat, cols.toNat, fun i j => junk i j⟩
  else some x

/-- `getSubset(x, map)` for a matrix, data_subset_utilities.cpp:39-52. -/
def getSubsetSq (junk : Nat → Nat → ℝ) (x : DMat) (map : List UInt16) : Option DMat :=
  if !map.isEmpty then
    for16 map.length (fun i subset =>
      for16 map.length (fun j subset => do
        let r ← map[i.toNat]?
        let c ← map[j.toNat]?
        let v ← x.get? r.toNat c.toNat
        subset.set? i.toNat j.toNat v) 0 subset) 0 ⟨map.length, map.length, fun i j => junk i j⟩
  else some x

/-- The loop `full(map[i]) = subset(i)`, data_subset_utilities.cpp:57-59, 100-102. -/
def writeVec (subset : DVec) (map : List UInt16) (full : DVec) : Option DVec :=
  for16 map.length (fun i full => do
    let r ← map[i.toNat]?
    let v ← subset.get? i.toNat
    full.set? r.toNat v) 0 full

/-- `convertSubsetToFull(subset, &full, map)`, data_subset_utilities.cpp:54-63. -/
def convertSubsetToFull (subset full : DVec) (map : List UInt16) : Option DVec :=
  if !map.isEmpty then writeVec subset map full else some subset

/-- The two loops of data_subset_utilities.cpp:71-77, 86-90, 119-125, 137-141. -/
def writeMat (subset : DMat) (rowMap colMap : List UInt16) (rows cols : Nat) (full : DMat) : Option DMat :=
  for16 rows (fun i full =>
    for16 cols (fun j full => do
      let r ← at16 rowMap i
      let c ← at16 colMap j
      let v ← subset.get? i.toNat j.toNat
      full.set? r.toNat c.toNat v) 0 full) 0 full

/-- `convertSubsetToFull(subset, &full, row_map, col_map)`, data_subset_utilities.cpp:65-81. -/
def convertSubsetToFull2 (subset full : DMat) (rowMap colMap : List UInt16) : Option DMat :=
  if !rowMap.isEmpty || !colMap.isEmpty then
    writeMat subset rowMap colMap (size16 rowMap full.rows).toNat (size16 colMap full.cols).toNat full
  else some subset

/-- `convertSubsetToFull(subset, &full, map)` for a matrix, data_subset_utilities.cpp:83-94. -/
def convertSubsetToFullSq (subset full : DMat) (map : List UInt16) : Option DMat :=
  if !map.isEmpty then writeMat subset map map map.length map.length full else some subset

/-- `convertSubsetToFullZeroed(subset, map, n)`, data_subset_utilities.cpp:96-108. -/
def convertSubsetToFullZeroed (subset : DVec) (map : List UInt16) (n : UInt16) : Option DVec :=
  if !map.isEmpty then writeVec subset map (DVec.zero n.toNat) else some subset

/-- `convertSubsetToFullZeroed(subset, row_map, col_map, m, n)`, data_subset_utilities.cpp:110-131. -/
def convertSubsetToFullZeroed2 (subset : DMat) (rowMap colMap : List UInt16) (m n : UInt16) : Option DMat :=
  if !rowMap.isEmpty || !colMap.isEmpty then
    writeMat subset rowMap colMap (size16 rowMap m.toNat).toNat (size16 colMap n.toNat).toNat (DMat.zero m.toNat n.toNat)
  else some subset

/-- `convertSubsetToFullZeroed(subset, map, m)` for a matrix, data_subset_utilities.cpp:133-147. -/
def convertSubsetToFullZeroedSq (subset : DMat) (map : List UInt16) (m : UInt16) : Option DMat :=
  if !map.isEmpty then writeMat subset map map map.length map.length (DMat.zero m.toNat m.toNat) else some subset

end U16

end StateEstimation
