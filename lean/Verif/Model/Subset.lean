import Verif.Model.Eigen

/-!
# Subsets of vectors and matrices: data_subset_utilities.cpp

Index lists are `std::vector<uint16_t>`; an empty list means "all".  Simplification: the loop counters are natural
numbers; the version with the program's `uint16_t` counters is in Model/Subset16.lean, and C79 shows that it is the same
for lists of fewer than 65536 entries.
-/

namespace StateEstimation

/-- `map.empty() ? i : map[i]`. -/
def mapAt (map : List Nat) (i : Nat) : Nat := if map.isEmpty then i else map.getD i 0
/-- `map.empty() ? size : map.size()`. -/
def mapSize (map : List Nat) (size : Nat) : Nat := if map.isEmpty then size else map.length

/-- `getSubset(x, map)`, data_subset_utilities.cpp:6-17.  The loop writes every entry of the new vector once; an index
outside `x` is an `eigen_assert`. -/
def getSubset (x : DVec) (map : List Nat) : Option DVec :=
  if !map.isEmpty then
    if h : ∀ i : Fin map.length, mapAt map i < x.size then
      some ⟨map.length, fun i => x.val ⟨mapAt map i, h i⟩⟩
    else none
  else some x

/-- `getSubset(x, row_map, col_map)`, data_subset_utilities.cpp:19-37. -/
def getSubset2 (x : DMat) (rowMap colMap : List Nat) : Option DMat :=
  if !rowMap.isEmpty || !colMap.isEmpty then
    let rows := mapSize rowMap x.rows
    let cols := mapSize colMap x.cols
    if h : ∀ (i : Fin rows) (j : Fin cols), mapAt rowMap i < x.rows ∧ mapAt colMap j < x.cols then
      some ⟨rows, cols, fun i j => x.val ⟨mapAt rowMap i, (h i j).1⟩ ⟨mapAt colMap j, (h i j).2⟩⟩
    else none
  else some x

/-- `getSubset(x, map)` for a matrix, data_subset_utilities.cpp:39-52. -/
def getSubsetSq (x : DMat) (map : List Nat) : Option DMat :=
  if !map.isEmpty then
    if h : ∀ (i j : Fin map.length), mapAt map i < x.rows ∧ mapAt map j < x.cols then
      some ⟨map.length, map.length, fun i j => x.val ⟨mapAt map i, (h i j).1⟩ ⟨mapAt map j, (h i j).2⟩⟩
    else none
  else some x

/-- The loop `full(map[i]) = subset(i)`, data_subset_utilities.cpp:57-59, 100-102: the list holds `map[i], map[i+1], ...`. -/
def writeVec (subset : DVec) : Nat → List Nat → DVec → Option DVec
  | _, [], full => some full
  | i, r :: rs, full => do
    let v ← subset.get? i
    let full ← full.set? r v
    writeVec subset (i + 1) rs full

/-- `convertSubsetToFull(subset, &full, map)`, data_subset_utilities.cpp:54-63. -/
def convertSubsetToFull (subset full : DVec) (map : List Nat) : Option DVec :=
  if !map.isEmpty then writeVec subset 0 map full else some subset

/-- Inner loop over the columns, data_subset_utilities.cpp:72-75, 86-88, 121-124, 139-141. -/
def writeRow (subset : DMat) (i row : Nat) : Nat → List Nat → DMat → Option DMat
  | _, [], full => some full
  | j, c :: cs, full => do
    let v ← subset.get? i j
    let full ← full.set? row c v
    writeRow subset i row (j + 1) cs full

/-- Outer loop over the rows, data_subset_utilities.cpp:71-77, 85-89, 120-126, 138-142. -/
def writeMat (subset : DMat) (cols : List Nat) : Nat → List Nat → DMat → Option DMat
  | _, [], full => some full
  | i, r :: rs, full => do
    let full ← writeRow subset i r 0 cols full
    writeMat subset cols (i + 1) rs full

/-- `map.empty() ? 0, 1, ..., size - 1 : map`. -/
def mapList (map : List Nat) (size : Nat) : List Nat := if map.isEmpty then List.range size else map

/-- `convertSubsetToFull(subset, &full, row_map, col_map)`, data_subset_utilities.cpp:65-81. -/
def convertSubsetToFull2 (subset full : DMat) (rowMap colMap : List Nat) : Option DMat :=
  if !rowMap.isEmpty || !colMap.isEmpty then
    writeMat subset (mapList colMap full.cols) 0 (mapList rowMap full.rows) full
  else some subset

/-- `convertSubsetToFull(subset, &full, map)` for a matrix, data_subset_utilities.cpp:83-94. -/
def convertSubsetToFullSq (subset full : DMat) (map : List Nat) : Option DMat :=
  if !map.isEmpty then writeMat subset map 0 map full else some subset

/-- `convertSubsetToFullZeroed(subset, map, n)`, data_subset_utilities.cpp:96-108. -/
def convertSubsetToFullZeroed (subset : DVec) (map : List Nat) (n : Nat) : Option DVec :=
  if !map.isEmpty then writeVec subset 0 map (DVec.zero n) else some subset

/-- `convertSubsetToFullZeroed(subset, row_map, col_map, m, n)`, data_subset_utilities.cpp:110-131. -/
def convertSubsetToFullZeroed2 (subset : DMat) (rowMap colMap : List Nat) (m n : Nat) : Option DMat :=
  if !rowMap.isEmpty || !colMap.isEmpty then
    writeMat subset (mapList colMap n) 0 (mapList rowMap m) (DMat.zero m n)
  else some subset

/-- `convertSubsetToFullZeroed(subset, map, m)` for a matrix, data_subset_utilities.cpp:133-147. -/
def convertSubsetToFullZeroedSq (subset : DMat) (map : List Nat) (m : Nat) : Option DMat :=
  if !map.isEmpty then writeMat subset map 0 map (DMat.zero m m) else some subset

end StateEstimation
