import Verif.Lemmas.Csv

/-!
# C80 and C81: reading and writing CSV files (examples/data_io.cpp)
-/

namespace StateEstimation.Props

open Csv

/-- **C80.**  For every file, every list of column numbers and every content of `*data`: `loadCsvFields` returns `true` exactly
if the file can be opened and every line (after the header, if that is skipped) is not empty, has all the requested fields,
and these are numbers; then one vector per line has been appended, in the order of the lines, holding the requested numbers
in the requested order.  (`Pieces` cuts the text into lines and a line into fields; a field after a trailing comma is not
a field if it is empty.) -/
theorem C80_load (stod : List Char → Option ℝ) (file : Option (List Char)) (skip : Bool) (idx : List Nat) (data data' : List DVec) :
    loadCsvFields stod file skip idx data = .returned true data' ↔
      ∃ cs lines rows, file = some cs ∧ Pieces '\n' cs lines ∧
        List.Forall₂ (fun line v => line ≠ [] ∧ ∃ fields, Pieces ',' line fields ∧ RowReads stod idx fields v)
          (if skip then lines.drop 1 else lines) rows ∧ data' = data ++ rows := by
  have hrow : ∀ line v, (∃ fields, Pieces ',' line fields ∧ RowReads stod idx fields v) ↔ RowReads stod idx (getlines ',' line) v := by
    intro line v
    constructor
    · rintro ⟨f, h1, h2⟩; rwa [h1.getlines]
    · intro h; exact ⟨_, getlines_pieces ',' line, h⟩
  simp only [hrow]
  cases file with
  | none =>
    constructor
    · intro h
      unfold loadCsvFields at h
      injection h with h _
      cases h
    · rintro ⟨_, _, _, h, _⟩; cases h
  | some cs =>
    unfold loadCsvFields
    dsimp only
    rw [loadLines_true]
    constructor
    · rintro ⟨rows, h1, h2⟩
      refine ⟨cs, _, rows, rfl, getlines_pieces '\n' cs, ?_, h2⟩
      rw [List.drop_one]; exact h1
    · rintro ⟨cs', lines, rows, h0, h1, h2, h3⟩
      cases Option.some.inj h0
      refine ⟨rows, ?_, h3⟩
      rw [h1.getlines, ← List.drop_one]
      exact h2

theorem loadLines_false {stod : List Char → Option ℝ} {idx : List Nat} : ∀ {lines : List (List Char)} {data data' : List DVec},
    loadLines stod idx lines data = .returned false data' →
      ∃ k rows, k < lines.length ∧ List.Forall₂ (fun line v => line ≠ [] ∧ RowReads stod idx (getlines ',' line) v) (lines.take k) rows ∧
        data' = data ++ rows
  | [], data, data', h => by unfold loadLines at h; injection h with h _; cases h
  | line :: lines, data, data', h => by
      by_cases hone : ∃ rows, loadLines stod idx [line] data = .returned true (data ++ rows)
      · obtain ⟨rows, h1⟩ := hone
        obtain ⟨rows', h2, h3⟩ := loadLines_true.mp h1
        have := List.append_cancel_left h3
        subst this
        have hstep : loadLines stod idx (line :: lines) data = loadLines stod idx lines (data ++ rows) := by
          rw [loadLines] at h1
          conv_lhs => rw [loadLines]
          split
          next hc => rw [if_pos hc] at h1; injection h1 with h1 _; cases h1
          next hc =>
            rw [if_neg hc] at h1
            cases hr : readRow stod (getlines ',' line) idx with
            | none => rw [hr] at h1; cases h1
            | some o =>
              rw [hr] at h1
              cases o with
              | none => injection h1 with h1 _; cases h1
              | some xs =>
                simp only [loadLines] at h1
                injection h1 with _ h1
                show loadLines stod idx lines (data ++ [vecOf xs]) = _
                rw [h1]
        rw [hstep] at h
        obtain ⟨k, rows2, k1, k2, k3⟩ := loadLines_false h
        refine ⟨k + 1, rows ++ rows2, by simpa using k1, ?_, by rw [k3, List.append_assoc]⟩
        rw [List.take_succ_cons]
        cases h2 with
        | cons g1 g2 =>
          cases g2
          exact .cons g1 k2
      · refine ⟨0, [], by simp, by simp, ?_⟩
        unfold loadLines at h
        dsimp only at h
        split at h
        next => injection h with _ h; simp [h]
        next hc =>
          cases hr : readRow stod (getlines ',' line) idx with
          | none => rw [hr] at h; cases h
          | some o =>
            rw [hr] at h
            cases o with
            | none => injection h with _ h; simp [h]
            | some xs =>
              refine absurd ⟨[vecOf xs], ?_⟩ hone
              unfold loadLines
              dsimp only
              rw [if_neg hc, hr]
              rfl

/-- **C80 (failure).**  When `loadCsvFields` returns `false` it has not lost what `*data` held, and has appended the rows of the
lines before the first bad one. -/
theorem C80_failed (stod : List Char → Option ℝ) (cs : List Char) (skip : Bool) (idx : List Nat) (data data' : List DVec)
    {lines : List (List Char)} (hl : Pieces '\n' cs lines)
    (h : loadCsvFields stod (some cs) skip idx data = .returned false data') :
    ∃ k rows, k < (if skip then lines.drop 1 else lines).length ∧
      List.Forall₂ (fun line v => line ≠ [] ∧ ∃ fields, Pieces ',' line fields ∧ RowReads stod idx fields v)
        ((if skip then lines.drop 1 else lines).take k) rows ∧ data' = data ++ rows := by
  unfold loadCsvFields at h
  dsimp only at h
  rw [hl.getlines] at h
  obtain ⟨k, rows, h1, h2, h3⟩ := loadLines_false h
  rw [List.drop_one]
  exact ⟨k, rows, h1, h2.imp fun line v g => ⟨g.1, _, getlines_pieces ',' line, g.2⟩, h3⟩

/-- The cut into lines exists and is unique, so C80 says what happens for every file. -/
theorem C80_pieces (d : Char) (cs : List Char) : ∃ lines, Pieces d cs lines ∧ ∀ lines', Pieces d cs lines' → lines' = lines :=
  ⟨_, getlines_pieces d cs, fun _ h => h.getlines.symm⟩

/-- **C80 (blank line).**  A blank line is never skipped: a file that `loadCsvFields` accepts is rejected as soon as one empty line is
appended to it, though all its rows have been read. -/
theorem C80_blank_line_at_end (stod : List Char → Option ℝ) (cs : List Char) (skip : Bool) (idx : List Nat) (data data' : List DVec)
    (hcs : ∃ body, cs = body ++ ['\n'])
    (h : loadCsvFields stod (some cs) skip idx data = .returned true data') :
    loadCsvFields stod (some (cs ++ ['\n'])) skip idx data = .returned false data' := by
  have hp := getlines_pieces '\n' cs
  have hne : getlines '\n' cs ≠ [] := by
    intro h0
    rw [h0] at hp
    rcases hp.2 with h2 | ⟨f, l, h2, _⟩
    · obtain ⟨b, hb⟩ := hcs; rw [h2] at hb; simp at hb
    · simp at h2
  have hl : getlines '\n' (cs ++ ['\n']) = getlines '\n' cs ++ [[]] := by
    rcases hp.2 with h2 | ⟨f, l, h2, h3, h4⟩
    · have := getlines_flat (rest := ['\n']) hp.1
      rw [← h2] at this
      rw [this]
      congr 1
      have := getlines_until (d := '\n') (p := []) (rest := []) (by simp)
      rw [List.nil_append, getlines_nil] at this
      exact this
    · exfalso
      obtain ⟨b, hb⟩ := hcs
      have hlast : cs.getLast? = some '\n' := by rw [hb]; simp
      have : '\n' ∈ l := by
        rw [h4, List.getLast?_append_of_ne_nil _ h3] at hlast
        exact List.mem_of_getLast? hlast
      exact hp.1 l (by rw [h2]; simp) this
  unfold loadCsvFields at h ⊢
  dsimp only at h ⊢
  rw [hl]
  have happ : ∀ (L : List (List Char)) (d d' : List DVec), loadLines stod idx L d = .returned true d' →
      loadLines stod idx (L ++ [[]]) d = .returned false d' := by
    intro L
    induction L with
    | nil =>
      intro d d' h
      unfold loadLines at h
      injection h with _ h
      subst h
      rw [List.nil_append]
      unfold loadLines
      dsimp only
      rw [getlines_nil]
      exact if_pos rfl
    | cons line L ih =>
      intro d d' h
      rw [List.cons_append]
      unfold loadLines at h ⊢
      dsimp only at h ⊢
      split at h
      next hc => injection h with h _; cases h
      next hc =>
        rw [if_neg hc]
        cases hr : readRow stod (getlines ',' line) idx with
        | none => rw [hr] at h; cases h
        | some o =>
          rw [hr] at h
          cases o with
          | none => injection h with h _; cases h
          | some xs => exact ih _ _ h
  cases skip with
  | false => exact happ _ _ _ h
  | true =>
    have : (getlines '\n' cs ++ [[]]).tail = (getlines '\n' cs).tail ++ [[]] := by
      cases hg : getlines '\n' cs with
      | nil => exact absurd hg hne
      | cons a b => rfl
    rw [if_pos rfl] at h ⊢
    rw [this]
    exact happ _ _ _ h

/-- **C81.**  What `writeToFile` writes with a header, `loadCsvFields` reads back: for all data with no empty row, every header
without a line end, and all columns that every row has, it returns `true` and appends one vector per row, in order; each
number is the original one up to `5e-7`. -/
theorem C81_round_trip (stod : List Char → Option ℝ) (hstod : StodSpec stod) (header : List Char) (hh : header ≠ []) (hnl : '\n' ∉ header)
    (data : List DVec) (idx : List Nat) (hdata : ∀ v ∈ data, v.size ≠ 0) (hidx : ∀ v ∈ data, ∀ i ∈ idx, i < v.size) (before : List DVec) :
    ∃ back, loadCsvFields stod (some (writeToFile header data)) true idx before = .returned true (before ++ back) ∧
      List.Forall₂ (fun v w => w.size = idx.length ∧ ∀ j (hj : j < idx.length) (hw : j < w.size) (hv : idx[j] < v.size),
        |w.val ⟨j, hw⟩ - v.val ⟨idx[j], hv⟩| ≤ 5 / 10 ^ 7) data back := by
  let f : DVec → DVec := fun v => ⟨idx.length, fun j => if h : idx[j] < v.size then written (v.val ⟨idx[j], h⟩) else 0⟩
  refine ⟨data.map f, ?_, ?_⟩
  · rw [C80_load]
    refine ⟨_, _, _, rfl, writeToFile_lines header hnl data, ?_, rfl⟩
    have hemp : header.isEmpty = false := by
      cases header with
      | nil => exact absurd rfl hh
      | cons => rfl
    rw [hemp]
    simp only [Bool.false_eq_true, if_false, if_true, List.cons_append, List.nil_append, List.drop_one, List.tail_cons]
    rw [List.forall₂_map_left_iff, List.forall₂_map_right_iff, List.forall₂_same]
    intro v hv
    have hne : entries v ≠ [] := by
      intro h0
      have := congrArg List.length h0
      simp only [entries, List.length_ofFn, List.length_nil] at this
      exact hdata v hv this
    refine ⟨joinRow_ne hne, _, joinRow_pieces hne, rfl, ?_⟩
    intro j i hi
    obtain ⟨hj, rfl⟩ := List.getElem?_eq_some_iff.mp hi
    have hlt := hidx v hv _ (List.getElem_mem hj)
    refine ⟨toString6 (v.val ⟨idx[j], hlt⟩), ?_, hj, ?_⟩
    · rw [List.getElem?_map]
      simp only [entries]
      rw [List.getElem?_eq_getElem (by simpa using hlt)]
      simp
    · rw [hstod _ _ (toString6_decimal _)]
      show some _ = some (if h : idx[j] < v.size then written (v.val ⟨idx[j], h⟩) else 0)
      rw [dif_pos hlt]
  · rw [List.forall₂_map_right_iff, List.forall₂_same]
    intro v hv
    refine ⟨rfl, fun j hj hw hlt => ?_⟩
    show |(if h : idx[j] < v.size then written (v.val ⟨idx[j], h⟩) else 0) - _| ≤ _
    rw [dif_pos hlt]
    exact (written_near _).trans (by norm_num)

/-- **C81 (small numbers).**  A number below `5e-7` in magnitude is written as zero, whatever its size: a variance of `1e-9` (that
of the gravity states in the example program) cannot be told from no variance at all. -/
theorem C81_small (x : ℝ) (hx : |x| < 5 / 10 ^ 7) :
    toString6 x = (if x < 0 then ['-'] else []) ++ ['0', '.', '0', '0', '0', '0', '0', '0'] := by
  have h0 : 0 ≤ |x| * 10 ^ 6 := by positivity
  have hf : ⌊|x| * 10 ^ 6⌋ = 0 := by
    rw [Int.floor_eq_zero_iff]
    exact ⟨h0, by linarith⟩
  have hr : roundTies (|x| * 10 ^ 6) = 0 := by
    unfold roundTies
    rw [hf, if_pos]
    push_cast
    linarith
  unfold toString6
  simp only [hr, Int.toNat_zero]
  have h1 : natChars (0 / 10 ^ 6) = ['0'] := by rw [Nat.zero_div, natChars]; rfl
  have h2 : fixedDigits 6 0 = ['0', '0', '0', '0', '0', '0'] := rfl
  rw [h1, h2]
  simp

/-- **C81 (without a header).**  With an empty header nothing is written for it: reading such a file with `skip_header` loses the first
row. -/
theorem C81_headerless (stod : List Char → Option ℝ) (v : DVec) (data : List DVec) (idx : List Nat) (before : List DVec) :
    loadCsvFields stod (some (writeToFile [] (v :: data))) true idx before
      = loadCsvFields stod (some (writeToFile [] data)) false idx before := by
  unfold loadCsvFields
  dsimp only
  rw [(writeToFile_lines [] (by simp) (v :: data)).getlines, (writeToFile_lines [] (by simp) data).getlines]
  rfl

/-- Non-vacuity of C81 and C80: two rows, the second column read back. -/
example (stod : List Char → Option ℝ) (hstod : StodSpec stod) :
    ∃ back, loadCsvFields stod (some (writeToFile ['t'] [vecOf [1, 2.5], vecOf [3, -4]])) true [1] [] = .returned true back ∧
      back.length = 2 := by
  obtain ⟨back, h1, h2⟩ := C81_round_trip stod hstod ['t'] (by simp) (by decide) [vecOf [1, 2.5], vecOf [3, -4]] [1]
    (by intro v hv; simp only [List.mem_cons, List.not_mem_nil, or_false] at hv; rcases hv with rfl | rfl <;> simp [vecOf])
    (by intro v hv; simp only [List.mem_cons, List.not_mem_nil, or_false] at hv; rcases hv with rfl | rfl <;> simp [vecOf]) []
  exact ⟨back, h1, h2.length_eq.symm⟩

end StateEstimation.Props
