import Verif.Model.Eigen
import Mathlib.Algebra.Order.Floor.Ring
import Mathlib.Algebra.Order.Archimedean.Real.Basic

/-!
# Reading and writing CSV files: examples/data_io.cpp

A file is the list of its characters, `none` a file that cannot be opened.  Simplifications: the lines printed on `std::cout` are
not modelled; numbers are real numbers; reading and writing do not fail half way (full disk, I/O error), and a file that
cannot be opened for writing (which `writeToFile` does not notice) is not modelled.
-/

namespace StateEstimation.Csv

/-- `std::getline(stream, s, d)`: the characters up to the delimiter, which is removed but not stored, and the rest of the
stream; fails only if the stream is exhausted. -/
def getline (d : Char) : List Char → Option (List Char × List Char)
  | [] => none
  | cs => some (cs.takeWhile (· != d), (cs.dropWhile (· != d)).tail)

theorem getline_length {d : Char} {cs s rest : List Char} (h : getline d cs = some (s, rest)) : rest.length < cs.length := by
  cases cs with
  | nil => cases h
  | cons c cs =>
    simp only [getline, Option.some.injEq, Prod.mk.injEq] at h
    obtain ⟨_, rfl⟩ := h
    have h1 : ((c :: cs).dropWhile (· != d)).length ≤ (c :: cs).length := by
      have := List.dropWhile_suffix (l := c :: cs) (· != d)
      exact this.length_le
    rw [List.length_tail]
    simp only [List.length_cons] at h1 ⊢
    omega

/-- `while (std::getline(stream, s, d)) v.push_back(s);`, data_io.cpp:28-30; also the loop over lines, data_io.cpp:22. -/
def getlines (d : Char) (cs : List Char) : List (List Char) :=
  match _h : getline d cs with
  | none => []
  | some (s, rest) => s :: getlines d rest
termination_by cs.length
decreasing_by exact getline_length _h

/-- How `loadCsvFields` ends: it returns `false` or `true` and has appended to `*data`, or an exception of `std::stod` (no
number, or one out of range) leaves it. -/
inductive LoadResult where
  | threw
  | returned (ok : Bool) (data : List DVec)

/-- Converting the requested fields of one line, data_io.cpp:38-46.  `stod` is `std::stod`, `none` an exception.  The inner `none` is
`return false`. -/
def readRow (stod : List Char → Option ℝ) (fields : List (List Char)) : List Nat → Option (Option (List ℝ))
  | [] => some (some [])
  | i :: is =>
    match fields[i]? with
    | none => some none
    | some s =>
      match stod s with
      | none => none
      | some x =>
        match readRow stod fields is with
        | none => none
        | some none => some none
        | some (some xs) => some (some (x :: xs))

/-- The vector with these entries. -/
def vecOf (l : List ℝ) : DVec := ⟨l.length, fun i => l[i]⟩

/-- The entries of a vector. -/
def entries (v : DVec) : List ℝ := List.ofFn v.val

/-- The loop over the lines, data_io.cpp:22-49. -/
def loadLines (stod : List Char → Option ℝ) (idx : List Nat) : List (List Char) → List DVec → LoadResult
  | [], data => .returned true data
  | line :: lines, data =>
    let fields := getlines ',' line
    if fields.isEmpty then .returned false data
    else
      match readRow stod fields idx with
      | none => .threw
      | some none => .returned false data
      | some (some xs) => loadLines stod idx lines (data ++ [vecOf xs])

/-- `loadCsvFields(filename, skip_header, field_indices, data)`, data_io.cpp:6-54; `data` is the content of `*data` before. -/
def loadCsvFields (stod : List Char → Option ℝ) (file : Option (List Char)) (skipHeader : Bool) (idx : List Nat)
    (data : List DVec) : LoadResult :=
  match file with
  | none => .returned false data
  | some cs =>
    let lines := getlines '\n' cs
    loadLines stod idx (if skipHeader then lines.tail else lines) data

/-- The digit `d < 10` as a character. -/
def digitChar (d : Nat) : Char := Char.ofNat (48 + d)

/-- A natural number in decimal notation. -/
def natChars (n : Nat) : List Char :=
  if n < 10 then [digitChar n] else natChars (n / 10) ++ [digitChar (n % 10)]

/-- Rounding to the nearest integer, ties to even. -/
noncomputable def roundTies (x : ℝ) : ℤ :=
  if x - ⌊x⌋ < 1 / 2 then ⌊x⌋
  else if 1 / 2 < x - ⌊x⌋ then ⌊x⌋ + 1
  else if Even ⌊x⌋ then ⌊x⌋ else ⌊x⌋ + 1

/-- The last `k` decimal digits of `n`. -/
def fixedDigits : Nat → Nat → List Char
  | 0, _ => []
  | k + 1, n => fixedDigits k (n / 10) ++ [digitChar (n % 10)]

open Classical in
/-- `std::to_string(x)`, that is `%f`: six digits after the point, rounded to nearest.  Simplification: finite numbers. -/
noncomputable def toString6 (x : ℝ) : List Char :=
  let n := (roundTies (|x| * 10 ^ 6)).toNat
  (if x < 0 then ['-'] else []) ++ natChars (n / 10 ^ 6) ++ '.' :: fixedDigits 6 n

/-- One line without the line end, data_io.cpp:67-72. -/
noncomputable def joinRow : List ℝ → List Char
  | [] => []
  | [x] => toString6 x
  | x :: y :: l => toString6 x ++ ',' :: joinRow (y :: l)

/-- The content of the file after `writeToFile(filename, header, data)`, data_io.cpp:56-77. -/
noncomputable def writeToFile (header : List Char) (data : List DVec) : List Char :=
  (if header.isEmpty then [] else header ++ ['\n']) ++ data.flatMap fun v => joinRow (entries v) ++ ['\n']

end StateEstimation.Csv
