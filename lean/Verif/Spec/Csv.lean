import Verif.Model.Csv

/-! # Specification vocabulary for CSV files -/

namespace StateEstimation.Csv

/-- The text `cs` consists of `pieces`, each ended by the character `d`, except that a last piece that is not empty need not be
ended. -/
def Pieces (d : Char) (cs : List Char) (pieces : List (List Char)) : Prop :=
  (∀ p ∈ pieces, d ∉ p) ∧
    (cs = pieces.flatMap (· ++ [d]) ∨
      ∃ front last, pieces = front ++ [last] ∧ last ≠ [] ∧ cs = front.flatMap (· ++ [d]) ++ last)

/-- The vector `v` holds the numbers in the fields number `idx 0`, `idx 1`, ... of a line. -/
def RowReads (stod : List Char → Option ℝ) (idx : List Nat) (fields : List (List Char)) (v : DVec) : Prop :=
  v.size = idx.length ∧ ∀ j i, idx[j]? = some i → ∃ s, fields[i]? = some s ∧ ∃ h : j < v.size, stod s = some (v.val ⟨j, h⟩)

/-- The number written with these decimal digits. -/
def numberOf (ds : List Char) : Nat := ds.foldl (fun n c => 10 * n + (c.toNat - 48)) 0

/-- `s` is `x` in decimal notation: an optional minus sign, digits, a point, digits. -/
def Decimal (s : List Char) (x : ℝ) : Prop :=
  ∃ neg : Bool, ∃ whole frac : List Char, whole ≠ [] ∧ (∀ c ∈ whole, c.isDigit) ∧ (∀ c ∈ frac, c.isDigit) ∧
    s = (if neg then ['-'] else []) ++ whole ++ '.' :: frac ∧
    x = (if neg then -1 else 1) * (numberOf whole + numberOf frac / 10 ^ frac.length)

/-- What is assumed of `std::stod`: it understands decimal notation (and is exact: real arithmetic). -/
def StodSpec (stod : List Char → Option ℝ) : Prop := ∀ s x, Decimal s x → stod s = some x

end StateEstimation.Csv
