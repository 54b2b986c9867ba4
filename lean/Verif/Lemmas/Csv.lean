import Verif.Spec.Csv
import Mathlib.Tactic.Linarith
import Mathlib.Tactic.Ring
import Mathlib.Tactic.NormNum
import Mathlib.Tactic.Push
import Mathlib.Tactic.IntervalCases
import Mathlib.Tactic.FieldSimp
import Mathlib.Data.List.OfFn
import Mathlib.Data.List.TakeWhile

/-! # CSV files: lemmas -/

namespace StateEstimation.Csv

theorem takeWhile_until {d : Char} {p rest : List Char} (h : d ∉ p) : (p ++ d :: rest).takeWhile (· != d) = p := by
  rw [List.takeWhile_append_of_pos]
  · simp
  · intro a ha
    simp only [bne_iff_ne, ne_eq]
    rintro rfl
    exact h ha

theorem dropWhile_until {d : Char} {p rest : List Char} (h : d ∉ p) : (p ++ d :: rest).dropWhile (· != d) = d :: rest := by
  rw [List.dropWhile_append_of_pos]
  · simp
  · intro a ha
    simp only [bne_iff_ne, ne_eq]
    rintro rfl
    exact h ha

theorem takeWhile_all {d : Char} {p : List Char} (h : d ∉ p) : p.takeWhile (· != d) = p := by
  rw [List.takeWhile_eq_self_iff]
  intro a ha
  simp only [bne_iff_ne, ne_eq]
  rintro rfl
  exact h ha

theorem dropWhile_all {d : Char} {p : List Char} (h : d ∉ p) : p.dropWhile (· != d) = [] := by
  rw [List.dropWhile_eq_nil_iff]
  intro a ha
  simp only [bne_iff_ne, ne_eq]
  rintro rfl
  exact h ha

theorem getline_until {d : Char} {p rest : List Char} (h : d ∉ p) : getline d (p ++ d :: rest) = some (p, rest) := by
  have hne : p ++ d :: rest ≠ [] := by simp
  have h1 := takeWhile_until (rest := rest) h
  have h2 := dropWhile_until (rest := rest) h
  generalize p ++ d :: rest = cs at *
  cases cs with
  | nil => exact absurd rfl hne
  | cons c cs => simp only [getline, h1, h2, List.tail_cons]

theorem getline_last {d : Char} {p : List Char} (h : d ∉ p) (hp : p ≠ []) : getline d p = some (p, []) := by
  have h1 := takeWhile_all h
  have h2 := dropWhile_all h
  cases p with
  | nil => exact absurd rfl hp
  | cons c cs => simp only [getline, h1, h2, List.tail_nil]

theorem getlines_nil (d : Char) : getlines d [] = [] := by
  rw [getlines]; rfl

theorem getlines_of {d : Char} {cs p rest : List Char} (h : getline d cs = some (p, rest)) :
    getlines d cs = p :: getlines d rest := by
  rw [getlines]
  split
  next h' => rw [h] at h'; cases h'
  next s r h' =>
    rw [h] at h'
    cases h'
    rfl

theorem getlines_until {d : Char} {p rest : List Char} (h : d ∉ p) :
    getlines d (p ++ d :: rest) = p :: getlines d rest := getlines_of (getline_until h)

theorem getlines_last {d : Char} {p : List Char} (h : d ∉ p) (hp : p ≠ []) : getlines d p = [p] := by
  rw [getlines_of (getline_last h hp), getlines_nil]

theorem getlines_flat {d : Char} : ∀ {ps : List (List Char)} {rest : List Char}, (∀ p ∈ ps, d ∉ p) →
    getlines d (ps.flatMap (· ++ [d]) ++ rest) = ps ++ getlines d rest
  | [], rest, _ => rfl
  | p :: ps, rest, h => by
      have : (p :: ps).flatMap (· ++ [d]) ++ rest = p ++ d :: (ps.flatMap (· ++ [d]) ++ rest) := by simp
      rw [this, getlines_until (h p (by simp)), getlines_flat fun q hq => h q (by simp [hq])]
      rfl

theorem Pieces.getlines {d : Char} {cs : List Char} {ps : List (List Char)} (h : Pieces d cs ps) : getlines d cs = ps := by
  obtain ⟨h1, h2 | ⟨front, last, rfl, h2, rfl⟩⟩ := h
  · have := getlines_flat (rest := []) h1
    rw [List.append_nil, ← h2, getlines_nil, List.append_nil] at this
    exact this
  · rw [getlines_flat fun p hp => h1 p (by simp [hp]), getlines_last (h1 last (by simp)) h2]

theorem takeWhile_drop {d : Char} (cs : List Char) :
    d ∉ cs.takeWhile (· != d) ∧
      (cs = cs.takeWhile (· != d) ∧ cs.dropWhile (· != d) = [] ∨
        cs = cs.takeWhile (· != d) ++ d :: (cs.dropWhile (· != d)).tail) := by
  refine ⟨?_, ?_⟩
  · intro h
    have := List.mem_takeWhile_imp h
    simp at this
  · cases hd : cs.dropWhile (· != d) with
    | nil =>
      left
      have := List.takeWhile_append_dropWhile (p := (· != d)) (l := cs)
      rw [hd, List.append_nil] at this
      exact ⟨this.symm, rfl⟩
    | cons c rest =>
      right
      have h1 := List.takeWhile_append_dropWhile (p := (· != d)) (l := cs)
      rw [hd] at h1
      have h2 : (c != d) = false := by
        have := List.head_dropWhile_not (p := (· != d)) (l := cs) (by rw [hd]; simp)
        simpa [hd] using this
      have : c = d := by simpa using h2
      subst this
      exact h1.symm

theorem getlines_pieces (d : Char) (cs : List Char) : Pieces d cs (getlines d cs) := by
  induction hn : cs.length using Nat.strong_induction_on generalizing cs with
  | _ n ih =>
    cases cs with
    | nil => rw [getlines_nil]; exact ⟨by simp, Or.inl rfl⟩
    | cons c cs =>
      obtain ⟨h1, h2⟩ := takeWhile_drop (d := d) (c :: cs)
      have hg : getline d (c :: cs) = some ((c :: cs).takeWhile (· != d), ((c :: cs).dropWhile (· != d)).tail) := rfl
      have hl := getline_length hg
      rw [getlines_of hg]
      have hp := ih _ (by rw [← hn]; exact hl) _ rfl
      generalize (c :: cs).takeWhile (· != d) = p at h1 h2 hp ⊢
      rcases h2 with ⟨h2, h3⟩ | h2
      · rw [h3] at hp ⊢
        rw [List.tail_nil, getlines_nil]
        refine ⟨by simpa using h1, Or.inr ⟨[], p, rfl, ?_, by simpa using h2⟩⟩
        rw [← h2]; simp
      · generalize ((c :: cs).dropWhile (· != d)).tail = rest at h2 hp ⊢
        obtain ⟨k1, k2⟩ := hp
        refine ⟨?_, ?_⟩
        · intro q hq
          rcases List.mem_cons.mp hq with rfl | hq
          · exact h1
          · exact k1 q hq
        · rcases k2 with k2 | ⟨front, last, k2, k3, k4⟩
          · left
            rw [h2, List.flatMap_cons, ← k2]
            simp
          · right
            refine ⟨p :: front, last, by rw [k2]; rfl, k3, ?_⟩
            rw [h2, k4]
            simp

theorem pieces_iff {d : Char} {cs : List Char} {ps : List (List Char)} : Pieces d cs ps ↔ getlines d cs = ps :=
  ⟨Pieces.getlines, fun h => h ▸ getlines_pieces d cs⟩

/-! ### Rows -/

theorem readRow_some {stod : List Char → Option ℝ} {fields : List (List Char)} : ∀ {idx : List Nat} {xs : List ℝ},
    readRow stod fields idx = some (some xs) ↔ List.Forall₂ (fun i x => ∃ s, fields[i]? = some s ∧ stod s = some x) idx xs
  | [], xs => by
      unfold readRow
      constructor
      · intro h; cases Option.some.inj (Option.some.inj h); exact .nil
      · intro h; cases h; rfl
  | i :: is, xs => by
      unfold readRow
      constructor
      · intro h
        cases h1 : fields[i]? with
        | none => rw [h1] at h; cases h
        | some s =>
          rw [h1] at h
          dsimp only at h
          cases h2 : stod s with
          | none => rw [h2] at h; cases h
          | some x =>
            rw [h2] at h
            dsimp only at h
            cases h3 : readRow stod fields is with
            | none => rw [h3] at h; cases h
            | some o =>
              rw [h3] at h
              cases o with
              | none => cases h
              | some ys =>
                cases Option.some.inj (Option.some.inj h)
                exact .cons ⟨s, h1, h2⟩ (readRow_some.mp h3)
      · intro h
        cases h with
        | cons h1 h2 =>
          obtain ⟨s, k1, k2⟩ := h1
          simp only [k1, k2, readRow_some.mpr h2]

theorem vecOf_entries (v : DVec) : vecOf (entries v) = v := by
  obtain ⟨n, f⟩ := v
  show (⟨(List.ofFn f).length, fun i => (List.ofFn f)[i]⟩ : DVec) = ⟨n, f⟩
  have h : (List.ofFn f).length = n := List.length_ofFn
  have key : ∀ (m : Nat) (hm : m = n) (g : Fin m → ℝ), (∀ i : Fin m, g i = f (Fin.cast hm i)) → (⟨m, g⟩ : DVec) = ⟨n, f⟩ := by
    intro m hm g hg
    subst hm
    congr 1
    funext i
    exact hg i
  refine key _ h _ fun i => ?_
  show (List.ofFn f)[i.val] = f _
  rw [List.getElem_ofFn]
  rfl

theorem entries_vecOf (l : List ℝ) : entries (vecOf l) = l := by
  apply List.ext_getElem
  · simp [entries, vecOf]
  · intro i h1 h2
    simp only [entries, vecOf, List.getElem_ofFn]
    rfl

theorem rowReads_iff {stod : List Char → Option ℝ} {idx : List Nat} {fields : List (List Char)} {v : DVec} :
    RowReads stod idx fields v ↔
      List.Forall₂ (fun i x => ∃ s, fields[i]? = some s ∧ stod s = some x) idx (entries v) := by
  rw [List.forall₂_iff_get]
  constructor
  · rintro ⟨h1, h2⟩
    refine ⟨by simp [entries, h1], fun j hj hj' => ?_⟩
    obtain ⟨s, k1, k2, k3⟩ := h2 j idx[j] (List.getElem?_eq_getElem hj)
    refine ⟨s, k1, ?_⟩
    rw [k3]
    simp [entries]
  · rintro ⟨h1, h2⟩
    have h1' : v.size = idx.length := by rw [h1]; simp [entries]
    refine ⟨h1', fun j i hi => ?_⟩
    obtain ⟨hj, rfl⟩ := List.getElem?_eq_some_iff.mp hi
    obtain ⟨s, k1, k2⟩ := h2 j hj (by simpa [entries, h1'] using hj)
    refine ⟨s, k1, by rw [h1']; exact hj, ?_⟩
    rw [k2]
    simp [entries]

theorem loadLines_true {stod : List Char → Option ℝ} {idx : List Nat} : ∀ {lines : List (List Char)} {data data' : List DVec},
    loadLines stod idx lines data = .returned true data' ↔
      ∃ rows, List.Forall₂ (fun line v => line ≠ [] ∧ RowReads stod idx (getlines ',' line) v) lines rows ∧ data' = data ++ rows
  | [], data, data' => by
      unfold loadLines
      constructor
      · intro h; cases h; exact ⟨[], .nil, by simp⟩
      · rintro ⟨rows, h, rfl⟩; cases h; simp
  | line :: lines, data, data' => by
      unfold loadLines
      dsimp only
      have hempty : (getlines ',' line).isEmpty = true ↔ line = [] := by
        constructor
        · intro h
          have hp := getlines_pieces ',' line
          rw [List.isEmpty_iff.mp h] at hp
          rcases hp.2 with h2 | ⟨front, last, h2, _⟩
          · simpa using h2
          · simp at h2
        · rintro rfl; rw [getlines_nil]; rfl
      by_cases hl : line = []
      · rw [if_pos (hempty.mpr hl)]
        constructor
        · intro h; cases h
        · rintro ⟨rows, h, _⟩
          cases h with
          | cons h1 _ => exact absurd hl h1.1
      · rw [if_neg (fun h => hl (hempty.mp h))]
        cases hr : readRow stod (getlines ',' line) idx with
        | none =>
          constructor
          · intro h; cases h
          · rintro ⟨rows, h, _⟩
            cases h with
            | cons h1 _ => rw [readRow_some.mpr (rowReads_iff.mp h1.2)] at hr; cases hr
        | some o =>
          cases o with
          | none =>
            constructor
            · intro h; cases h
            · rintro ⟨rows, h, _⟩
              cases h with
              | cons h1 _ => rw [readRow_some.mpr (rowReads_iff.mp h1.2)] at hr; cases hr
          | some xs =>
            dsimp only
            rw [loadLines_true]
            constructor
            · rintro ⟨rows, h, rfl⟩
              refine ⟨vecOf xs :: rows, .cons ⟨hl, ?_⟩ h, by simp⟩
              rw [rowReads_iff, entries_vecOf]
              exact readRow_some.mp hr
            · rintro ⟨rows, h, rfl⟩
              cases h with
              | @cons _ v _ rows h1 h2 =>
                rw [readRow_some.mpr (rowReads_iff.mp h1.2)] at hr
                cases Option.some.inj (Option.some.inj hr)
                exact ⟨rows, h2, by rw [vecOf_entries]; simp⟩


/-! ### Decimal notation -/

theorem digitChar_digit {d : Nat} (h : d < 10) : (digitChar d).isDigit = true ∧ (digitChar d).toNat = 48 + d := by
  interval_cases d <;> decide

theorem numberOf_append (ds : List Char) (d : Nat) (h : d < 10) : numberOf (ds ++ [digitChar d]) = 10 * numberOf ds + d := by
  simp only [numberOf, List.foldl_append, List.foldl_cons, List.foldl_nil, (digitChar_digit h).2]
  omega

theorem natChars_spec (n : Nat) : natChars n ≠ [] ∧ (∀ c ∈ natChars n, c.isDigit) ∧ numberOf (natChars n) = n := by
  induction n using Nat.strong_induction_on with
  | _ n ih =>
    rw [natChars]
    split
    next h =>
      refine ⟨by simp, ?_, ?_⟩
      · intro c hc
        rw [List.mem_singleton] at hc
        subst hc
        exact (digitChar_digit h).1
      · have := numberOf_append [] n h
        simpa [numberOf] using this
    next h =>
      obtain ⟨h1, h2, h3⟩ := ih (n / 10) (by omega)
      refine ⟨by simp, ?_, ?_⟩
      · intro c hc
        rw [List.mem_append, List.mem_singleton] at hc
        rcases hc with hc | rfl
        · exact h2 c hc
        · exact (digitChar_digit (by omega)).1
      · rw [numberOf_append _ _ (by omega), h3]
        omega

theorem fixedDigits_spec : ∀ k n, (fixedDigits k n).length = k ∧ (∀ c ∈ fixedDigits k n, c.isDigit) ∧
    numberOf (fixedDigits k n) = n % 10 ^ k
  | 0, n => ⟨rfl, by simp [fixedDigits], by simp [fixedDigits, numberOf, Nat.mod_one]⟩
  | k + 1, n => by
      obtain ⟨h1, h2, h3⟩ := fixedDigits_spec k (n / 10)
      unfold fixedDigits
      refine ⟨by simp [h1], ?_, ?_⟩
      · intro c hc
        rw [List.mem_append, List.mem_singleton] at hc
        rcases hc with hc | rfl
        · exact h2 c hc
        · exact (digitChar_digit (by omega)).1
      · rw [numberOf_append _ _ (by omega), h3]
        have := Nat.mod_mul (x := n) (a := 10) (b := 10 ^ k)
        rw [Nat.pow_succ', this]
        omega

theorem roundTies_near (x : ℝ) : |(roundTies x : ℝ) - x| ≤ 1 / 2 := by
  have h1 := Int.floor_le x
  have h2 := Int.lt_floor_add_one x
  unfold roundTies
  rw [abs_le]
  split_ifs <;> push_cast <;> constructor <;> linarith

theorem roundTies_nonneg {x : ℝ} (hx : 0 ≤ x) : 0 ≤ roundTies x := by
  have := Int.floor_nonneg.mpr hx
  unfold roundTies
  split_ifs <;> omega

/-- The number that is written for `x`. -/
noncomputable def written (x : ℝ) : ℝ := (if x < 0 then -1 else 1) * (roundTies (|x| * 10 ^ 6) / 10 ^ 6)

theorem toString6_decimal (x : ℝ) : Decimal (toString6 x) (written x) := by
  obtain ⟨n, hn⟩ := Int.eq_ofNat_of_zero_le (roundTies_nonneg (show 0 ≤ |x| * 10 ^ 6 by positivity))
  have h1 := natChars_spec (n / 10 ^ 6)
  have h2 := fixedDigits_spec 6 n
  refine ⟨decide (x < 0), natChars (n / 10 ^ 6), fixedDigits 6 n, h1.1, h1.2.1, h2.2.1, ?_, ?_⟩
  · unfold toString6
    simp only [hn, Int.toNat_natCast]
    by_cases hx : x < 0 <;> simp [hx]
  · unfold written
    rw [h1.2.2, h2.2.2, h2.1, hn]
    have h3 : (n : ℝ) = (10 : ℝ) ^ 6 * ((n / 10 ^ 6 : ℕ) : ℝ) + ((n % 10 ^ 6 : ℕ) : ℝ) := by
      exact_mod_cast (Nat.div_add_mod n (10 ^ 6)).symm
    have h4 : (((n : ℕ) : ℤ) : ℝ) / 10 ^ 6 = ((n / 10 ^ 6 : ℕ) : ℝ) + ((n % 10 ^ 6 : ℕ) : ℝ) / 10 ^ 6 := by
      rw [Int.cast_natCast, h3]
      field_simp
    rw [h4]
    by_cases hx : x < 0 <;> simp [hx]

theorem written_near (x : ℝ) : |written x - x| ≤ 1 / 2 / 10 ^ 6 := by
  have h := roundTies_near (|x| * 10 ^ 6)
  rw [abs_le] at h ⊢
  unfold written
  by_cases hx : x < 0
  · rw [if_pos hx]
    rw [abs_of_neg hx] at h ⊢
    constructor <;> linarith [h.1, h.2]
  · rw [if_neg hx]
    rw [abs_of_nonneg (not_lt.mp hx)] at h ⊢
    constructor <;> linarith [h.1, h.2]

theorem decimal_plain {s : List Char} {x : ℝ} (h : Decimal s x) : s ≠ [] ∧ ',' ∉ s ∧ '\n' ∉ s := by
  obtain ⟨neg, whole, frac, h1, h2, h3, rfl, _⟩ := h
  have key : ∀ c : Char, c.isDigit = false → c ≠ '-' → c ≠ '.' →
      c ∉ (if neg then ['-'] else []) ++ whole ++ '.' :: frac := by
    intro c hc k1 k2 hm
    simp only [List.mem_append, List.mem_cons] at hm
    rcases hm with (hm | hm) | hm | hm
    · cases neg
      · simp at hm
      · simp at hm; exact k1 hm
    · rw [h2 c hm] at hc; cases hc
    · exact k2 hm
    · rw [h3 c hm] at hc; cases hc
  exact ⟨by simp, key ',' (by decide) (by decide) (by decide), key '\n' (by decide) (by decide) (by decide)⟩

/-! ### Rows written and read back -/

theorem joinRow_pieces : ∀ {l : List ℝ}, l ≠ [] → Pieces ',' (joinRow l) (l.map toString6)
  | [], h => absurd rfl h
  | [x], _ => by
      have h := decimal_plain (toString6_decimal x)
      exact ⟨by simpa using h.2.1, Or.inr ⟨[], toString6 x, rfl, h.1, by simp [joinRow]⟩⟩
  | x :: y :: l, _ => by
      have h := decimal_plain (toString6_decimal x)
      rw [pieces_iff]
      show getlines ',' (toString6 x ++ ',' :: joinRow (y :: l)) = _
      rw [getlines_until h.2.1, (joinRow_pieces (l := y :: l) (by simp)).getlines]
      rfl

theorem joinRow_nonl : ∀ (l : List ℝ), '\n' ∉ joinRow l
  | [] => by simp [joinRow]
  | [x] => (decimal_plain (toString6_decimal x)).2.2
  | x :: y :: l => by
      unfold joinRow
      have h := (decimal_plain (toString6_decimal x)).2.2
      have := joinRow_nonl (y :: l)
      simp only [List.mem_append, List.mem_cons, not_or]
      exact ⟨h, by decide, this⟩

theorem joinRow_ne {l : List ℝ} (h : l ≠ []) : joinRow l ≠ [] := by
  match l, h with
  | [x], _ => exact (decimal_plain (toString6_decimal x)).1
  | x :: y :: l, _ => unfold joinRow; simp

theorem writeToFile_lines (header : List Char) (hh : '\n' ∉ header) (data : List DVec) :
    Pieces '\n' (writeToFile header data) ((if header.isEmpty then [] else [header]) ++ data.map fun v => joinRow (entries v)) := by
  refine ⟨?_, Or.inl ?_⟩
  · intro p hp
    rw [List.mem_append, List.mem_map] at hp
    rcases hp with hp | ⟨v, _, rfl⟩
    · split at hp
      · simp at hp
      · rw [List.mem_singleton] at hp; subst hp; exact hh
    · exact joinRow_nonl _
  · unfold writeToFile
    rw [List.flatMap_append, List.flatMap_map]
    split <;> simp

end StateEstimation.Csv
