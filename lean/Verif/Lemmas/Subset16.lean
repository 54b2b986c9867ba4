import Verif.Model.Subset16
import Verif.Lemmas.Subset

/-! # The 16-bit loops and the loops over natural numbers -/

set_option linter.unusedSectionVars false

namespace StateEstimation
namespace U16

/-- The loop with an unbounded counter: `k` rounds from `i` on. -/
def loopN {α : Type} (body : Nat → α → Option α) : Nat → Nat → α → Option α
  | 0, _, a => some a
  | k + 1, i, a => (body i a).bind (loopN body k (i + 1))

theorem for16_eq {α : Type} {size : Nat} (hs : size < 65536) (body : UInt16 → α → Option α) : ∀ (k i : Nat) (a : α),
    i + k = size → for16 size body (UInt16.ofNat i) a = loopN (fun i => body (UInt16.ofNat i)) k i a := by
  intro k
  induction k with
  | zero =>
    intro i a hi
    rw [for16]
    have h1 : (UInt16.ofNat i).toNat = i := by rw [UInt16.toNat_ofNat']; omega
    rw [if_neg (by rw [h1]; omega)]; rfl
  | succ k ih =>
    intro i a hi
    rw [for16]
    have h1 : (UInt16.ofNat i).toNat = i := by rw [UInt16.toNat_ofNat']; omega
    rw [if_pos (by rw [h1]; omega)]
    show (body (UInt16.ofNat i) a).bind _ = (body (UInt16.ofNat i) a).bind _
    congr 1
    funext b
    have h2 : UInt16.ofNat i + 1 = UInt16.ofNat (i + 1) := by
      apply UInt16.toNat_inj.mp
      rw [UInt16.toNat_add, UInt16.toNat_ofNat', UInt16.toNat_ofNat']
      show (i % 65536 + 1) % 65536 = (i + 1) % 65536
      omega
    rw [h2]
    exact ih (i + 1) b (by omega)

theorem for16_zero {α : Type} {size : Nat} (hs : size < 65536) (body : UInt16 → α → Option α) (a : α) :
    for16 size body 0 a = loopN (fun i => body (UInt16.ofNat i)) size 0 a :=
  for16_eq hs body size 0 a (by omega)

/-- With a bound the counter cannot reach, the loop never ends, whatever the body does. -/
theorem for16_never {α : Type} {size : Nat} (hs : 65536 ≤ size) (body : UInt16 → α → Option α) (i : UInt16) (a : α) :
    for16 size body i a = none := by
  cases h : for16 size body i a with
  | none => rfl
  | some r =>
    refine (for16.partial_correctness size body (fun _ _ _ => False) ?_ i a r h).elim
    intro loop ih i a r hr
    have hi : i.toNat < 65536 := i.toNat_lt
    rw [if_pos (by omega)] at hr
    obtain ⟨b, _, h2⟩ := Option.bind_eq_some_iff.mp hr
    exact ih _ _ _ h2

theorem toNat_ofNat {i : Nat} (h : i < 65536) : (UInt16.ofNat i).toNat = i := by rw [UInt16.toNat_ofNat']; omega

theorem loopN_congr {α : Type} {b b' : Nat → α → Option α} : ∀ (k i : Nat) (a : α),
    (∀ j, i ≤ j → j < i + k → ∀ a, b j a = b' j a) → loopN b k i a = loopN b' k i a := by
  intro k
  induction k with
  | zero => intro i a _; rfl
  | succ k ih =>
    intro i a h
    unfold loopN
    rw [h i (Nat.le_refl i) (by omega)]
    congr 1
    funext c
    exact ih (i + 1) c fun j h1 h2 => h j (by omega) (by omega)

/-! ### Filling a new vector or matrix -/

theorem fillVec {n : Nat} (g : Nat → Option ℝ) : ∀ (k i : Nat) (A : Fin n → ℝ), i + k = n →
    (∀ v : Fin n → ℝ, (∀ b : Fin n, i ≤ b.val → g b = some (v b)) →
      loopN (fun i (s : DVec) => (g i).bind fun c => s.set? i c) k i (DVec.of A) = some (DVec.of fun b => if i ≤ b.val then v b else A b)) ∧
    ((∃ b : Fin n, i ≤ b.val ∧ g b = none) → loopN (fun i (s : DVec) => (g i).bind fun c => s.set? i c) k i (DVec.of A) = none) := by
  intro k
  induction k with
  | zero =>
    intro i A hi
    refine ⟨fun v _ => ?_, ?_⟩
    · show some (DVec.of A) = _
      congr 2; funext b
      rw [if_neg (by have := b.isLt; omega)]
    · rintro ⟨b, hb, _⟩; have := b.isLt; omega
  | succ k ih =>
    intro i A hi
    have hin : i < n := by omega
    refine ⟨fun v hv => ?_, ?_⟩
    · unfold loopN
      have h1 : g i = some (v ⟨i, hin⟩) := hv ⟨i, hin⟩ (Nat.le_refl _)
      have h2 := set_of A ⟨i, hin⟩ (v ⟨i, hin⟩)
      simp only [h1, Option.bind_some]
      rw [show (DVec.of A).set? i (v ⟨i, hin⟩) = _ from h2, Option.bind_some]
      rw [(ih (i + 1) _ (by omega)).1 v fun b hb => hv b (by omega)]
      congr 2; funext b
      by_cases hbi : b.val = i
      · have : b = ⟨i, hin⟩ := Fin.ext hbi
        subst this
        rw [if_neg (by simp), if_pos (Nat.le_refl _), Function.update_self]
      · by_cases hb : i ≤ b.val
        · rw [if_pos (by omega), if_pos hb]
        · rw [if_neg (by omega), if_neg hb, Function.update_of_ne fun h => hbi (by rw [h])]
    · rintro ⟨b, hb, hg⟩
      unfold loopN
      by_cases hbi : b.val = i
      · rw [← hbi, hg]; rfl
      · cases h1 : g i with
        | none => rfl
        | some c =>
          rw [Option.bind_some, show (DVec.of A).set? i c = _ from set_of A ⟨i, hin⟩ c, Option.bind_some]
          exact (ih (i + 1) _ (by omega)).2 ⟨b, by omega, hg⟩

theorem setMat_of {r c : Nat} (A : Matrix (Fin r) (Fin c) ℝ) (i j : Nat) (hi : i < r) (hj : j < c) (v : ℝ) :
    (DMat.of A).set? i j v = some (DMat.of fun a b => if a.val = i ∧ b.val = j then v else A a b) := by
  unfold DMat.set?
  rw [if_pos ⟨hi, hj⟩]

theorem fillRow {r c : Nat} (g : Nat → Option ℝ) (i : Nat) (hi : i < r) : ∀ (k j : Nat) (A : Matrix (Fin r) (Fin c) ℝ), j + k = c →
    (∀ v : Fin c → ℝ, (∀ b : Fin c, j ≤ b.val → g b = some (v b)) →
      loopN (fun j (s : DMat) => (g j).bind fun x => s.set? i j x) k j (DMat.of A)
        = some (DMat.of fun a b => if a.val = i ∧ j ≤ b.val then v b else A a b)) ∧
    ((∃ b : Fin c, j ≤ b.val ∧ g b = none) → loopN (fun j (s : DMat) => (g j).bind fun x => s.set? i j x) k j (DMat.of A) = none) := by
  intro k
  induction k with
  | zero =>
    intro j A hj
    refine ⟨fun v _ => ?_, ?_⟩
    · show some (DMat.of A) = _
      congr 2; funext a b
      rw [if_neg (by have := b.isLt; omega)]
    · rintro ⟨b, hb, _⟩; have := b.isLt; omega
  | succ k ih =>
    intro j A hj
    have hjc : j < c := by omega
    refine ⟨fun v hv => ?_, ?_⟩
    · unfold loopN
      have h1 : g j = some (v ⟨j, hjc⟩) := hv ⟨j, hjc⟩ (Nat.le_refl _)
      simp only [h1, Option.bind_some]
      rw [setMat_of A i j hi hjc, Option.bind_some]
      refine ((ih (j + 1) _ (by omega)).1 v fun b hb => hv b (by omega)).trans ?_
      congr 2; funext a b
      by_cases ha : a.val = i
      · by_cases hbi : b.val = j
        · have : b = ⟨j, hjc⟩ := Fin.ext hbi
          subst this
          rw [if_neg (by simp), if_pos ⟨ha, rfl⟩, if_pos ⟨ha, Nat.le_refl _⟩]
        · by_cases hb : j ≤ b.val
          · rw [if_pos ⟨ha, by omega⟩, if_pos ⟨ha, hb⟩]
          · rw [if_neg (by omega), if_neg (by omega), if_neg (by omega)]
      · rw [if_neg (by omega), if_neg (by omega), if_neg (by omega)]
    · rintro ⟨b, hb, hg⟩
      unfold loopN
      by_cases hbi : b.val = j
      · rw [← hbi, hg]; rfl
      · cases h1 : g j with
        | none => rfl
        | some x =>
          rw [Option.bind_some, setMat_of A i j hi hjc, Option.bind_some]
          exact (ih (j + 1) _ (by omega)).2 ⟨b, by omega, hg⟩

theorem fillMat {r c : Nat} (g : Nat → Nat → Option ℝ) : ∀ (k i : Nat) (A : Matrix (Fin r) (Fin c) ℝ), i + k = r →
    (∀ v : Matrix (Fin r) (Fin c) ℝ, (∀ (a : Fin r) (b : Fin c), i ≤ a.val → g a b = some (v a b)) →
      loopN (fun i (s : DMat) => loopN (fun j (s : DMat) => (g i j).bind fun x => s.set? i j x) c 0 s) k i (DMat.of A)
        = some (DMat.of fun a b => if i ≤ a.val then v a b else A a b)) ∧
    ((∃ (a : Fin r) (b : Fin c), i ≤ a.val ∧ g a b = none) →
      loopN (fun i (s : DMat) => loopN (fun j (s : DMat) => (g i j).bind fun x => s.set? i j x) c 0 s) k i (DMat.of A) = none) := by
  intro k
  induction k with
  | zero =>
    intro i A hi
    refine ⟨fun v _ => ?_, ?_⟩
    · show some (DMat.of A) = _
      congr 2; funext a b
      rw [if_neg (by have := a.isLt; omega)]
    · rintro ⟨a, b, ha, _⟩; have := a.isLt; omega
  | succ k ih =>
    intro i A hi
    have hir : i < r := by omega
    refine ⟨fun v hv => ?_, ?_⟩
    · unfold loopN
      rw [(fillRow (g i) i hir c 0 A (by omega)).1 (v ⟨i, hir⟩) fun b _ => hv ⟨i, hir⟩ b (Nat.le_refl _), Option.bind_some]
      refine ((ih (i + 1) _ (by omega)).1 v fun a b ha => hv a b (by omega)).trans ?_
      congr 2; funext a b
      by_cases ha : a.val = i
      · have : a = ⟨i, hir⟩ := Fin.ext ha
        subst this
        rw [if_neg (by simp), if_pos ⟨rfl, Nat.zero_le _⟩, if_pos (Nat.le_refl _)]
      · by_cases hb : i ≤ a.val
        · rw [if_pos (by omega), if_pos hb]
        · rw [if_neg (by omega), if_neg (by omega), if_neg hb]
    · rintro ⟨a, b, ha, hg⟩
      unfold loopN
      by_cases hai : a.val = i
      · rw [(fillRow (g i) i hir c 0 A (by omega)).2 ⟨b, Nat.zero_le _, by rw [← hai]; exact hg⟩]; rfl
      · by_cases hrow : ∃ b : Fin c, 0 ≤ b.val ∧ g i b = none
        · rw [(fillRow (g i) i hir c 0 A (by omega)).2 hrow]; rfl
        · have hall : ∀ b : Fin c, ∃ x, g i b = some x := fun b => by
            cases h : g i b with
            | none => exact absurd ⟨b, Nat.zero_le _, h⟩ hrow
            | some x => exact ⟨x, rfl⟩
          choose x hx using hall
          rw [(fillRow (g i) i hir c 0 A (by omega)).1 x fun b _ => hx b, Option.bind_some]
          exact (ih (i + 1) _ (by omega)).2 ⟨a, b, by omega, hg⟩

/-! ### Writing into an existing vector or matrix -/

theorem writeVec_loop (sub : DVec) (L : List Nat) : ∀ (l : List Nat) (i : Nat) (full : DVec), l = L.drop i →
    loopN (fun i (full : DVec) => (L[i]?).bind fun r => (sub.get? i).bind fun v => full.set? r v) l.length i full
      = StateEstimation.writeVec sub i l full := by
  intro l
  induction l with
  | nil => intro i full _; rfl
  | cons r l ih =>
    intro i full hl
    have hi : L[i]? = some r := by
      have := congrArg (·[0]?) hl
      simpa using this.symm
    have hl' : l = L.drop (i + 1) := by
      have := congrArg (List.drop 1) hl
      simpa [Nat.add_comm] using this
    show Option.bind _ _ = _
    unfold StateEstimation.writeVec
    simp only [hi, Option.bind_some, Option.bind_eq_bind]
    cases h1 : sub.get? i with
    | none => rfl
    | some v =>
      rw [Option.bind_some, Option.bind_some]
      cases h2 : full.set? r v with
      | none => rfl
      | some f => exact ih (i + 1) f hl'

theorem writeRow_loop (sub : DMat) (i row : Nat) (L : List Nat) : ∀ (l : List Nat) (j : Nat) (full : DMat), l = L.drop j →
    loopN (fun j (full : DMat) => (L[j]?).bind fun c => (sub.get? i j).bind fun v => full.set? row c v) l.length j full
      = StateEstimation.writeRow sub i row j l full := by
  intro l
  induction l with
  | nil => intro j full _; rfl
  | cons r l ih =>
    intro j full hl
    have hi : L[j]? = some r := by
      have := congrArg (·[0]?) hl
      simpa using this.symm
    have hl' : l = L.drop (j + 1) := by
      have := congrArg (List.drop 1) hl
      simpa [Nat.add_comm] using this
    show Option.bind _ _ = _
    unfold StateEstimation.writeRow
    simp only [hi, Option.bind_some, Option.bind_eq_bind]
    cases h1 : sub.get? i j with
    | none => rfl
    | some v =>
      rw [Option.bind_some, Option.bind_some]
      cases h2 : full.set? row r v with
      | none => rfl
      | some f => exact ih (j + 1) f hl'

theorem writeMat_loop (sub : DMat) (C L : List Nat) : ∀ (l : List Nat) (i : Nat) (full : DMat), l = L.drop i →
    loopN (fun i (full : DMat) => loopN (fun j (full : DMat) => (L[i]?).bind fun r => (C[j]?).bind fun c => (sub.get? i j).bind fun v =>
        full.set? r c v) C.length 0 full) l.length i full
      = StateEstimation.writeMat sub C i l full := by
  intro l
  induction l with
  | nil => intro i full _; rfl
  | cons r l ih =>
    intro i full hl
    have hi : L[i]? = some r := by
      have := congrArg (·[0]?) hl
      simpa using this.symm
    have hl' : l = L.drop (i + 1) := by
      have := congrArg (List.drop 1) hl
      simpa [Nat.add_comm] using this
    show Option.bind _ _ = _
    unfold StateEstimation.writeMat
    simp only [hi, Option.bind_some, Option.bind_eq_bind]
    rw [writeRow_loop sub i r C C 0 full rfl]
    cases h1 : StateEstimation.writeRow sub i r 0 C full with
    | none => rfl
    | some f => exact ih (i + 1) f hl'

end U16
end StateEstimation
