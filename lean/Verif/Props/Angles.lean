import Verif.Model.Angles
import Verif.Lemmas.Subset
import Mathlib.Tactic.LinearCombination
import Mathlib.Tactic.FieldSimp

/-!
# C46 - C49, and the planar part of C51, C66: angles
-/

set_option linter.unusedSectionVars false

namespace StateEstimation
namespace Props

open Real

/-- `a` and `b` are the same direction. -/
def SameAngle (a b : ℝ) : Prop := ∃ k : ℤ, a = b + k * (2 * π)

theorem SameAngle.refl (a : ℝ) : SameAngle a a := ⟨0, by simp⟩
theorem SameAngle.symm {a b : ℝ} (h : SameAngle a b) : SameAngle b a := by
  obtain ⟨k, h⟩ := h
  exact ⟨-k, by rw [h]; push_cast; ring⟩
theorem SameAngle.trans {a b c : ℝ} (h : SameAngle a b) (h' : SameAngle b c) : SameAngle a c := by
  obtain ⟨k, h⟩ := h
  obtain ⟨l, h'⟩ := h'
  exact ⟨k + l, by rw [h, h']; push_cast; ring⟩

/-- `SameAngle` is what it says: same sine and cosine. -/
theorem sameAngle_iff (a b : ℝ) : SameAngle a b ↔ sin a = sin b ∧ cos a = cos b := by
  constructor
  · rintro ⟨k, rfl⟩
    exact ⟨sin_add_int_mul_two_pi b k, cos_add_int_mul_two_pi b k⟩
  · rintro ⟨h1, h2⟩
    have h3 : cos (a - b) = 1 := by rw [cos_sub, h1, h2]; nlinarith [sin_sq_add_cos_sq b]
    obtain ⟨k, hk⟩ := (cos_eq_one_iff _).mp h3
    exact ⟨k, by linarith⟩

theorem angleDown_spec (n : Nat) : ∀ a : ℝ, a ≤ π + n * (2 * π) → ∃ (r : ℝ) (k : ℕ), angleDown a = some r ∧
    r = a - k * (2 * π) ∧ r ≤ π ∧ (a ≤ π → k = 0) ∧ (π < a → -π < r) := by
  have hpi := pi_pos
  induction n with
  | zero =>
    intro a ha
    have ha : a ≤ π := by simpa using ha
    refine ⟨a, 0, ?_, by simp, ha, fun _ => rfl, fun h => by linarith⟩
    rw [angleDown, if_neg (not_lt.mpr ha)]
  | succ n ih =>
    intro a ha
    by_cases h : a ≤ π
    · refine ⟨a, 0, ?_, by simp, h, fun _ => rfl, fun h => by linarith⟩
      rw [angleDown, if_neg (not_lt.mpr h)]
    · have h := not_le.mp h
      obtain ⟨r, k, h1, h2, h3, h4, h5⟩ := ih (a - 2 * π) (by push_cast at ha; linarith)
      refine ⟨r, k + 1, ?_, by rw [h2]; push_cast; ring, h3, fun h' => absurd h' (not_le.mpr h), fun _ => ?_⟩
      · rw [angleDown, if_pos h]; exact h1
      · by_cases h' : a - 2 * π ≤ π
        · rw [h2, h4 h']; simp; linarith
        · exact h5 (not_le.mp h')

theorem angleUp_spec (n : Nat) : ∀ a : ℝ, -π - n * (2 * π) ≤ a → ∃ (r : ℝ) (k : ℕ), angleUp a = some r ∧
    r = a + k * (2 * π) ∧ -π ≤ r ∧ (-π ≤ a → k = 0) ∧ (a < -π → r < π) := by
  have hpi := pi_pos
  induction n with
  | zero =>
    intro a ha
    have ha : -π ≤ a := by simpa using ha
    refine ⟨a, 0, ?_, by simp, ha, fun _ => rfl, fun h => by linarith⟩
    rw [angleUp, if_neg (not_lt.mpr ha)]
  | succ n ih =>
    intro a ha
    by_cases h : -π ≤ a
    · refine ⟨a, 0, ?_, by simp, h, fun _ => rfl, fun h => by linarith⟩
      rw [angleUp, if_neg (not_lt.mpr h)]
    · have h := not_le.mp h
      obtain ⟨r, k, h1, h2, h3, h4, h5⟩ := ih (a + 2 * π) (by push_cast at ha; linarith)
      refine ⟨r, k + 1, ?_, by rw [h2]; push_cast; ring, h3, fun h' => absurd h' (not_le.mpr h), fun _ => ?_⟩
      · rw [angleUp, if_pos h]; exact h1
      · by_cases h' : -π ≤ a + 2 * π
        · rw [h2, h4 h']; simp; linarith
        · exact h5 (not_le.mp h')

theorem exists_turns (b : ℝ) : ∃ n : Nat, b ≤ π + n * (2 * π) := by
  have hpi := pi_pos
  obtain ⟨n, hn⟩ := exists_nat_ge (b / (2 * π))
  refine ⟨n, ?_⟩
  have := (div_le_iff₀ (by linarith : (0 : ℝ) < 2 * π)).mp hn
  linarith

/-- **C46.**  `constrainAngle` ends for every real angle; the result is in `[-π, π]`, is the same direction, and is the
argument itself if that is in range. -/
theorem C46_constrainAngle (a : ℝ) : ∃ r, constrainAngle a = some r ∧ -π ≤ r ∧ r ≤ π ∧ SameAngle r a ∧
    (-π ≤ a → a ≤ π → r = a) := by
  have hpi := pi_pos
  obtain ⟨n, hn⟩ := exists_turns a
  obtain ⟨r, k, h1, h2, h3, h4, h5⟩ := angleDown_spec n a hn
  obtain ⟨n', hn'⟩ := exists_turns (-r)
  obtain ⟨r', k', g1, g2, g3, g4, g5⟩ := angleUp_spec n' r (by linarith)
  refine ⟨r', ?_, g3, ?_, ⟨k' - k, ?_⟩, ?_⟩
  · show (angleDown a).bind angleUp = some r'
    rw [h1]; exact g1
  · by_cases h : -π ≤ r
    · rw [g2, g4 h]; simpa using h3
    · exact le_of_lt (g5 (not_le.mp h))
  · rw [g2, h2]; push_cast; ring
  · intro ha hb
    have e1 : k = 0 := h4 hb
    rw [e1] at h2
    have e2 : r = a := by rw [h2]; simp
    have e3 : k' = 0 := g4 (by rw [e2]; exact ha)
    rw [g2, e3, e2]; simp

/-- The result is unique but for the two names of the direction `π`. -/
theorem sameAngle_unique {a b : ℝ} (h : SameAngle a b) (ha : -π ≤ a) (ha' : a ≤ π) (hb : -π ≤ b) (hb' : b ≤ π) :
    a = b ∨ (a = π ∧ b = -π) ∨ (a = -π ∧ b = π) := by
  have hpi := pi_pos
  obtain ⟨k, hk⟩ := h
  have h1 : (k : ℝ) < 2 := by
    by_contra hc
    have := not_lt.mp hc
    nlinarith
  have h2 : (-2 : ℝ) < k := by
    by_contra hc
    have := not_lt.mp hc
    nlinarith
  have h1' : k < 2 := by exact_mod_cast h1
  have h2' : -2 < k := by exact_mod_cast h2
  have : k = -1 ∨ k = 0 ∨ k = 1 := by omega
  rcases this with rfl | rfl | rfl
  · right; right; push_cast at hk; constructor <;> linarith
  · left; push_cast at hk; linarith
  · right; left; push_cast at hk; constructor <;> linarith

theorem mapLoop_spec {n : Nat} (f : Nat → Option ℝ) (g : Fin n → ℝ) (hf : ∀ i : Fin n, f i = some (g i)) :
    ∀ (fuel i : Nat) (acc : Fin n → ℝ), i + fuel = n →
      mapLoop f fuel i (.of acc) = some (.of fun j => if j.val < i then acc j else g j) := by
  intro fuel
  induction fuel with
  | zero =>
    intro i acc hi
    show some _ = some _
    congr 2
    funext j
    rw [if_pos (by omega)]
  | succ fuel ih =>
    intro i acc hi
    have hin : i < n := by omega
    unfold mapLoop
    have e := hf ⟨i, hin⟩
    dsimp only at e
    rw [e]
    show ((DVec.of acc).set? i (g ⟨i, hin⟩)).bind _ = _
    rw [show (DVec.of acc).set? i (g ⟨i, hin⟩) = _ from set_of acc ⟨i, hin⟩ _]
    show mapLoop f fuel (i + 1) _ = _
    rw [ih (i + 1) _ (by omega)]
    congr 2
    funext j
    by_cases h1 : j.val < i
    · rw [if_pos (by omega), if_pos h1, Function.update_of_ne]
      intro h; rw [h] at h1; exact absurd h1 (by simp)
    · rw [if_neg h1]
      by_cases h2 : j.val = i
      · have : j = ⟨i, hin⟩ := Fin.ext h2
        rw [if_pos (by omega), this, Function.update_self]
      · rw [if_neg (by omega)]

/-- **C46** for vectors. -/
theorem C46_constrainAngles {n : Nat} (a : Fin n → ℝ) : ∃ r : Fin n → ℝ, constrainAngles (.of a) = some (.of r) ∧
    ∀ i, constrainAngle (a i) = some (r i) := by
  choose r hr using fun i => C46_constrainAngle (a i)
  refine ⟨r, ?_, fun i => (hr i).1⟩
  unfold constrainAngles
  refine (mapLoop_spec _ r ?_ n 0 (fun _ => 0) (by omega)).trans ?_
  · intro i
    rw [get_of_fin a i]
    exact (hr i).1
  · congr 2

theorem fmod_cases (x : ℝ) : ∃ k : ℤ, fmod x (2 * π) = x - k * (2 * π) ∧
    (0 ≤ x → 0 ≤ fmod x (2 * π) ∧ fmod x (2 * π) < 2 * π) ∧
    (x ≤ 0 → -(2 * π) < fmod x (2 * π) ∧ fmod x (2 * π) ≤ 0) := by
  have hpi : (0 : ℝ) < 2 * π := by linarith [pi_pos]
  have hx : x = x / (2 * π) * (2 * π) := by field_simp
  unfold fmod truncate
  by_cases h : 0 ≤ x / (2 * π)
  · rw [if_pos h]
    have f1 := Int.floor_le (x / (2 * π))
    have f2 := Int.lt_floor_add_one (x / (2 * π))
    refine ⟨⌊x / (2 * π)⌋, by ring, fun _ => ⟨?_, ?_⟩, fun h0 => ?_⟩
    · nlinarith
    · nlinarith
    · have : x / (2 * π) = 0 := le_antisymm (div_nonpos_of_nonpos_of_nonneg h0 hpi.le) h
      rw [this] at hx ⊢
      simp at hx
      simp [hx]
      exact pi_pos
  · rw [if_neg h]
    have h := not_le.mp h
    have f1 := Int.le_ceil (x / (2 * π))
    have f2 := Int.ceil_lt_add_one (x / (2 * π))
    refine ⟨⌈x / (2 * π)⌉, by ring, fun h0 => ?_, fun _ => ⟨?_, ?_⟩⟩
    · exact absurd (div_nonneg h0 hpi.le) (not_le.mpr h)
    · nlinarith
    · nlinarith

/-- Case analysis of `angleDifference` on the value of the first `fmod`. -/
theorem angleDifference_cases (a b : ℝ) : ∃ d : ℝ, SameAngle d (a - b) ∧ -(2 * π) < d ∧ d < 2 * π ∧ (0 ≤ a - b → 0 ≤ d) ∧
    (a - b ≤ 0 → d ≤ 0) ∧
    ((|d| < π ∧ angleDifference a b = d) ∨ (π ≤ d ∧ angleDifference a b = d - 2 * π) ∨ (d ≤ -π ∧ angleDifference a b = d + 2 * π)) := by
  have hpi := pi_pos
  obtain ⟨k, h1, h2, h3⟩ := fmod_cases (a - b)
  set d := fmod (a - b) (2 * π) with hd
  obtain ⟨l, g1, g2, g3⟩ := fmod_cases (2 * d)
  have e : angleDifference a b = fmod (2 * d) (2 * π) - d := rfl
  have hr : -(2 * π) < d ∧ d < 2 * π := by
    rcases le_total 0 (a - b) with h | h
    · have := h2 h; constructor <;> linarith
    · have := h3 h; constructor <;> linarith
  refine ⟨d, ⟨-k, by rw [h1]; push_cast; ring⟩, hr.1, hr.2, fun h => (h2 h).1, fun h => (h3 h).2, ?_⟩
  rw [e, g1]
  have key : ∀ l' : ℤ, (l : ℝ) < l' + 1 → (l' : ℝ) - 1 < l → l = l' := by
    intro l' u v
    have u' : l < l' + 1 := by exact_mod_cast u
    have v' : l' - 1 < l := by exact_mod_cast v
    omega
  rcases le_total 0 d with h | h
  · obtain ⟨c1, c2⟩ := g2 (by linarith)
    rw [g1] at c1 c2
    by_cases hlt : d < π
    · left
      have : l = 0 := key 0 (by push_cast; nlinarith) (by push_cast; nlinarith)
      refine ⟨by rw [abs_of_nonneg h]; exact hlt, by rw [this]; push_cast; ring⟩
    · right; left
      have hge := not_lt.mp hlt
      have : l = 1 := key 1 (by push_cast; nlinarith) (by push_cast; nlinarith)
      exact ⟨hge, by rw [this]; push_cast; ring⟩
  · obtain ⟨c1, c2⟩ := g3 (by linarith)
    rw [g1] at c1 c2
    by_cases hlt : -π < d
    · left
      have : l = 0 := key 0 (by push_cast; nlinarith) (by push_cast; nlinarith)
      refine ⟨by rw [abs_of_nonpos h]; linarith, by rw [this]; push_cast; ring⟩
    · right; right
      have hge := not_lt.mp hlt
      have : l = -1 := key (-1) (by push_cast; nlinarith) (by push_cast; nlinarith)
      exact ⟨hge, by rw [this]; push_cast; ring⟩

theorem truncate_neg (q : ℝ) : truncate (-q) = -truncate q := by
  unfold truncate
  rcases lt_trichotomy q 0 with h | rfl | h
  · rw [if_pos (by linarith), if_neg (not_le.mpr h), Int.floor_neg]
  · simp
  · rw [if_neg (by linarith), if_pos h.le, Int.ceil_neg]

theorem fmod_neg (x y : ℝ) : fmod (-x) y = -fmod x y := by
  unfold fmod
  rw [neg_div, truncate_neg]; push_cast; ring

/-- **C47.**  For arbitrary real angles `angleDifference` is in `[-π, π]`, is the direction of `a - b`, is antisymmetric,
and no other representative of that direction is smaller in absolute value. -/
theorem C47_angleDifference (a b : ℝ) : -π ≤ angleDifference a b ∧ angleDifference a b ≤ π ∧
    SameAngle (angleDifference a b) (a - b) ∧ angleDifference b a = -angleDifference a b ∧
    ∀ c, SameAngle c (a - b) → |angleDifference a b| ≤ |c| := by
  have hpi := pi_pos
  obtain ⟨d, ⟨k, hk⟩, hl, hu, _, _, h⟩ := angleDifference_cases a b
  have range : -π ≤ angleDifference a b ∧ angleDifference a b ≤ π ∧ SameAngle (angleDifference a b) (a - b) := by
    rcases h with ⟨h1, h2⟩ | ⟨h1, h2⟩ | ⟨h1, h2⟩
    · rw [h2]; exact ⟨by linarith [neg_abs_le d], by linarith [le_abs_self d], ⟨k, hk⟩⟩
    · rw [h2]; exact ⟨by linarith, by linarith, ⟨k - 1, by rw [hk]; push_cast; ring⟩⟩
    · rw [h2]; exact ⟨by linarith, by linarith, ⟨k + 1, by rw [hk]; push_cast; ring⟩⟩
  refine ⟨range.1, range.2.1, range.2.2, ?_, ?_⟩
  · unfold angleDifference
    rw [show b - a = -(a - b) by ring]
    simp only [fmod_neg]
    rw [show 2 * -fmod (a - b) (2 * π) = -(2 * fmod (a - b) (2 * π)) by ring, fmod_neg]
    ring
  · intro c hc
    obtain ⟨j, hj⟩ := hc.trans range.2.2.symm
    set e := angleDifference a b with he
    by_cases hj0 : j = 0
    · rw [hj, hj0]; simp
    · have : (1 : ℝ) ≤ |(j : ℝ)| := by
        have : 1 ≤ |j| := Int.one_le_abs hj0
        exact_mod_cast this
      have habs : |e| ≤ π := abs_le.mpr ⟨range.1, range.2.1⟩
      have h1 : |(j : ℝ) * (2 * π)| ≤ |c| + |e| := by
        have : (j : ℝ) * (2 * π) = c - e := by linarith
        rw [this]; exact abs_sub _ _
      rw [abs_mul, abs_of_pos (by linarith : (0 : ℝ) < 2 * π)] at h1
      nlinarith

/-- **C47** for vectors. -/
theorem C47_angleDifferences {n : Nat} (a b : Fin n → ℝ) :
    angleDifferences (.of a) (.of b) = some (.of fun i => angleDifference (a i) (b i)) := by
  unfold angleDifferences
  rw [if_pos rfl]
  refine (mapLoop_spec _ (fun i => angleDifference (a i) (b i)) ?_ n 0 (fun _ => 0) (by omega)).trans ?_
  · intro i
    rw [get_of_fin a i, get_of_fin b i]
    rfl
  · congr 2

end Props
end StateEstimation
