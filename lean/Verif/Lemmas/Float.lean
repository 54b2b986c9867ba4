import Verif.Model.Float
import Mathlib.Tactic.Linarith
import Mathlib.Tactic.NormNum
import Mathlib.Tactic.Positivity
import Mathlib.Tactic.FieldSimp

/-! # Facts about rounding to double precision -/

namespace StateEstimation

theorem roundEven_int (n : ℤ) : roundEven n = n := by
  simp [roundEven]

theorem roundEven_bounds (q : ℚ) : ⌊q⌋ ≤ roundEven q ∧ roundEven q ≤ ⌊q⌋ + 1 := by
  unfold roundEven
  dsimp only
  split_ifs <;> omega

/-- Rounding is monotone. -/
theorem roundEven_mono {p q : ℚ} (h : p ≤ q) : roundEven p ≤ roundEven q := by
  have hf : ⌊p⌋ ≤ ⌊q⌋ := Int.floor_le_floor h
  rcases lt_or_eq_of_le hf with h1 | h1
  · have := (roundEven_bounds p).2
    have := (roundEven_bounds q).1
    omega
  · unfold roundEven
    dsimp only
    rw [← h1]
    have : p - (⌊p⌋ : ℚ) ≤ q - (⌊p⌋ : ℚ) := by linarith
    split_ifs <;> first | omega | (exfalso; linarith)

theorem roundEven_ge {n : ℤ} {q : ℚ} (h : (n : ℚ) ≤ q) : n ≤ roundEven q := by
  have := roundEven_mono h
  rwa [roundEven_int] at this

theorem roundEven_le {n : ℤ} {q : ℚ} (h : q ≤ (n : ℚ)) : roundEven q ≤ n := by
  have := roundEven_mono h
  rwa [roundEven_int] at this

theorem roundEven_neg (q : ℚ) : roundEven (-q) = -roundEven q := by
  by_cases hi : ∃ n : ℤ, q = n
  · obtain ⟨n, rfl⟩ := hi
    rw [← Int.cast_neg, roundEven_int, roundEven_int]
  · have hfl : (⌊q⌋ : ℚ) < q := lt_of_le_of_ne (Int.floor_le q) fun h => hi ⟨_, h.symm⟩
    have hfl2 : q < ⌊q⌋ + 1 := Int.lt_floor_add_one q
    have hfn : ⌊-q⌋ = -⌊q⌋ - 1 := by
      rw [Int.floor_eq_iff]
      push_cast
      constructor <;> linarith
    have hev : Even (-⌊q⌋ - 1) ↔ ¬ Even ⌊q⌋ := by
      rw [Int.even_sub, even_neg]
      simp
    unfold roundEven
    dsimp only
    rw [hfn]
    push_cast
    by_cases h1 : q - ⌊q⌋ < 1 / 2
    · rw [if_pos h1, if_neg (by linarith), if_pos (by linarith)]; ring
    · rw [if_neg h1]
      by_cases h2 : 1 / 2 < q - ⌊q⌋
      · rw [if_pos h2, if_pos (by linarith)]; ring
      · rw [if_neg h2, if_neg (by linarith), if_neg (by linarith)]
        by_cases h3 : Even ⌊q⌋
        · rw [if_pos h3, if_neg (by rw [hev]; exact fun h => h h3)]; ring
        · rw [if_neg h3, if_pos (hev.mpr h3)]; ring

theorem lastPlace_neg (q : ℚ) : lastPlace (-q) = lastPlace q := by simp [lastPlace]

theorem roundDouble_neg (q : ℚ) : roundDouble (-q) = -roundDouble q := by
  unfold roundDouble
  by_cases h : q = 0
  · simp [h]
  · rw [if_neg (neg_ne_zero.mpr h), if_neg h, lastPlace_neg, neg_div, roundEven_neg]
    push_cast; ring

theorem two_zpow_pos (e : ℤ) : (0 : ℚ) < 2 ^ e := zpow_pos (by norm_num) e

/-- The significand has at most 53 bits. -/
theorem scaled_lt {q : ℚ} (h : q ≠ 0) : |q| / 2 ^ lastPlace q < 2 ^ 53 := by
  have h1 := Int.lt_zpow_succ_log_self (b := 2) (by norm_num) |q|
  rw [div_lt_iff₀ (two_zpow_pos _)]
  have h2 : (2 : ℚ) ^ (Int.log 2 |q| + 1) ≤ 2 ^ (53 : ℕ) * 2 ^ lastPlace q := by
    rw [← zpow_natCast, ← zpow_add₀ (by norm_num)]
    apply zpow_le_zpow_right₀ (by norm_num)
    have : Int.log 2 |q| - 52 ≤ lastPlace q := le_max_left _ _
    push_cast
    omega
  push_cast at h1
  exact lt_of_lt_of_le h1 h2

/-- If the exponent is not the smallest, the significand has exactly 53 bits. -/
theorem scaled_ge {q : ℚ} (h : q ≠ 0) (he : -1074 < lastPlace q) : 2 ^ 52 ≤ |q| / 2 ^ lastPlace q := by
  have h1 := Int.zpow_log_le_self (b := 2) (by norm_num) (abs_pos.mpr h)
  have h3 : lastPlace q = Int.log 2 |q| - 52 := by
    unfold lastPlace at he ⊢
    omega
  rw [le_div_iff₀ (two_zpow_pos _), h3, ← zpow_natCast, ← zpow_add₀ (by norm_num)]
  push_cast at h1
  have : ((52 : ℕ) : ℤ) + (Int.log 2 |q| - 52) = Int.log 2 |q| := by push_cast; ring
  rw [this]
  exact h1

/-- The result of rounding is a double. -/
theorem roundDouble_isDouble (q : ℚ) : IsDouble (roundDouble q) := by
  unfold roundDouble
  by_cases h : q = 0
  · rw [if_pos h]; exact ⟨0, 0, by norm_num, by norm_num, by norm_num⟩
  · rw [if_neg h]
    have hs : |q / 2 ^ lastPlace q| < 2 ^ 53 := by
      rw [abs_div, abs_of_pos (two_zpow_pos _)]; exact scaled_lt h
    rw [abs_lt] at hs
    have h1 : roundEven (q / 2 ^ lastPlace q) ≤ 2 ^ 53 := roundEven_le (by push_cast; exact hs.2.le)
    have h2 : -2 ^ 53 ≤ roundEven (q / 2 ^ lastPlace q) := roundEven_ge (by push_cast; exact hs.1.le)
    have he : -1074 ≤ lastPlace q := le_max_right _ _
    have key : ∀ m : ℤ, m = 2 ^ 53 ∨ m = -2 ^ 53 → IsDouble ((m : ℚ) * 2 ^ lastPlace q) := by
      intro m hm
      rcases hm with rfl | rfl
      · refine ⟨2 ^ 52, lastPlace q + 1, by norm_num, by omega, ?_⟩
        rw [zpow_add_one₀ (by norm_num)]; push_cast; ring
      · refine ⟨-2 ^ 52, lastPlace q + 1, by norm_num, by omega, ?_⟩
        rw [zpow_add_one₀ (by norm_num)]; push_cast; ring
    by_cases h3 : roundEven (q / 2 ^ lastPlace q) = 2 ^ 53 ∨ roundEven (q / 2 ^ lastPlace q) = -2 ^ 53
    · exact key _ h3
    · refine ⟨_, _, ?_, he, rfl⟩
      rw [abs_lt]
      omega

/-- Doubles are not changed by rounding. -/
theorem roundDouble_exact {q : ℚ} (h : IsDouble q) : roundDouble q = q := by
  obtain ⟨m, e, hm, he, rfl⟩ := h
  unfold roundDouble
  by_cases h0 : (m : ℚ) * 2 ^ e = 0
  · rw [if_pos h0, h0]
  · rw [if_neg h0]
    have hle : lastPlace ((m : ℚ) * 2 ^ e) ≤ e := by
      apply max_le _ he
      have h1 := Int.zpow_log_le_self (b := 2) (by norm_num) (abs_pos.mpr h0)
      push_cast at h1
      have h2 : |(m : ℚ) * 2 ^ e| < 2 ^ (53 + e) := by
        rw [abs_mul, abs_of_pos (two_zpow_pos e), zpow_add₀ (by norm_num)]
        have : (|m| : ℚ) < 2 ^ (53 : ℤ) := by exact_mod_cast hm
        exact mul_lt_mul_of_pos_right this (two_zpow_pos e)
      have h3 := lt_of_le_of_lt h1 h2
      have := (zpow_lt_zpow_iff_right₀ (by norm_num : (1 : ℚ) < 2)).mp h3
      omega
    set l := lastPlace ((m : ℚ) * 2 ^ e)
    have hint : (m : ℚ) * 2 ^ e / 2 ^ l = ((m * 2 ^ (e - l).toNat : ℤ) : ℚ) := by
      rw [mul_div_assoc, ← zpow_sub₀ (by norm_num)]
      push_cast
      rw [← zpow_natCast, Int.toNat_of_nonneg (by omega)]
    rw [hint, roundEven_int, ← hint, div_mul_cancel₀ _ (two_zpow_pos l).ne']

theorem roundDouble_zero : roundDouble 0 = 0 := by simp [roundDouble]

theorem roundDouble_pos_mono {p q : ℚ} (hp : 0 < p) (h : p ≤ q) : roundDouble p ≤ roundDouble q := by
  have hq : 0 < q := lt_of_lt_of_le hp h
  have hle : lastPlace p ≤ lastPlace q := by
    unfold lastPlace
    apply max_le_max_right
    rw [abs_of_pos hp, abs_of_pos hq]
    have := Int.log_mono_right (b := 2) hp h
    omega
  unfold roundDouble
  rw [if_neg hp.ne', if_neg hq.ne']
  rcases lt_or_eq_of_le hle with h1 | h1
  · have hq1 := scaled_ge hq.ne' (lt_of_le_of_lt (le_max_right _ _) h1)
    have hp1 := scaled_lt hp.ne'
    rw [abs_of_pos hq] at hq1
    rw [abs_of_pos hp] at hp1
    have a1 : roundEven (p / 2 ^ lastPlace p) ≤ 2 ^ 53 := roundEven_le (by push_cast; exact hp1.le)
    have a2 : 2 ^ 52 ≤ roundEven (q / 2 ^ lastPlace q) := roundEven_ge (by push_cast; exact hq1)
    have b1 : ((roundEven (p / 2 ^ lastPlace p) : ℤ) : ℚ) ≤ 2 ^ 53 := by exact_mod_cast a1
    have b2 : (2 : ℚ) ^ 52 ≤ ((roundEven (q / 2 ^ lastPlace q) : ℤ) : ℚ) := by exact_mod_cast a2
    calc ((roundEven (p / 2 ^ lastPlace p) : ℤ) : ℚ) * 2 ^ lastPlace p
        ≤ 2 ^ 53 * 2 ^ lastPlace p := mul_le_mul_of_nonneg_right b1 (two_zpow_pos _).le
      _ = 2 ^ 52 * 2 ^ (lastPlace p + 1) := by rw [zpow_add_one₀ (by norm_num)]; ring
      _ ≤ 2 ^ 52 * 2 ^ lastPlace q :=
        mul_le_mul_of_nonneg_left (zpow_le_zpow_right₀ (by norm_num) (by omega)) (by positivity)
      _ ≤ _ := mul_le_mul_of_nonneg_right b2 (two_zpow_pos _).le
  · rw [h1]
    apply mul_le_mul_of_nonneg_right _ (two_zpow_pos _).le
    have : p / 2 ^ lastPlace q ≤ q / 2 ^ lastPlace q := div_le_div_of_nonneg_right h (two_zpow_pos _).le
    exact_mod_cast roundEven_mono this

theorem roundDouble_nonneg {q : ℚ} (h : 0 ≤ q) : 0 ≤ roundDouble q := by
  unfold roundDouble
  by_cases h0 : q = 0
  · rw [if_pos h0]
  · rw [if_neg h0]
    apply mul_nonneg _ (two_zpow_pos _).le
    have : (0 : ℤ) ≤ roundEven (q / 2 ^ lastPlace q) := roundEven_ge (by push_cast; exact div_nonneg h (two_zpow_pos _).le)
    exact_mod_cast this

/-- Rounding to double precision is monotone. -/
theorem roundDouble_mono {p q : ℚ} (h : p ≤ q) : roundDouble p ≤ roundDouble q := by
  rcases lt_trichotomy p 0 with hp | hp | hp
  · rcases lt_or_ge q 0 with hq | hq
    · have := roundDouble_pos_mono (p := -q) (q := -p) (by linarith) (by linarith)
      rw [roundDouble_neg, roundDouble_neg] at this
      linarith
    · have h1 := roundDouble_nonneg hq
      have h2 := roundDouble_nonneg (q := -p) (by linarith)
      rw [roundDouble_neg] at h2
      linarith
  · rw [hp, roundDouble_zero]; exact roundDouble_nonneg (by linarith)
  · exact roundDouble_pos_mono hp h

theorem isDouble_neg {q : ℚ} (h : IsDouble q) : IsDouble (-q) := by
  obtain ⟨m, e, h1, h2, rfl⟩ := h
  exact ⟨-m, e, by rwa [abs_neg], h2, by push_cast; ring⟩

/-- Every double is a multiple of the smallest one. -/
theorem double_grid {q : ℚ} (h : IsDouble q) : ∃ k : ℤ, q = k * 2 ^ (-1074 : ℤ) := by
  obtain ⟨m, e, _, h2, rfl⟩ := h
  refine ⟨m * 2 ^ (e + 1074).toNat, ?_⟩
  push_cast
  rw [mul_assoc, ← zpow_natCast, ← zpow_add₀ (by norm_num), Int.toNat_of_nonneg (by omega)]
  congr 2
  ring

/-- The rounded difference of two doubles is positive exactly if the first is larger. -/
theorem roundDouble_sub_pos {s t : ℚ} (hs : IsDouble s) (ht : IsDouble t) : 0 < roundDouble (s - t) ↔ t < s := by
  constructor
  · intro h
    by_contra hc
    have := roundDouble_mono (p := s - t) (q := 0) (by linarith)
    rw [roundDouble_zero] at this
    linarith
  · intro h
    obtain ⟨a, ha⟩ := double_grid hs
    obtain ⟨b, hb⟩ := double_grid ht
    have hp := two_zpow_pos (-1074)
    have hab : b + 1 ≤ a := by
      rw [ha, hb] at h
      have := lt_of_mul_lt_mul_right h hp.le
      exact_mod_cast this
    have hge : (2 : ℚ) ^ (-1074 : ℤ) ≤ s - t := by
      rw [ha, hb, ← sub_mul]
      have : (1 : ℚ) ≤ (a : ℚ) - b := by
        have : ((b + 1 : ℤ) : ℚ) ≤ a := by exact_mod_cast hab
        push_cast at this
        linarith
      calc (2 : ℚ) ^ (-1074 : ℤ) = 1 * 2 ^ (-1074 : ℤ) := (one_mul _).symm
        _ ≤ _ := mul_le_mul_of_nonneg_right this hp.le
    have h1 := roundDouble_mono hge
    have h2 : IsDouble ((2 : ℚ) ^ (-1074 : ℤ)) := ⟨1, -1074, by norm_num, le_refl _, by norm_num⟩
    rw [roundDouble_exact h2] at h1
    linarith

theorem roundDouble_sub_nonneg {s t : ℚ} (hs : IsDouble s) (ht : IsDouble t) : 0 ≤ roundDouble (s - t) ↔ t ≤ s := by
  have h := roundDouble_sub_pos ht hs
  have e : roundDouble (s - t) = -roundDouble (t - s) := by rw [← roundDouble_neg]; congr 1; ring
  rw [e]
  constructor
  · intro h1
    by_contra hc
    have := h.mpr (by linarith)
    linarith
  · intro h1
    by_contra hc
    have := h.mp (by linarith)
    linarith

/-- Sterbenz: the difference of two doubles within a factor of two of each other is a double. -/
theorem sterbenz {s t : ℚ} (hs : IsDouble s) (ht : IsDouble t) (h1 : s ≤ 2 * t) (h2 : t ≤ 2 * s) : IsDouble (s - t) := by
  have hs0 : 0 ≤ s := by linarith
  have ht0 : 0 ≤ t := by linarith
  obtain ⟨m, e, hm, he, rfl⟩ := hs
  obtain ⟨m', e', hm', he', rfl⟩ := ht
  have pe := two_zpow_pos e
  have pe' := two_zpow_pos e'
  rcases le_total e e' with h | h
  · have e2 : (2 : ℚ) ^ e' = 2 ^ (e' - e).toNat * 2 ^ e := by
      rw [← zpow_natCast, ← zpow_add₀ (by norm_num), Int.toNat_of_nonneg (by omega)]; congr 1; ring
    refine ⟨m - m' * 2 ^ (e' - e).toNat, e, ?_, he, ?_⟩
    · have hq : |((m - m' * 2 ^ (e' - e).toNat : ℤ) : ℚ)| ≤ m := by
        push_cast
        rw [e2, ← mul_assoc] at h1 h2 ht0
        have a1 : (m : ℚ) ≤ 2 * (m' * 2 ^ (e' - e).toNat) := by
          apply le_of_mul_le_mul_right _ pe; linarith
        have a2 : (m' : ℚ) * 2 ^ (e' - e).toNat ≤ 2 * m := by
          apply le_of_mul_le_mul_right _ pe; linarith
        have a3 : (0 : ℚ) ≤ m' * 2 ^ (e' - e).toNat := by
          apply le_of_mul_le_mul_right _ pe; linarith
        rw [abs_le]
        constructor <;> linarith
      have hq' : |m - m' * 2 ^ (e' - e).toNat| ≤ m := by exact_mod_cast hq
      exact lt_of_le_of_lt (hq'.trans (le_abs_self m)) hm
    · push_cast
      rw [e2]; ring
  · have e2 : (2 : ℚ) ^ e = 2 ^ (e - e').toNat * 2 ^ e' := by
      rw [← zpow_natCast, ← zpow_add₀ (by norm_num), Int.toNat_of_nonneg (by omega)]; congr 1; ring
    refine ⟨m * 2 ^ (e - e').toNat - m', e', ?_, he', ?_⟩
    · have hq : |((m * 2 ^ (e - e').toNat - m' : ℤ) : ℚ)| ≤ m' := by
        push_cast
        rw [e2, ← mul_assoc] at h1 h2 hs0
        have a1 : (m : ℚ) * 2 ^ (e - e').toNat ≤ 2 * m' := by
          apply le_of_mul_le_mul_right _ pe'; linarith
        have a2 : (m' : ℚ) ≤ 2 * (m * 2 ^ (e - e').toNat) := by
          apply le_of_mul_le_mul_right _ pe'; linarith
        have a3 : (0 : ℚ) ≤ m * 2 ^ (e - e').toNat := by
          apply le_of_mul_le_mul_right _ pe'; linarith
        rw [abs_le]
        constructor <;> linarith
      have hq' : |m * 2 ^ (e - e').toNat - m'| ≤ m' := by exact_mod_cast hq
      exact lt_of_le_of_lt (hq'.trans (le_abs_self m')) hm'
    · push_cast
      rw [e2]; ring

namespace Double

instance : LinearOrder Double := inferInstanceAs (LinearOrder { q : ℚ // IsDouble q })

/-- Double precision clocks: comparison is exact, addition and subtraction round. -/
instance : LawfulTime Double where
  lt a b := decide (a.1 < b.1)
  le a b := decide (a.1 ≤ b.1)
  sub a b := ⟨roundDouble (a.1 - b.1), roundDouble_isDouble _⟩
  add a b := ⟨roundDouble (a.1 + b.1), roundDouble_isDouble _⟩
  zero := ⟨0, 0, 0, by norm_num, by norm_num, by norm_num⟩
  lt_iff a b := by simp only [decide_eq_true_eq]; exact Iff.rfl
  le_iff a b := by simp only [decide_eq_true_eq]; exact Iff.rfl
  sub_nonneg_iff s t := roundDouble_sub_nonneg s.2 t.2
  sub_pos_iff s t := roundDouble_sub_pos s.2 t.2

end Double

end StateEstimation
