import Verif.Model.FloatAngles
import Verif.Lemmas.Float
import Mathlib.Analysis.Real.Pi.Bounds

/-!
# C70, C71: constrainAngle and angleDifference in double precision
-/

namespace StateEstimation.Props

open StateEstimation.FloatAngle

theorem mpi_double : IsDouble mpi := ⟨884279719003555, -48, by norm_num, by norm_num, by unfold mpi; norm_num [zpow_neg]⟩

theorem mpi_gt : 3.14159 < mpi := by unfold mpi; norm_num
theorem mpi_lt : mpi < 3.1416 := by unfold mpi; norm_num

/-- `mpi` is the double closest to π: within a quarter of a last place. -/
theorem mpi_near_pi : |((mpi : ℚ) : ℝ) - Real.pi| < 1.3e-16 := by
  have h1 := Real.pi_gt_d20
  have h2 := Real.pi_lt_d20
  have h3 : ((mpi : ℚ) : ℝ) = 884279719003555 / 2 ^ 48 := by unfold mpi; push_cast; ring
  rw [abs_lt, h3]
  constructor <;> norm_num at h1 h2 ⊢ <;> linarith

/-! ### Rounding errors -/

theorem roundEven_error (q : ℚ) : |(roundEven q : ℚ) - q| ≤ 1 / 2 := by
  have h1 := Int.floor_le q
  have h2 := Int.lt_floor_add_one q
  unfold roundEven
  dsimp only
  rw [abs_le]
  split_ifs <;> push_cast <;> constructor <;> linarith

theorem roundDouble_error {q : ℚ} (h : q ≠ 0) : |roundDouble q - q| ≤ 2 ^ lastPlace q / 2 := by
  have hp := two_zpow_pos (lastPlace q)
  unfold roundDouble
  rw [if_neg h]
  have : (roundEven (q / 2 ^ lastPlace q) : ℚ) * 2 ^ lastPlace q - q =
      ((roundEven (q / 2 ^ lastPlace q) : ℚ) - q / 2 ^ lastPlace q) * 2 ^ lastPlace q := by
    rw [sub_mul, div_mul_cancel₀ _ hp.ne']
  rw [this, abs_mul, abs_of_pos hp]
  have := roundEven_error (q / 2 ^ lastPlace q)
  nlinarith

theorem log_le_of_lt {q : ℚ} (h0 : q ≠ 0) {k : ℤ} (h : |q| < 2 ^ k) : Int.log 2 |q| < k := by
  have h1 := Int.zpow_log_le_self (b := 2) (by norm_num) (abs_pos.mpr h0)
  push_cast at h1
  exact (zpow_lt_zpow_iff_right₀ (by norm_num : (1 : ℚ) < 2)).mp (lt_of_le_of_lt h1 h)

theorem le_log_of_le {q : ℚ} {k : ℤ} (h : 2 ^ k ≤ |q|) : k ≤ Int.log 2 |q| := by
  have h1 := Int.lt_zpow_succ_log_self (b := 2) (by norm_num) |q|
  push_cast at h1
  have := (zpow_lt_zpow_iff_right₀ (by norm_num : (1 : ℚ) < 2)).mp (lt_of_le_of_lt h h1)
  omega

/-- Below 2^56 the rounding error is at most 4. -/
theorem roundDouble_error_four {q : ℚ} (h : |q| < 2 ^ 56) : |roundDouble q - q| ≤ 4 := by
  by_cases h0 : q = 0
  · rw [h0, roundDouble_zero]; norm_num
  · refine (roundDouble_error h0).trans ?_
    have h1 := log_le_of_lt h0 (k := 56) (by exact_mod_cast h)
    have h2 : lastPlace q ≤ 3 := by unfold lastPlace; omega
    have := zpow_le_zpow_right₀ (by norm_num : (1 : ℚ) ≤ 2) h2
    norm_num at this ⊢
    linarith

/-! ### Termination -/

theorem down_stop {a : ℚ} (h : a ≤ mpi) : down a = some a := by
  rw [down, if_neg (not_lt.mpr h)]

theorem up_stop {a : ℚ} (h : -mpi ≤ a) : up a = some a := by
  rw [up, if_neg (not_lt.mpr h)]

theorem next_le {a : ℚ} (h : mpi < a) (h' : a ≤ 2 ^ 56) : roundDouble (a - 2 * mpi) ≤ a - 2 := by
  have h1 := mpi_gt
  have h2 := mpi_lt
  have := roundDouble_error_four (q := a - 2 * mpi) (by rw [abs_lt]; constructor <;> linarith)
  rw [abs_le] at this
  linarith

theorem next_ge {a : ℚ} (h : mpi < a) : -mpi ≤ roundDouble (a - 2 * mpi) := by
  have := roundDouble_mono (p := -mpi) (q := a - 2 * mpi) (by linarith)
  rwa [roundDouble_exact (isDouble_neg mpi_double)] at this

theorem down_ends (n : Nat) : ∀ a : ℚ, IsDouble a → a ≤ 2 ^ 56 → a ≤ 2 * n → ∃ r, down a = some r ∧ IsDouble r ∧ r ≤ mpi ∧
    (a ≤ mpi → r = a) ∧ (mpi < a → -mpi ≤ r) := by
  induction n with
  | zero =>
    intro a hd _ h
    have := mpi_gt
    have h : a ≤ mpi := by push_cast at h; linarith
    exact ⟨a, down_stop h, hd, h, fun _ => rfl, fun h' => absurd h (not_le.mpr h')⟩
  | succ n ih =>
    intro a hd h1 h2
    by_cases h : a ≤ mpi
    · exact ⟨a, down_stop h, hd, h, fun _ => rfl, fun h' => absurd h (not_le.mpr h')⟩
    · have h := not_le.mp h
      have hn := next_le h h1
      push_cast at h2
      obtain ⟨r, e1, e2, e3, e4, e5⟩ := ih (roundDouble (a - 2 * mpi)) (roundDouble_isDouble _) (by linarith) (by linarith)
      refine ⟨r, ?_, e2, e3, fun h' => absurd h' (not_le.mpr h), fun _ => ?_⟩
      · rw [down, if_pos h]; exact e1
      · by_cases h' : roundDouble (a - 2 * mpi) ≤ mpi
        · rw [e4 h']; exact next_ge h
        · exact e5 (not_le.mp h')

theorem up_next {a : ℚ} : roundDouble (a + 2 * mpi) = -roundDouble (-a - 2 * mpi) := by
  rw [← roundDouble_neg]; congr 1; ring

theorem up_ends (n : Nat) : ∀ a : ℚ, IsDouble a → -2 ^ 56 ≤ a → -(2 * n) ≤ a → a ≤ mpi → ∃ r, up a = some r ∧ IsDouble r ∧
    -mpi ≤ r ∧ r ≤ mpi ∧ (-mpi ≤ a → r = a) := by
  induction n with
  | zero =>
    intro a hd _ h h3
    have := mpi_gt
    have h : -mpi ≤ a := by push_cast at h; linarith
    exact ⟨a, up_stop h, hd, h, h3, fun _ => rfl⟩
  | succ n ih =>
    intro a hd h1 h2 h3
    by_cases h : -mpi ≤ a
    · exact ⟨a, up_stop h, hd, h, h3, fun _ => rfl⟩
    · have h := not_le.mp h
      have hn := next_le (a := -a) (by linarith) (by linarith)
      have hg := next_ge (a := -a) (by linarith)
      have e := up_next (a := a)
      push_cast at h2
      obtain ⟨r, e1, e2, e3, e4, e5⟩ := ih (roundDouble (a + 2 * mpi)) (roundDouble_isDouble _) (by rw [e]; linarith)
        (by rw [e]; linarith) (by rw [e]; linarith)
      refine ⟨r, ?_, e2, e3, e4, fun h' => absurd h' (not_le.mpr h)⟩
      rw [up, if_pos h]; exact e1

/-- **C70, the true part.** For every double of magnitude at most 2^56 both loops end, the result is a double in
[-M_PI, M_PI], and a value already in that range is returned unchanged. -/
theorem C70_terminates_partial (a : ℚ) (hd : IsDouble a) (h : |a| ≤ 2 ^ 56) :
    ∃ r, constrainAngle a = some r ∧ IsDouble r ∧ -mpi ≤ r ∧ r ≤ mpi ∧ (-mpi ≤ a → a ≤ mpi → r = a) := by
  rw [abs_le] at h
  have hm := mpi_gt
  obtain ⟨r, e1, e2, e3, e4, e5⟩ := down_ends (2 ^ 55) a hd h.2 (by push_cast; linarith)
  have hlow : -2 ^ 56 ≤ r := by
    by_cases h' : a ≤ mpi
    · rw [e4 h']; linarith
    · have := e5 (not_le.mp h')
      have := mpi_lt
      linarith
  obtain ⟨s, f1, f2, f3, f4, f5⟩ := up_ends (2 ^ 55) r e2 hlow (by push_cast; linarith) e3
  refine ⟨s, ?_, f2, f3, f4, fun g1 g2 => ?_⟩
  · unfold FloatAngle.constrainAngle
    rw [e1]; exact f1
  · have := e4 g2
    rw [f5 (by rw [this]; exact g1), this]

/-! ### Non-termination -/

/-- A double is a multiple of its last place. -/
theorem double_last_place {a : ℚ} (hd : IsDouble a) (h0 : a ≠ 0) : ∃ N : ℤ, a = N * 2 ^ lastPlace a := by
  have h := roundDouble_exact hd
  unfold roundDouble at h
  rw [if_neg h0] at h
  exact ⟨_, h.symm⟩

/-- Above 2^56 subtracting `2 * M_PI` does nothing. -/
theorem stuck {a : ℚ} (hd : IsDouble a) (h : 2 ^ 56 < a) : roundDouble (a - 2 * mpi) = a := by
  have hm1 := mpi_gt
  have hm2 := mpi_lt
  have ha0 : a ≠ 0 := by intro h'; rw [h'] at h; norm_num at h
  have hpa : 0 < a := lt_trans (by norm_num) h
  obtain ⟨N, hN⟩ := double_last_place hd ha0
  have hla : 4 ≤ lastPlace a := by
    have := le_log_of_le (q := a) (k := 56) (by rw [abs_of_pos hpa]; exact_mod_cast h.le)
    unfold lastPlace; omega
  have h16 : 2 ^ 56 + 16 ≤ a := by
    have e : (2 : ℚ) ^ lastPlace a = 16 * 2 ^ (lastPlace a - 4).toNat := by
      rw [← zpow_natCast, Int.toNat_of_nonneg (by omega), show (16 : ℚ) = 2 ^ (4 : ℤ) by norm_num, ← zpow_add₀ (by norm_num)]
      congr 1; ring
    rw [e] at hN
    have hN' : a = ((N * 2 ^ (lastPlace a - 4).toNat : ℤ) : ℚ) * 16 := hN.trans (by push_cast; ring)
    have h1 : (2 ^ 52 : ℤ) < N * 2 ^ (lastPlace a - 4).toNat := by
      have : ((2 ^ 52 : ℤ) : ℚ) < ((N * 2 ^ (lastPlace a - 4).toNat : ℤ) : ℚ) := by
        rw [hN'] at h
        push_cast at h ⊢
        linarith
      exact_mod_cast this
    have h2 : ((2 ^ 52 + 1 : ℤ) : ℚ) ≤ ((N * 2 ^ (lastPlace a - 4).toNat : ℤ) : ℚ) := by exact_mod_cast h1
    rw [hN']
    push_cast at h2 ⊢
    linarith
  have hq : (2 : ℚ) ^ 56 < a - 2 * mpi := by linarith
  have hq0 : a - 2 * mpi ≠ 0 := by intro h'; rw [h'] at hq; norm_num at hq
  have hqp : 0 < a - 2 * mpi := lt_trans (by norm_num) hq
  set l := lastPlace (a - 2 * mpi) with hl
  have hl4 : 4 ≤ l := by
    have := le_log_of_le (q := a - 2 * mpi) (k := 56) (by rw [abs_of_pos hqp]; exact_mod_cast hq.le)
    rw [hl]; unfold lastPlace; omega
  have hle : l ≤ lastPlace a := by
    rw [hl]
    unfold lastPlace
    apply max_le_max_right
    rw [abs_of_pos hqp, abs_of_pos hpa]
    have := Int.log_mono_right (b := 2) hqp (show a - 2 * mpi ≤ a by linarith)
    omega
  have hp := two_zpow_pos l
  obtain ⟨M, hM⟩ : ∃ M : ℤ, a = M * 2 ^ l := by
    refine ⟨N * 2 ^ (lastPlace a - l).toNat, ?_⟩
    conv_lhs => rw [hN]
    push_cast
    rw [mul_assoc, ← zpow_natCast, Int.toNat_of_nonneg (by omega), ← zpow_add₀ (by norm_num)]
    congr 2; ring
  have h2l : (16 : ℚ) ≤ 2 ^ l := by
    have := zpow_le_zpow_right₀ (by norm_num : (1 : ℚ) ≤ 2) hl4
    norm_num at this ⊢
    exact this
  have hround : roundEven ((a - 2 * mpi) / 2 ^ l) = M := by
    have e : (a - 2 * mpi) / 2 ^ l = M - 2 * mpi / 2 ^ l := by
      rw [sub_div]
      congr 1
      rw [hM, mul_div_assoc, div_self hp.ne', mul_one]
    have hd1 : 0 < 2 * mpi / 2 ^ l := by apply div_pos <;> linarith
    have hd2 : 2 * mpi / 2 ^ l < 1 / 2 := by rw [div_lt_iff₀ hp]; linarith
    have hfl : ⌊(a - 2 * mpi) / 2 ^ l⌋ = M - 1 := by
      rw [Int.floor_eq_iff, e]
      push_cast
      constructor <;> linarith
    unfold roundEven
    dsimp only
    rw [hfl, e]
    push_cast
    rw [if_neg (by linarith), if_pos (by linarith)]
    ring
  unfold roundDouble
  rw [if_neg hq0, ← hl, hround, ← hM]

theorem down_none {a : ℚ} (hd : IsDouble a) (h : 2 ^ 56 < a) : down a = none := by
  by_contra hc
  obtain ⟨r, hr⟩ := Option.ne_none_iff_exists'.mp hc
  have key := down.partial_correctness (fun a _ => ¬ (IsDouble a ∧ 2 ^ 56 < a)) (fun f hf a r har hbad => by
    have hm := mpi_lt
    rw [if_pos (by linarith [hbad.2])] at har
    rw [stuck hbad.1 hbad.2] at har
    exact hf a r har hbad) a r hr
  exact key ⟨hd, h⟩

theorem up_none {a : ℚ} (hd : IsDouble a) (h : a < -2 ^ 56) : up a = none := by
  by_contra hc
  obtain ⟨r, hr⟩ := Option.ne_none_iff_exists'.mp hc
  have key := up.partial_correctness (fun a _ => ¬ (IsDouble a ∧ a < -2 ^ 56)) (fun f hf a r har hbad => by
    have hm := mpi_lt
    rw [if_pos (by linarith [hbad.2])] at har
    rw [up_next, stuck (isDouble_neg hbad.1) (by linarith [hbad.2]), neg_neg] at har
    exact hf a r har hbad) a r hr
  exact key ⟨hd, h⟩

/-- **C70 refuted.** For every double beyond 2^56 in magnitude `constrainAngle` never returns. -/
theorem C70_refuted (a : ℚ) (hd : IsDouble a) (h : 2 ^ 56 < |a|) : constrainAngle a = none := by
  have hm := mpi_gt
  unfold FloatAngle.constrainAngle
  rcases abs_cases a with ⟨e, _⟩ | ⟨e, _⟩
  · rw [e] at h
    rw [down_none hd h]
  · rw [e] at h
    rw [down_stop (by linarith)]
    exact up_none hd (by linarith)

/-- Both parts of C70 are about something: 10^17 hangs, 10^16 does not. -/
example : constrainAngle (10 ^ 17) = none ∧ ∃ r, constrainAngle (10 ^ 16) = some r := by
  refine ⟨C70_refuted _ ⟨5 ^ 17, 17, by norm_num, by norm_num, by norm_num⟩ (by norm_num [abs_of_pos]), ?_⟩
  obtain ⟨r, h, _⟩ := C70_terminates_partial (10 ^ 16) ⟨5 ^ 16, 16, by norm_num, by norm_num, by norm_num⟩
    (by norm_num [abs_of_pos])
  exact ⟨r, h⟩

/-! ### Exactness for ordinary angles -/

theorem two_mpi : 2 * mpi = 884279719003555 * 2 ^ (-47 : ℤ) := by
  unfold mpi; norm_num [zpow_neg]

theorem sub_exact {a : ℚ} (hd : IsDouble a) (h : mpi < a) (h' : a ≤ 64) : IsDouble (a - 2 * mpi) := by
  have hm1 := mpi_gt
  have hm2 := mpi_lt
  obtain ⟨m, e, hm, he, rfl⟩ := hd
  have pe := two_zpow_pos e
  by_cases h47 : -47 ≤ e
  · have e2 : (2 : ℚ) ^ e = 2 ^ (e + 47).toNat * 2 ^ (-47 : ℤ) := by
      rw [← zpow_natCast, Int.toNat_of_nonneg (by omega), ← zpow_add₀ (by norm_num)]; congr 1; ring
    have key : (m : ℚ) * 2 ^ e - 2 * mpi = ((m * 2 ^ (e + 47).toNat - 884279719003555 : ℤ) : ℚ) * 2 ^ (-47 : ℤ) := by
      rw [two_mpi, e2]; push_cast; ring
    refine ⟨_, -47, ?_, by norm_num, key⟩
    have hb : |(m : ℚ) * 2 ^ e - 2 * mpi| < 64 := by rw [abs_lt]; constructor <;> linarith
    rw [key, abs_mul, abs_of_pos (two_zpow_pos _)] at hb
    have h3 : |((m * 2 ^ (e + 47).toNat - 884279719003555 : ℤ) : ℚ)| < 2 ^ 53 := by
      have h47' : (2 : ℚ) ^ (-47 : ℤ) = 1 / 2 ^ 47 := by norm_num [zpow_neg]
      rw [h47', mul_one_div, div_lt_iff₀ (by positivity)] at hb
      calc _ < _ := hb
        _ = 2 ^ 53 := by norm_num
    exact_mod_cast h3
  · have e2 : (2 : ℚ) ^ (-47 : ℤ) = 2 ^ (-47 - e).toNat * 2 ^ e := by
      rw [← zpow_natCast, Int.toNat_of_nonneg (by omega), ← zpow_add₀ (by norm_num)]; congr 1; ring
    have key : (m : ℚ) * 2 ^ e - 2 * mpi = ((m - 884279719003555 * 2 ^ (-47 - e).toNat : ℤ) : ℚ) * 2 ^ e := by
      rw [two_mpi, e2]; push_cast; ring
    refine ⟨_, e, ?_, he, key⟩
    have hb : |(m : ℚ) * 2 ^ e - 2 * mpi| ≤ m * 2 ^ e := by rw [abs_le]; constructor <;> linarith
    rw [key, abs_mul, abs_of_pos pe] at hb
    have h3 : |((m - 884279719003555 * 2 ^ (-47 - e).toNat : ℤ) : ℚ)| ≤ (m : ℚ) := le_of_mul_le_mul_right hb pe
    have h4 : |m - 884279719003555 * 2 ^ (-47 - e).toNat| ≤ m := by exact_mod_cast h3
    exact lt_of_le_of_lt (h4.trans (le_abs_self m)) hm

theorem down_exact (n : Nat) : ∀ a : ℚ, IsDouble a → a ≤ 64 → a ≤ 2 * n →
    ∃ (r : ℚ) (k : ℤ), down a = some r ∧ r = a - k * (2 * mpi) := by
  induction n with
  | zero =>
    intro a _ _ h
    have := mpi_gt
    exact ⟨a, 0, down_stop (by push_cast at h; linarith), by simp⟩
  | succ n ih =>
    intro a hd h1 h2
    by_cases h : a ≤ mpi
    · exact ⟨a, 0, down_stop h, by simp⟩
    · have h := not_le.mp h
      have hx := sub_exact hd h h1
      have hm := mpi_gt
      push_cast at h2
      obtain ⟨r, k, e1, e2⟩ := ih (a - 2 * mpi) hx (by linarith) (by linarith)
      refine ⟨r, k + 1, ?_, by rw [e2]; push_cast; ring⟩
      rw [down, if_pos h, roundDouble_exact hx]; exact e1

theorem up_exact (n : Nat) : ∀ a : ℚ, IsDouble a → -64 ≤ a → -(2 * n) ≤ a →
    ∃ (r : ℚ) (k : ℤ), up a = some r ∧ r = a + k * (2 * mpi) := by
  induction n with
  | zero =>
    intro a _ _ h
    have := mpi_gt
    exact ⟨a, 0, up_stop (by push_cast at h; linarith), by simp⟩
  | succ n ih =>
    intro a hd h1 h2
    by_cases h : -mpi ≤ a
    · exact ⟨a, 0, up_stop h, by simp⟩
    · have h := not_le.mp h
      have hx := sub_exact (isDouble_neg hd) (by linarith) (by linarith)
      have hx' : IsDouble (a + 2 * mpi) := by
        have := isDouble_neg hx
        rwa [show -(-a - 2 * mpi) = a + 2 * mpi by ring] at this
      have hm := mpi_gt
      push_cast at h2
      obtain ⟨r, k, e1, e2⟩ := ih (a + 2 * mpi) hx' (by linarith) (by linarith)
      refine ⟨r, k + 1, ?_, by rw [e2]; push_cast; ring⟩
      rw [up, if_pos h, roundDouble_exact hx']; exact e1

/-- **C70, ordinary angles.** For every double of magnitude at most 64 no rounding happens at all: the result differs from
the argument by exactly an integer multiple of `2 * M_PI`, and is in [-M_PI, M_PI]. -/
theorem C70_exact_partial (a : ℚ) (hd : IsDouble a) (h : |a| ≤ 64) :
    ∃ (r : ℚ) (k : ℤ), constrainAngle a = some r ∧ r = a - k * (2 * mpi) ∧ -mpi ≤ r ∧ r ≤ mpi := by
  obtain ⟨r, e1, e2, e3, e4, _⟩ := C70_terminates_partial a hd (h.trans (by norm_num))
  rw [abs_le] at h
  obtain ⟨s, k, f1, f2⟩ := down_exact 32 a hd h.2 (by push_cast; linarith)
  obtain ⟨s', g1, g2, g3, g4, g5⟩ := down_ends 32 a hd (by linarith) (by push_cast; linarith)
  have hm := mpi_lt
  have hs : s' = s := by rw [f1] at g1; exact (Option.some.inj g1).symm
  subst hs
  have hlow : -64 ≤ s' := by
    by_cases h' : a ≤ mpi
    · rw [g4 h']; linarith
    · have := g5 (not_le.mp h')
      linarith
  obtain ⟨t, j, i1, i2⟩ := up_exact 32 s' g2 hlow (by push_cast; linarith)
  unfold FloatAngle.constrainAngle at e1
  rw [f1] at e1
  have : t = r := by
    have e1 : up s' = some r := e1
    rw [i1] at e1; exact Option.some.inj e1
  subst this
  refine ⟨t, k - j, ?_, by rw [i2, f2]; push_cast; ring, e3, e4⟩
  unfold FloatAngle.constrainAngle
  rw [f1]; exact i1

/-! ### angleDifference -/

theorem fmod_neg_double (x y : ℚ) : FloatAngle.fmod (-x) y = -FloatAngle.fmod x y := by
  have h : truncQ (-x / y) = -truncQ (x / y) := by
    rw [neg_div]
    unfold truncQ
    rcases lt_trichotomy (x / y) 0 with h | h | h
    · rw [if_pos (by linarith), if_neg (by linarith), Int.floor_neg]
    · rw [h]; simp
    · rw [if_neg (by linarith), if_pos (by linarith), Int.ceil_neg]
  unfold FloatAngle.fmod
  rw [h]; push_cast; ring

theorem fmod_pos {x y : ℚ} (hx : 0 ≤ x) (hy : 0 < y) :
    0 ≤ FloatAngle.fmod x y ∧ FloatAngle.fmod x y < y ∧ FloatAngle.fmod x y ≤ x := by
  have hq : 0 ≤ x / y := div_nonneg hx hy.le
  have e : x = x / y * y := (div_mul_cancel₀ x hy.ne').symm
  unfold FloatAngle.fmod truncQ
  rw [if_pos hq]
  have h1 := Int.floor_le (x / y)
  have h2 := Int.lt_floor_add_one (x / y)
  have h3 : (0 : ℚ) ≤ ⌊x / y⌋ := by exact_mod_cast Int.floor_nonneg.mpr hq
  set f : ℚ := (⌊x / y⌋ : ℚ) with hf
  refine ⟨?_, ?_, ?_⟩
  · nlinarith
  · nlinarith
  · nlinarith

theorem fmod_abs (x : ℚ) {y : ℚ} (hy : 0 < y) : |FloatAngle.fmod x y| < y ∧ |FloatAngle.fmod x y| ≤ |x| := by
  rcases le_total 0 x with h | h
  · obtain ⟨h1, h2, h3⟩ := fmod_pos h hy
    rw [abs_of_nonneg h1, abs_of_nonneg h]; exact ⟨h2, h3⟩
  · obtain ⟨h1, h2, h3⟩ := fmod_pos (x := -x) (by linarith) hy
    rw [fmod_neg_double] at h1 h2 h3
    rw [abs_of_nonpos (by linarith), abs_of_nonpos h]; exact ⟨h2, h3⟩

/-- `fmod(x, 2 * M_PI)` of a double is a double: leaving it unrounded in the model is right. -/
theorem fmod_double {x : ℚ} (hd : IsDouble x) : IsDouble (FloatAngle.fmod x (2 * mpi)) := by
  have hm1 := mpi_gt
  have hm2 := mpi_lt
  obtain ⟨h1, h2⟩ := fmod_abs x (y := 2 * mpi) (by linarith)
  obtain ⟨m, e, hm, he, rfl⟩ := hd
  have pe := two_zpow_pos e
  set j := truncQ ((m : ℚ) * 2 ^ e / (2 * mpi)) with hj
  have hf : FloatAngle.fmod ((m : ℚ) * 2 ^ e) (2 * mpi) = (m : ℚ) * 2 ^ e - j * (2 * mpi) := rfl
  by_cases h47 : -47 ≤ e
  · have e2 : (2 : ℚ) ^ e = 2 ^ (e + 47).toNat * 2 ^ (-47 : ℤ) := by
      rw [← zpow_natCast, Int.toNat_of_nonneg (by omega), ← zpow_add₀ (by norm_num)]; congr 1; ring
    have key : (m : ℚ) * 2 ^ e - j * (2 * mpi) = ((m * 2 ^ (e + 47).toNat - j * 884279719003555 : ℤ) : ℚ) * 2 ^ (-47 : ℤ) := by
      rw [two_mpi, e2]; push_cast; ring
    rw [hf, key] at h1
    rw [hf]
    refine ⟨_, -47, ?_, by norm_num, key⟩
    rw [two_mpi, abs_mul, abs_of_pos (two_zpow_pos _)] at h1
    have h3 := lt_of_mul_lt_mul_right h1 (two_zpow_pos _).le
    have h4 : |m * 2 ^ (e + 47).toNat - j * 884279719003555| < 884279719003555 := by exact_mod_cast h3
    exact lt_trans h4 (by norm_num)
  · have e2 : (2 : ℚ) ^ (-47 : ℤ) = 2 ^ (-47 - e).toNat * 2 ^ e := by
      rw [← zpow_natCast, Int.toNat_of_nonneg (by omega), ← zpow_add₀ (by norm_num)]; congr 1; ring
    have key : (m : ℚ) * 2 ^ e - j * (2 * mpi) = ((m - j * (884279719003555 * 2 ^ (-47 - e).toNat) : ℤ) : ℚ) * 2 ^ e := by
      rw [two_mpi, e2]; push_cast; ring
    rw [hf, key] at h2
    rw [hf]
    refine ⟨_, e, ?_, he, key⟩
    rw [abs_mul, abs_mul, abs_of_pos pe] at h2
    have h3 := le_of_mul_le_mul_right h2 pe
    have h4 : |m - j * (884279719003555 * 2 ^ (-47 - e).toNat)| ≤ |m| := by exact_mod_cast h3
    exact lt_of_le_of_lt h4 hm

theorem double_two {x : ℚ} (hd : IsDouble x) : IsDouble (2 * x) := by
  obtain ⟨m, e, hm, he, rfl⟩ := hd
  exact ⟨m, e + 1, hm, by omega, by rw [zpow_add_one₀ (by norm_num)]; ring⟩

/-- The second half of `angleDifference` folds a double in (-2 M_PI, 2 M_PI) into [-M_PI, M_PI] without rounding. -/
theorem fold_pos {d : ℚ} (hd : IsDouble d) (h0 : 0 ≤ d) (h : d < 2 * mpi) : ∃ k : ℤ,
    FloatAngle.fmod (roundDouble (2 * d)) (2 * mpi) - d = d - k * (2 * mpi) ∧ IsDouble (d - k * (2 * mpi)) ∧
      |d - k * (2 * mpi)| ≤ mpi := by
  have hm1 := mpi_gt
  have hm2 := mpi_lt
  rw [roundDouble_exact (double_two hd)]
  have hq : 0 ≤ 2 * d / (2 * mpi) := div_nonneg (by linarith) (by linarith)
  by_cases hc : d < mpi
  · have ht : truncQ (2 * d / (2 * mpi)) = 0 := by
      unfold truncQ
      rw [if_pos hq, Int.floor_eq_iff]
      refine ⟨by exact_mod_cast hq, ?_⟩
      rw [div_lt_iff₀ (by linarith)]; push_cast; linarith
    refine ⟨0, ?_, by simpa using hd, ?_⟩
    · unfold FloatAngle.fmod; rw [ht]; push_cast; ring
    · push_cast; rw [abs_le]; constructor <;> linarith
  · have hc := not_lt.mp hc
    have ht : truncQ (2 * d / (2 * mpi)) = 1 := by
      unfold truncQ
      rw [if_pos hq, Int.floor_eq_iff, le_div_iff₀ (by linarith), div_lt_iff₀ (by linarith)]
      push_cast; constructor <;> linarith
    refine ⟨1, ?_, ?_, ?_⟩
    · unfold FloatAngle.fmod; rw [ht]; push_cast; ring
    · rcases eq_or_lt_of_le hc with e | e
      · have := isDouble_neg mpi_double
        rw [← e, show mpi - ((1 : ℤ) : ℚ) * (2 * mpi) = -mpi by push_cast; ring]; exact this
      · have := sub_exact hd e (by linarith)
        rwa [show d - ((1 : ℤ) : ℚ) * (2 * mpi) = d - 2 * mpi by push_cast; ring]
    · push_cast; rw [abs_le]; constructor <;> linarith

theorem fold_any {d : ℚ} (hd : IsDouble d) (h : |d| < 2 * mpi) : ∃ k : ℤ,
    FloatAngle.fmod (roundDouble (2 * d)) (2 * mpi) - d = d - k * (2 * mpi) ∧ IsDouble (d - k * (2 * mpi)) ∧
      |d - k * (2 * mpi)| ≤ mpi := by
  rw [abs_lt] at h
  rcases le_total 0 d with h0 | h0
  · exact fold_pos hd h0 h.2
  · obtain ⟨k, h1, h2, h3⟩ := fold_pos (isDouble_neg hd) (by linarith) (by linarith : -d < 2 * mpi)
    refine ⟨-k, ?_, ?_, ?_⟩
    · rw [show 2 * -d = -(2 * d) by ring, roundDouble_neg, fmod_neg_double] at h1
      push_cast at h1 ⊢; linarith
    · have := isDouble_neg h2
      rwa [show -(-d - (k : ℚ) * (2 * mpi)) = d - ((-k : ℤ) : ℚ) * (2 * mpi) by push_cast; ring] at this
    · rw [← abs_neg]
      rwa [show -(d - ((-k : ℤ) : ℚ) * (2 * mpi)) = -d - (k : ℚ) * (2 * mpi) by push_cast; ring]

/-- **C71.** `angleDifference` in double precision, for all doubles however large: the result is a double in [-M_PI, M_PI]
and differs from the (once rounded) difference `theta1 - theta2` by exactly an integer multiple of `2 * M_PI`. -/
theorem C71_angleDifference (a b : ℚ) : ∃ k : ℤ,
    angleDifference a b = roundDouble (a - b) - k * (2 * mpi) ∧ |angleDifference a b| ≤ mpi ∧ IsDouble (angleDifference a b) := by
  have hm1 := mpi_gt
  have hd := fmod_double (roundDouble_isDouble (a - b))
  obtain ⟨k, h1, h2, h3⟩ := fold_any hd (fmod_abs _ (by linarith)).1
  have e : angleDifference a b = FloatAngle.fmod (roundDouble (a - b)) (2 * mpi) - k * (2 * mpi) := by
    unfold FloatAngle.angleDifference
    dsimp only
    rw [h1, roundDouble_exact h2]
  refine ⟨truncQ (roundDouble (a - b) / (2 * mpi)) + k, ?_, by rw [e]; exact h3, by rw [e]; exact h2⟩
  rw [e]
  unfold FloatAngle.fmod
  push_cast; ring

/-- **C71.** It is antisymmetric in double precision too. -/
theorem C71_antisymmetric (a b : ℚ) : angleDifference b a = -angleDifference a b := by
  unfold FloatAngle.angleDifference
  dsimp only
  rw [show b - a = -(a - b) by ring, roundDouble_neg, fmod_neg_double]
  set d := FloatAngle.fmod (roundDouble (a - b)) (2 * mpi)
  rw [show 2 * -d = -(2 * d) by ring, roundDouble_neg, fmod_neg_double, ← roundDouble_neg]
  congr 1; ring

/-- **C71.** For angles within [-M_PI, M_PI] of each other that are within a factor of two, nothing is rounded at all. -/
theorem C71_exact (a b : ℚ) (ha : IsDouble a) (hb : IsDouble b) (h1 : a ≤ 2 * b) (h2 : b ≤ 2 * a) : ∃ k : ℤ,
    angleDifference a b = a - b - k * (2 * mpi) ∧ |angleDifference a b| ≤ mpi := by
  obtain ⟨k, e1, e2, _⟩ := C71_angleDifference a b
  rw [roundDouble_exact (sterbenz ha hb h1 h2)] at e1
  exact ⟨k, e1, e2⟩

/-- A difference across the cut: 3 - (-3) = 6 becomes 6 - 2 M_PI. -/
example : angleDifference 3 (-3) = 6 - 2 * mpi := by decide +kernel

end StateEstimation.Props
