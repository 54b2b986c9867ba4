import Verif.Model.FloatKF
import Verif.Lemmas.Float
import Verif.Lemmas.PlantInv
import Verif.Examples.Toy
import Mathlib.Data.List.Sort
import Mathlib.Tactic.FieldSimp
import Mathlib.Tactic.Linarith

/-! # C90: the variance of a scalar filter in double precision -/

set_option linter.unusedSectionVars false

namespace StateEstimation
namespace Props

open ScalarKF

/-! ### Rounding -/

private theorem roundEven_err (q : ℚ) : |(roundEven q : ℚ) - q| ≤ 1 / 2 := by
  have h1 := Int.floor_le q
  have h2 := Int.lt_floor_add_one q
  unfold roundEven
  simp only
  split_ifs with a b c
  · rw [abs_le]; constructor <;> linarith
  · push_cast; rw [abs_le]; constructor <;> linarith
  · rw [abs_le]; constructor <;> linarith
  · push_cast; rw [abs_le]; constructor <;> linarith

private theorem roundDouble_err (q : ℚ) : |roundDouble q - q| ≤ 2 ^ lastPlace q / 2 := by
  unfold roundDouble
  split_ifs with h
  · rw [h, sub_zero, abs_zero]; exact div_nonneg (two_zpow_pos _).le (by norm_num)
  · have hp := two_zpow_pos (lastPlace q)
    have e : (roundEven (q / 2 ^ lastPlace q) : ℚ) * 2 ^ lastPlace q - q
        = ((roundEven (q / 2 ^ lastPlace q) : ℚ) - q / 2 ^ lastPlace q) * 2 ^ lastPlace q := by
      field_simp
    rw [e, abs_mul, abs_of_pos hp]
    have := mul_le_mul_of_nonneg_right (roundEven_err (q / 2 ^ lastPlace q)) hp.le
    linarith

private theorem isDouble_pow {e : ℤ} (he : -1074 ≤ e) : IsDouble (2 ^ e) := ⟨1, e, by norm_num, he, by simp⟩

/-- the next number above `2^e` is at relative distance `2^-52`; less than half of it rounds down -/
private theorem roundDouble_le_pow {q : ℚ} {e : ℤ} (he : -1022 ≤ e) (h : q < 2 ^ e * (1 + 2 ^ (-53 : ℤ))) :
    roundDouble q ≤ 2 ^ e := by
  rcases le_or_gt q (2 ^ e) with h1 | h1
  · have := roundDouble_mono h1
    rwa [roundDouble_exact (isDouble_pow (by omega))] at this
  · have hp := two_zpow_pos e
    have hq : 0 < q := hp.trans h1
    have hlog : Int.log 2 |q| = e := by
      rw [abs_of_pos hq]
      apply le_antisymm
      · have : q < 2 ^ (e + 1) := by
          rw [zpow_add₀ (by norm_num)]
          refine h.trans ?_
          apply mul_lt_mul_of_pos_left _ hp
          norm_num
        have := (Int.lt_zpow_iff_log_lt (b := 2) (by norm_num) hq (x := e + 1)).mp (by exact_mod_cast this)
        omega
      · exact (Int.zpow_le_iff_le_log (b := 2) (by norm_num) hq).mp (by exact_mod_cast h1.le)
    have hlp : lastPlace q = e - 52 := by unfold lastPlace; rw [hlog]; omega
    unfold roundDouble
    rw [if_neg hq.ne', hlp]
    have hs : (2 : ℚ) ^ e = 2 ^ (52 : ℤ) * 2 ^ (e - 52) := by rw [← zpow_add₀ (by norm_num)]; congr 1; ring
    have hp2 := two_zpow_pos (e - 52)
    have l1 : (2 : ℚ) ^ (52 : ℤ) < q / 2 ^ (e - 52) := by rw [lt_div_iff₀ hp2, ← hs]; exact h1
    have l2 : q / 2 ^ (e - 52) < 2 ^ (52 : ℤ) + 1 / 2 := by
      rw [div_lt_iff₀ hp2]
      refine h.trans_eq ?_
      rw [hs, mul_right_comm]
      congr 1
      norm_num
    have hf : ⌊q / 2 ^ (e - 52)⌋ = 2 ^ 52 := by
      rw [Int.floor_eq_iff]
      norm_num at l1 l2 ⊢
      constructor <;> linarith
    have hr : roundEven (q / 2 ^ (e - 52)) = 2 ^ 52 := by
      unfold roundEven
      simp only [hf]
      rw [if_pos]
      norm_num at l2 ⊢
      linarith
    rw [hr, hs]
    norm_num

/-- a number times its rounded reciprocal is hardly above 1 -/
private theorem recip_bound {s : ℚ} (hs : 0 < s) (hb : s ≤ 2 ^ 1022) : s * roundDouble (1 / s) < 1 + 2 ^ (-53 : ℤ) := by
  have hi : 0 < 1 / s := by positivity
  set L := Int.log 2 (1 / s) with hL
  have h1 : (2 : ℚ) ^ L ≤ 1 / s := by exact_mod_cast Int.zpow_log_le_self (b := 2) (by norm_num) hi
  have hsL : s ≤ 2 ^ (-L) := by
    rw [zpow_neg]
    rw [le_div_iff₀ hs] at h1
    rw [le_inv_comm₀ hs (two_zpow_pos L), ← one_div]
    exact (le_div_iff₀ hs).mpr h1
  have hL2 : -1022 ≤ L := by
    refine (Int.zpow_le_iff_le_log (b := 2) (by norm_num) hi).mp ?_
    rw [le_div_iff₀ hs]
    have hb' : s ≤ ((2 : ℕ) : ℚ) ^ (1022 : ℤ) := by exact_mod_cast hb
    refine (mul_le_mul_of_nonneg_left hb' (zpow_nonneg (by norm_num) _)).trans_eq ?_
    rw [← zpow_add₀ (by norm_num)]
    norm_num
  clear hb
  have hlp : lastPlace (1 / s) = L - 52 := by unfold lastPlace; rw [abs_of_pos hi, ← hL]; omega
  have herr := roundDouble_err (1 / s)
  rw [hlp, abs_le] at herr
  rcases hsL.lt_or_eq with h | h
  · have e1 : s * roundDouble (1 / s) ≤ s * (1 / s + 2 ^ (L - 52) / 2) := by
      apply mul_le_mul_of_nonneg_left _ hs.le
      linarith [herr.2]
    have e2 : s * (1 / s + 2 ^ (L - 52) / 2) = 1 + s * 2 ^ (L - 53) := by
      have : (2 : ℚ) ^ (L - 52) = 2 ^ (L - 53) * 2 := by
        rw [← zpow_add_one₀ (by norm_num)]; congr 1; ring
      rw [this]
      field_simp
    have e3 : s * 2 ^ (L - 53) < 2 ^ (-L) * 2 ^ (L - 53) := mul_lt_mul_of_pos_right h (two_zpow_pos _)
    rw [← zpow_add₀ (by norm_num)] at e3
    have : -L + (L - 53) = -53 := by ring
    rw [this] at e3
    calc s * roundDouble (1 / s) ≤ _ := e1
      _ = 1 + s * 2 ^ (L - 53) := e2
      _ < _ := by gcongr
  · have e1 : 1 / s = 2 ^ L := by rw [h, zpow_neg]; simp
    rw [e1, roundDouble_exact (isDouble_pow (by omega)), h, ← zpow_add₀ (by norm_num)]
    simp

private theorem roundDouble_one : roundDouble 1 = 1 := roundDouble_exact ⟨1, 0, by norm_num, by norm_num, by norm_num⟩

/-! ### One correction -/

private theorem isDouble_mul_pow {c : ℚ} (hc : IsDouble c) (k : ℕ) : IsDouble (c * 2 ^ k) := by
  obtain ⟨m, e, h1, h2, rfl⟩ := hc
  exact ⟨m, e + k, h1, by omega, by rw [zpow_add₀ (by norm_num), zpow_natCast, mul_assoc]⟩

private theorem mul_neg' (a b : ℚ) : mul a (-b) = -mul a b := by
  unfold mul; rw [mul_neg, roundDouble_neg]

private theorem neg_mul' (a b : ℚ) : mul (-a) b = -mul a b := by
  unfold mul; rw [neg_mul, roundDouble_neg]

/-- A sensor reading plus or minus a power of two times the state (`C = 1`: the state itself). -/
def PowerOfTwo (C : ℚ) : Prop := ∃ k : ℕ, k ≤ 1022 ∧ (C = 2 ^ k ∨ C = -2 ^ k)

/-- the gain times `C` is a weight between 0 and 1 -/
private theorem weight_pos {c R : ℚ} {k : ℕ} (hk : k ≤ 1022) (hc : IsDouble c) (hc0 : 0 ≤ c) (hR : 0 ≤ R) {K : ℚ}
    (h : gain ⟨2 ^ k, R⟩ c = some K) : 0 ≤ K ∧ 0 ≤ mul K (2 ^ k) ∧ mul K (2 ^ k) ≤ 1 := by
  have ha : mul c (2 ^ k) = c * 2 ^ k := roundDouble_exact (isDouble_mul_pow hc k)
  have hb : mul (2 ^ k) (c * 2 ^ k) = c * 2 ^ k * 2 ^ k := by
    unfold mul; rw [mul_comm]; exact roundDouble_exact (isDouble_mul_pow (isDouble_mul_pow hc k) k)
  unfold gain at h
  simp only [ha, hb] at h
  set S := add (c * 2 ^ k * 2 ^ k) R with hS
  have hbS : c * 2 ^ k * 2 ^ k ≤ S := by
    have := roundDouble_mono (p := c * 2 ^ k * 2 ^ k) (q := c * 2 ^ k * 2 ^ k + R) (by linarith)
    rwa [roundDouble_exact (isDouble_mul_pow (isDouble_mul_pow hc k) k)] at this
  have hp : (0 : ℚ) < 2 ^ k := by positivity
  have hb0 : 0 ≤ c * 2 ^ k * 2 ^ k := by positivity
  unfold recip at h
  split_ifs at h with hcond
  · cases h
  · rw [not_or] at hcond
    obtain ⟨h1, h2⟩ := hcond
    have hS0 : 0 < S := lt_of_le_of_ne (hb0.trans hbS) (Ne.symm h1)
    rw [abs_of_pos hS0, not_lt] at h2
    have hi0 : 0 ≤ roundDouble (1 / S) := roundDouble_nonneg (by positivity)
    have hrb := recip_bound hS0 h2
    simp only [Option.map_some, Option.some.injEq] at h
    have hq0 : 0 ≤ c * 2 ^ k * roundDouble (1 / S) := by positivity
    have hK0 : 0 ≤ K := by rw [← h]; exact roundDouble_nonneg hq0
    have hK1 : K ≤ 2 ^ (-(k : ℤ)) := by
      rw [← h]
      refine roundDouble_le_pow (by omega) ?_
      have e1 : c * 2 ^ k * 2 ^ k * roundDouble (1 / S) ≤ S * roundDouble (1 / S) := mul_le_mul_of_nonneg_right hbS hi0
      have e2 := lt_of_le_of_lt e1 hrb
      rw [zpow_neg, zpow_natCast, inv_mul_eq_div, lt_div_iff₀ hp]
      calc c * 2 ^ k * roundDouble (1 / S) * 2 ^ k = c * 2 ^ k * 2 ^ k * roundDouble (1 / S) := by ring
        _ < _ := e2
    refine ⟨hK0, roundDouble_nonneg (by positivity), ?_⟩
    have : roundDouble (K * 2 ^ k) ≤ roundDouble 1 := by
      apply roundDouble_mono
      have := mul_le_mul_of_nonneg_right hK1 hp.le
      rwa [zpow_neg, zpow_natCast, inv_mul_cancel₀ hp.ne'] at this
    have h1 : roundDouble 1 = 1 := roundDouble_exact ⟨1, 0, by norm_num, by norm_num, by norm_num⟩
    rwa [h1] at this

private theorem gain_neg (C R c : ℚ) : gain ⟨-C, R⟩ c = (gain ⟨C, R⟩ c).map (fun k => -k) := by
  unfold gain
  simp only [mul_neg', neg_mul', neg_neg]
  cases recip (add (mul C (mul c C)) R) <;> simp [neg_mul']

/-- **C90.** One correction of a Kalman filter with one state in double precision, by a sensor that reads the state or plus or
minus a power of two times it: if the variance was not negative (and the covariance passed to `correct` is not), the new
variance is not negative and not larger than before, and the estimate is not moved away from the measurement.  (For other
sensors the claim is false, see `C90_negative_variance`.) -/
theorem C90_correction_partial {m : MeasM} {x c z x' c' : ℚ} (hC : PowerOfTwo m.C) (hR : 0 ≤ m.cov) (hx : IsDouble x) (hc : IsDouble c) (hc0 : 0 ≤ c)
    (h : correct m x c z = some (x', c')) :
    IsDouble x' ∧ IsDouble c' ∧ 0 ≤ c' ∧ c' ≤ c ∧ (m.C * x ≤ z → m.C * x ≤ m.C * x') ∧ (z ≤ m.C * x → m.C * x' ≤ m.C * x) := by
  obtain ⟨C, R⟩ := m
  simp only at hC hR
  unfold correct at h
  rw [Option.map_eq_some_iff] at h
  obtain ⟨K, hK, h⟩ := h
  unfold apply at h
  obtain ⟨rfl, rfl⟩ := Prod.mk.inj h
  simp only
  have hpow : (0 : ℚ) < 1 := one_pos
  obtain ⟨k, hk, hCk⟩ := hC
  -- the weight and the direction of the gain
  have key : 0 ≤ mul K C ∧ mul K C ≤ 1 ∧ 0 ≤ K * C := by
    rcases hCk with rfl | rfl
    · obtain ⟨a, b, c⟩ := weight_pos hk hc hc0 hR hK
      exact ⟨b, c, by positivity⟩
    · rw [gain_neg, Option.map_eq_some_iff] at hK
      obtain ⟨K', hK', rfl⟩ := hK
      obtain ⟨a, b, c⟩ := weight_pos hk hc hc0 hR hK'
      rw [mul_neg', neg_mul', neg_neg]
      exact ⟨b, c, by rw [neg_mul_neg]; positivity⟩
  obtain ⟨w0, w1, w2⟩ := key
  have s0 : 0 ≤ sub 1 (mul K C) := roundDouble_nonneg (by linarith)
  have s1 : sub 1 (mul K C) ≤ 1 := by
    have := roundDouble_mono (p := 1 - mul K C) (q := 1) (by linarith)
    rwa [roundDouble_one] at this
  have hCx : mul C x = C * x := by
    rcases hCk with rfl | rfl
    · unfold mul; rw [mul_comm]; exact roundDouble_exact (isDouble_mul_pow hx k)
    · unfold mul; rw [neg_mul, roundDouble_neg, mul_comm, roundDouble_exact (isDouble_mul_pow hx k)]
  -- moving by a step in the direction of C
  have step : ∀ d, (0 ≤ C * d → C * x ≤ C * add x d) ∧ (C * d ≤ 0 → C * add x d ≤ C * x) := by
    intro d
    have up : 0 ≤ d → x ≤ add x d := by
      intro hd
      have := roundDouble_mono (p := x) (q := x + d) (by linarith)
      rwa [roundDouble_exact hx] at this
    have down : d ≤ 0 → add x d ≤ x := by
      intro hd
      have := roundDouble_mono (p := x + d) (q := x) (by linarith)
      rwa [roundDouble_exact hx] at this
    have hp : (0 : ℚ) < 2 ^ k := by positivity
    rcases hCk with rfl | rfl
    · constructor
      · intro h; exact mul_le_mul_of_nonneg_left (up (nonneg_of_mul_nonneg_right h hp)) hp.le
      · intro h; exact mul_le_mul_of_nonneg_left (down (nonpos_of_mul_nonpos_right h hp)) hp.le
    · constructor
      · intro h
        have : d ≤ 0 := by
          rw [neg_mul] at h
          exact nonpos_of_mul_nonpos_right (by linarith) hp
        have := mul_le_mul_of_nonneg_left (down this) hp.le
        rw [neg_mul, neg_mul]; linarith
      · intro h
        have : 0 ≤ d := by
          rw [neg_mul] at h
          exact nonneg_of_mul_nonneg_right (by linarith) hp
        have := mul_le_mul_of_nonneg_left (up this) hp.le
        rw [neg_mul, neg_mul]; linarith
  -- the sign of `C * (K * y)` rounded
  have sgn : ∀ y, (0 ≤ y → 0 ≤ C * mul K y) ∧ (y ≤ 0 → C * mul K y ≤ 0) := by
    intro y
    have hp : (0 : ℚ) < 2 ^ k := by positivity
    have nn : ∀ a b : ℚ, 0 ≤ a → 0 ≤ b → 0 ≤ mul a b := fun a b ha hb => roundDouble_nonneg (mul_nonneg ha hb)
    rcases hCk with rfl | rfl
    · have hK0 : 0 ≤ K := by
        by_contra hlt
        rw [not_le] at hlt
        have := mul_neg_of_neg_of_pos hlt hp
        linarith
      constructor
      · intro hy; exact mul_nonneg hp.le (nn _ _ hK0 hy)
      · intro hy
        have : mul K y = -mul K (-y) := by rw [mul_neg', neg_neg]
        rw [this, mul_neg]
        have := mul_nonneg hp.le (nn K (-y) hK0 (by linarith))
        linarith
    · have hK0 : 0 ≤ -K := by
        by_contra hlt
        rw [not_le] at hlt
        have : 0 < K := by linarith
        have := mul_pos this hp
        linarith [w2]
      constructor
      · intro hy
        have : mul K y = -mul (-K) y := by rw [neg_mul', neg_neg]
        rw [this, neg_mul_neg]
        exact mul_nonneg hp.le (nn _ _ hK0 hy)
      · intro hy
        have : mul K y = mul (-K) (-y) := by rw [neg_mul', mul_neg', neg_neg]
        rw [this, neg_mul]
        have := mul_nonneg hp.le (nn (-K) (-y) hK0 (by linarith))
        linarith
  refine ⟨roundDouble_isDouble _, roundDouble_isDouble _, roundDouble_nonneg (mul_nonneg s0 hc0), ?_, ?_, ?_⟩
  · have := roundDouble_mono (p := sub 1 (mul K C) * c) (q := c) (by nlinarith)
    rwa [roundDouble_exact hc] at this
  · intro hz
    refine (step _).1 ((sgn _).1 ?_)
    rw [hCx]
    exact roundDouble_nonneg (by linarith)
  · intro hz
    refine (step _).2 ((sgn _).2 ?_)
    rw [hCx]
    have : sub z (C * x) = -roundDouble (C * x - z) := by unfold sub; rw [← roundDouble_neg]; congr 1; ring
    rw [this]
    have := roundDouble_nonneg (q := C * x - z) (by linarith)
    linarith

/-! ### Every sequence of calls -/

private theorem predictVar_nonneg {s : SysM} {c : ℚ} (hp : 0 ≤ s.Rp) (hc : 0 ≤ s.Rc) (h : 0 ≤ c) : 0 ≤ predictVar s c := by
  have q : ∀ a b : ℚ, 0 ≤ b → 0 ≤ mul (mul a b) a := by
    intro a b hb
    apply roundDouble_nonneg
    rcases le_total 0 a with ha | ha
    · exact mul_nonneg (roundDouble_nonneg (mul_nonneg ha hb)) ha
    · have : mul a b = -roundDouble (-a * b) := by unfold mul; rw [← roundDouble_neg]; congr 1; ring
      rw [this]
      have := mul_nonneg (roundDouble_nonneg (mul_nonneg (neg_nonneg.mpr ha) hb)) (neg_nonneg.mpr ha)
      linarith
  have a : ∀ a b : ℚ, 0 ≤ a → 0 ≤ b → 0 ≤ add a b := fun a b ha hb => roundDouble_nonneg (add_nonneg ha hb)
  exact a _ _ (a _ _ (q _ _ h) (q _ _ hp)) (q _ _ hc)

/-- What the user's models have to satisfy: variances are not negative, sensors read a power of two times the state. -/
structure SEnv.Ok {K : Type} (e : SEnv K) : Prop where
  Rp : 0 ≤ e.sys.Rp
  Rc : 0 ≤ e.sys.Rc
  C : ∀ k, PowerOfTwo (e.meas k).C
  cov : ∀ k, 0 ≤ (e.meas k).cov

/-- ... and the functions that update them. -/
structure ClassOk {T K : Type} (cl : Class T K) : Prop where
  sys : ∀ s x u dt, 0 ≤ s.Rp → 0 ≤ s.Rc → 0 ≤ (cl.sysUpdate s x u dt).Rp ∧ 0 ≤ (cl.sysUpdate s x u dt).Rc
  meas : ∀ k m x dt, PowerOfTwo m.C → 0 ≤ m.cov → PowerOfTwo (cl.measUpdate k m x dt).C ∧ 0 ≤ (cl.measUpdate k m x dt).cov

/-- Calls with variances (of type double) that are not negative, and a sensor that exists; anything else is free. -/
def SaneOp {T K : Type} : Op T (List ℚ) ℚ K (SEnv K) → Prop
  | .init x c _ => (∃ x0, x = [x0] ∧ IsDouble x0) ∧ IsDouble c ∧ 0 ≤ c
  | .correct _ R _ m | .enqueueMeasurement _ R _ m => (∃ k, m = some k) ∧ 0 ≤ R
  | .userModel g => ∀ e, SEnv.Ok e → ∀ e', g e = some e' → SEnv.Ok e'
  | _ => True

variable {T K : Type} [DecidableEq K]

private def St (x : List ℚ) (c : ℚ) : Prop := (∃ x0, x = [x0] ∧ IsDouble x0) ∧ IsDouble c ∧ 0 ≤ c

private theorem plantInv [TimeOps T] {cl : Class T K} (hcl : ClassOk cl) :
    PlantInv (plant cl) False St SEnv.Ok (fun _ => True) (fun c => 0 ≤ c) (fun _ c _ => 0 ≤ c) where
  empty := rfl
  rc e he := he.Rc
  zero _ _ := trivial
  setRc e c he hc := ⟨he.Rp, hc, he.C, he.cov⟩
  predict := by
    rintro e x c u dt he ⟨⟨x0, rfl, hx⟩, h1, h2⟩ -
    match u with
    | [] => exact not_false
    | [u] =>
      obtain ⟨p, q⟩ := hcl.sys e.sys x0 u dt he.Rp he.Rc
      exact ⟨⟨⟨_, rfl, roundDouble_isDouble _⟩, roundDouble_isDouble _, predictVar_nonneg p q h2⟩, ⟨p, q, he.C, he.cov⟩⟩
    | _ :: _ :: _ => exact not_false
  sysStationary e x c d he hs _ := ⟨he, hs⟩
  setMeasCov := by
    intro e k z R he hR
    have he' : SEnv.Ok { e with meas := fun j => if j = k then { e.meas k with cov := R } else e.meas j } := by
      refine ⟨he.Rp, he.Rc, fun j => ?_, fun j => ?_⟩
      · by_cases h : j = k
        · subst h; simp only [if_pos]; exact he.C j
        · simp only [if_neg h]; exact he.C j
      · by_cases h : j = k
        · subst h; simp only [if_pos]; exact hR
        · simp only [if_neg h]; exact he.cov j
    refine ⟨he', ?_, fun x p hs => ⟨he', hs⟩⟩
    rintro x c dt ⟨⟨x0, rfl, hx⟩, h1, h2⟩
    generalize { e with meas := fun j => if j = k then { e.meas k with cov := R } else e.meas j } = e' at he'
    match z with
    | [] => exact not_false
    | [z] =>
      obtain ⟨p, q⟩ := hcl.meas k (e'.meas k) x0 dt (he'.C k) (he'.cov k)
      show OptP False _ ((correct (cl.measUpdate k (e'.meas k) x0 dt) x0 c z).map _)
      cases hcor : correct (cl.measUpdate k (e'.meas k) x0 dt) x0 c z with
      | none => exact not_false
      | some r =>
        obtain ⟨x', c'⟩ := r
        obtain ⟨a, b, d, -⟩ := C90_correction_partial p q hx h1 h2 hcor
        refine ⟨⟨⟨_, rfl, a⟩, b, d⟩, ⟨he'.Rp, he'.Rc, fun j => ?_, fun j => ?_⟩⟩
        · by_cases h : j = k
          · subst h; simp only [if_pos]; exact p
          · simp only [if_neg h]; exact he'.C j
        · by_cases h : j = k
          · subst h; simp only [if_pos]; exact q
          · simp only [if_neg h]; exact he'.cov j
    | _ :: _ :: _ => exact not_false

/-- **C90.** A Kalman filter with one state in double precision, whose sensors read plus or minus a power of two times the
state, with variances (initial, process, control, measurements) that are not negative: after any sequence of calls the
variance is not negative, nor is that of any retained past state. -/
theorem C90_variance_nonneg_partial [TimeOps T] [SaneTime T] {cl : Class T K} (hcl : ClassOk cl)
    (sort : List (FilterInput T (List ℚ) ℚ K) → List (FilterInput T (List ℚ) ℚ K)) (hsort : ∀ l, (sort l).Perm l)
    (params : Params T) {e : SEnv K} (he : SEnv.Ok e) {x c : ℚ} (hx : IsDouble x) (hc : IsDouble c) (hc0 : 0 ≤ c) (t : T)
    (ops : List (Op T (List ℚ) ℚ K (SEnv K))) (hops : ∀ op ∈ ops, SaneOp op) {f}
    (h : (Filter.construct (plant cl) params e [x] c t).run (plant cl) sort ops = some f) :
    0 ≤ f.getCovariance ∧ ∀ s ∈ f.retained, 0 ≤ s.covariance := by
  have hr := (plantInv (T := T) hcl).run sort hsort (Filter.construct (plant cl) params e [x] c t) he
    (by intro h; exact absurd h (Nat.lt_irrefl 0)) [x] c t ⟨⟨x, rfl, hx⟩, hc, hc0⟩ ops (by
      intro op hop
      have := hops op hop
      cases op with
      | init x c t => exact this
      | predictControl u t => exact fun _ => trivial
      | enqueueControl u t => exact fun _ => trivial
      | correct z R t m => obtain ⟨⟨k, hk⟩, hR⟩ := this; exact ⟨k, hk, hR⟩
      | enqueueMeasurement z R t m => obtain ⟨⟨k, hk⟩, hR⟩ := this; exact ⟨k, hk, hR⟩
      | userModel g =>
        intro e he
        cases hg : g e with
        | none => exact not_false
        | some e' => exact this e he e' hg
      | _ => trivial)
  have e0 : (Filter.construct (plant cl) params e [x] c t).init [x] c t = Filter.construct (plant cl) params e [x] c t := rfl
  rw [e0, h] at hr
  obtain ⟨hr, -⟩ := hr
  exact ⟨(hr f.state (by simp [Filter.retained])).2.2, fun s hs => (hr s hs).2.2⟩

/-! ### Other sensors -/

/-- models that do not change -/
private def still : Class ℤ Unit where
  sysUpdate s _ _ _ := s
  measUpdate _ m _ _ := m

private def sensor (C : ℚ) : SEnv Unit where
  sys := ⟨1, 0, 1, 0, 1, 0⟩
  meas _ := ⟨C, 1⟩

private def pars : Params ℤ := { rewindHistory := false, historyWindow := 1, allowPast := false }

private theorem still_ok : ClassOk still := ⟨fun _ _ _ _ h h' => ⟨h, h'⟩, fun _ _ _ _ h h' => ⟨h, h'⟩⟩

private theorem sensor_ok : SEnv.Ok (sensor 4) := by
  refine ⟨by norm_num [sensor], by norm_num [sensor], fun _ => ⟨2, by norm_num, Or.inl (by norm_num [sensor])⟩, fun _ => by norm_num [sensor]⟩

private def byTime (l : List (FilterInput ℤ (List ℚ) ℚ Unit)) : List (FilterInput ℤ (List ℚ) ℚ Unit) :=
  l.insertionSort (fun a b => a.timestamp ≤ b.timestamp)

/-- The hypotheses of the theorems above are met by a sensor that reads four times the state: a measurement, a prediction and
a measurement from the queue (with these numbers every step but the first is rounded). -/
example : ∃ f, (Filter.construct (plant still) pars (sensor 4) [0] 3 0).run (plant still) byTime
      [.correct [1] (1 / 2) 0 (some ()), .predictTime 1, .enqueueMeasurement [5] (1 / 2) 2 (some ()), .processQueues] = some f ∧
    f.getStateTime = 2 ∧ 0 ≤ f.getCovariance ∧ f.getCovariance < 1 / 16 := by
  have h : (((Filter.construct (plant still) pars (sensor 4) [0] 3 0).run (plant still) byTime
      [.correct [1] (1 / 2) 0 (some ()), .predictTime 1, .enqueueMeasurement [5] (1 / 2) 2 (some ()), .processQueues]).any
        fun f => f.getStateTime == 2 && decide (f.getCovariance < 1 / 16)) = true := by decide +kernel
  rw [Option.any_eq_true] at h
  obtain ⟨f, hf, h2⟩ := h
  rw [Bool.and_eq_true, beq_iff_eq, decide_eq_true_iff] at h2
  refine ⟨f, hf, h2.1, ?_, h2.2⟩
  refine (C90_variance_nonneg_partial still_ok byTime (fun l => List.perm_insertionSort _ _) pars sensor_ok
    ⟨0, 0, by norm_num, by norm_num, by norm_num⟩ ⟨3, 0, by norm_num, by norm_num, by norm_num⟩ (by norm_num) 0 _ ?_ hf).1
  intro op hop
  simp only [List.mem_cons, List.not_mem_nil, or_false] at hop
  rcases hop with rfl | rfl | rfl | rfl
  · exact ⟨⟨_, rfl⟩, by norm_num⟩
  · trivial
  · exact ⟨⟨_, rfl⟩, by norm_num⟩
  · trivial

/-- **C90** fails for other sensors.  A filter that knows little about its state (variance 5·2⁶⁰) is given one measurement of
seven times the state with variance 1, all numbers being exact doubles: the variance it then reports is -1280. -/
theorem C90_negative_variance : ∃ f, (Filter.construct (plant still) pars (sensor 7) [0] (5 * 2 ^ 60) 0).correct (plant still) [0] 1 0
    (some ()) = some f ∧ f.getCovariance = -1280 := by
  have h : (((Filter.construct (plant still) pars (sensor 7) [0] (5 * 2 ^ 60) 0).correct (plant still) [0] 1 0 (some ())).any
      fun f => f.getCovariance == -1280) = true := by decide +kernel
  rw [Option.any_eq_true] at h
  obtain ⟨f, hf, h2⟩ := h
  exact ⟨f, hf, by rwa [beq_iff_eq] at h2⟩

/-- ... from a variance and a model that meet every hypothesis but the one on the sensor. -/
theorem C90_negative_variance_hyps : IsDouble (5 * 2 ^ 60) ∧ IsDouble 7 ∧ ClassOk still ∧
    0 ≤ (sensor 7).sys.Rp ∧ 0 ≤ (sensor 7).sys.Rc :=
  ⟨⟨5, 60, by norm_num, by norm_num, by norm_num⟩, ⟨7, 0, by norm_num, by norm_num, by norm_num⟩, still_ok,
    by norm_num [sensor], by norm_num [sensor]⟩

end Props
end StateEstimation
