import Mathlib.Analysis.SpecialFunctions.Trigonometric.Bounds
import Mathlib.Analysis.SpecialFunctions.Trigonometric.Deriv
import Mathlib.Analysis.Calculus.Deriv.MeanValue
import Mathlib.Analysis.Calculus.Deriv.Pow

/-! # Polynomial bounds for sine and cosine on the whole line -/

namespace StateEstimation

open Real

theorem nonneg_of_growing {f f' : ℝ → ℝ} (h0 : f 0 = 0) (hd : ∀ x, HasDerivAt f (f' x) x) (hp : ∀ x, 0 ≤ x → 0 ≤ f' x)
    {x : ℝ} (hx : 0 ≤ x) : 0 ≤ f x := by
  have hm : MonotoneOn f (Set.Ici 0) := by
    refine monotoneOn_of_hasDerivWithinAt_nonneg (f' := f') (convex_Ici 0) ?_ ?_ ?_
    · exact fun y _ => (hd y).continuousAt.continuousWithinAt
    · exact fun y _ => (hd y).hasDerivWithinAt
    · intro y hy
      rw [interior_Ici] at hy
      exact hp y (le_of_lt hy)
  have := hm (Set.mem_Ici.mpr le_rfl) (Set.mem_Ici.mpr hx) hx
  rwa [h0] at this

theorem sin_le_self_of_nonneg {x : ℝ} (hx : 0 ≤ x) : sin x ≤ x := sin_le hx

/-- `|sin x - x| ≤ |x|³/6` -/
theorem abs_sin_sub (x : ℝ) : |sin x - x| ≤ |x| ^ 3 / 6 := by
  have key : ∀ y : ℝ, 0 ≤ y → |sin y - y| ≤ y ^ 3 / 6 := by
    intro y hy
    have h1 := sin_ge_sub_cube hy
    have h2 := sin_le hy
    rw [abs_le]; constructor <;> linarith
  rcases le_total 0 x with h | h
  · rw [abs_of_nonneg h]; exact key x h
  · have := key (-x) (by linarith)
    rw [sin_neg] at this
    rw [abs_of_nonpos h]
    have e : -sin x - -x = -(sin x - x) := by ring
    rwa [e, abs_neg] at this

/-- `|cos x - 1| ≤ x²/2` -/
theorem abs_cos_sub (x : ℝ) : |cos x - 1| ≤ x ^ 2 / 2 := by
  have h1 := cos_le_one x
  have h2 := one_sub_sq_div_two_le_cos (x := x)
  rw [abs_of_nonpos (by linarith)]
  linarith

/-- `|1 - cos x - x²/2| ≤ x⁴/24` -/
theorem abs_cos_sub_sq (x : ℝ) : |1 - cos x - x ^ 2 / 2| ≤ x ^ 4 / 24 := by
  have key : ∀ y : ℝ, 0 ≤ y → |1 - cos y - y ^ 2 / 2| ≤ y ^ 4 / 24 := by
    intro y hy
    have h2 := one_sub_sq_div_two_le_cos (x := y)
    have h1 : 0 ≤ y ^ 4 / 24 + (1 - cos y - y ^ 2 / 2) := by
      refine nonneg_of_growing (f := fun y => y ^ 4 / 24 + (1 - cos y - y ^ 2 / 2)) (f' := fun y => y ^ 3 / 6 + (sin y - y))
        (by norm_num) ?_ ?_ hy
      · intro z
        have a := ((hasDerivAt_pow 4 z).div_const 24).add (((hasDerivAt_cos z).const_sub 1).sub ((hasDerivAt_pow 2 z).div_const 2))
        refine a.congr_deriv ?_
        norm_num
        ring
      · intro z hz
        have := sin_ge_sub_cube hz
        linarith
    rw [abs_le]
    constructor
    · linarith
    · have : 0 ≤ y ^ 4 := by positivity
      linarith
  rcases le_total 0 x with h | h
  · exact key x h
  · have := key (-x) (by linarith)
    rw [cos_neg] at this
    have e : (-x) ^ 4 = x ^ 4 := by ring
    have e2 : (-x) ^ 2 = x ^ 2 := by ring
    rwa [e, e2] at this

/-- `|x cos x - sin x| ≤ |x|³/3` -/
theorem abs_x_cos_sub_sin (x : ℝ) : |x * cos x - sin x| ≤ |x| ^ 3 / 3 := by
  have key : ∀ y : ℝ, 0 ≤ y → |y * cos y - sin y| ≤ y ^ 3 / 3 := by
    intro y hy
    have hder : ∀ z : ℝ, HasDerivAt (fun z => z * cos z - sin z) (-(z * sin z)) z := by
      intro z
      have a := ((hasDerivAt_id z).mul (hasDerivAt_cos z)).sub (hasDerivAt_sin z)
      refine a.congr_deriv ?_
      simp
    have hp : ∀ z : ℝ, HasDerivAt (fun z : ℝ => z ^ 3 / 3) (z ^ 2) z := by
      intro z
      refine ((hasDerivAt_pow 3 z).div_const 3).congr_deriv ?_
      norm_num
    have hs : ∀ z : ℝ, 0 ≤ z → |z * sin z| ≤ z ^ 2 := by
      intro z hz
      rw [abs_mul, abs_of_nonneg hz, sq]
      refine mul_le_mul_of_nonneg_left ?_ hz
      have := abs_sin_le_abs (x := z)
      rwa [abs_of_nonneg hz] at this
    have h1 := nonneg_of_growing (f := fun z => z ^ 3 / 3 + (z * cos z - sin z)) (by norm_num) (fun z => (hp z).add (hder z))
      (fun z hz => by have := abs_le.mp (hs z hz); linarith [this.2]) hy
    have h2 := nonneg_of_growing (f := fun z => z ^ 3 / 3 - (z * cos z - sin z)) (by norm_num) (fun z => (hp z).sub (hder z))
      (fun z hz => by have := abs_le.mp (hs z hz); linarith [this.1]) hy
    rw [abs_le]; constructor <;> linarith
  rcases le_total 0 x with h | h
  · rw [abs_of_nonneg h]; exact key x h
  · have := key (-x) (by linarith)
    rw [sin_neg, cos_neg] at this
    rw [abs_of_nonpos h]
    have e : -x * cos x - -sin x = -(x * cos x - sin x) := by ring
    rwa [e, abs_neg] at this

/-- `|x sin x - 2 (1 - cos x)| ≤ x⁴/12` -/
theorem abs_x_sin_sub (x : ℝ) : |x * sin x - 2 * (1 - cos x)| ≤ x ^ 4 / 12 := by
  have key : ∀ y : ℝ, 0 ≤ y → |y * sin y - 2 * (1 - cos y)| ≤ y ^ 4 / 12 := by
    intro y hy
    have hder : ∀ z : ℝ, HasDerivAt (fun z => z * sin z - 2 * (1 - cos z)) (z * cos z - sin z) z := by
      intro z
      have a := ((hasDerivAt_id z).mul (hasDerivAt_sin z)).sub (((hasDerivAt_cos z).const_sub 1).const_mul 2)
      refine a.congr_deriv ?_
      simp
      ring
    have hp : ∀ z : ℝ, HasDerivAt (fun z : ℝ => z ^ 4 / 12) (z ^ 3 / 3) z := by
      intro z
      refine ((hasDerivAt_pow 4 z).div_const 12).congr_deriv ?_
      norm_num
      ring
    have hs : ∀ z : ℝ, 0 ≤ z → |z * cos z - sin z| ≤ z ^ 3 / 3 := by
      intro z hz
      have := abs_x_cos_sub_sin z
      rwa [abs_of_nonneg hz] at this
    have h1 := nonneg_of_growing (f := fun z => z ^ 4 / 12 + (z * sin z - 2 * (1 - cos z))) (by norm_num) (fun z => (hp z).add (hder z))
      (fun z hz => by have := abs_le.mp (hs z hz); linarith [this.1]) hy
    have h2 := nonneg_of_growing (f := fun z => z ^ 4 / 12 - (z * sin z - 2 * (1 - cos z))) (by norm_num) (fun z => (hp z).sub (hder z))
      (fun z hz => by have := abs_le.mp (hs z hz); linarith [this.2]) hy
    rw [abs_le]; constructor <;> linarith
  rcases le_total 0 x with h | h
  · exact key x h
  · have := key (-x) (by linarith)
    rw [sin_neg, cos_neg] at this
    have e : (-x) ^ 4 = x ^ 4 := by ring
    have e2 : -x * -sin x = x * sin x := by ring
    rwa [e, e2] at this

end StateEstimation
