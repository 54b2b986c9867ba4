import Verif.Props.Angles
import Verif.Lemmas.UKFSteps
import Verif.Lemmas.VSSteps

/-!
# C48, C49, and the planar part of C51, C66
-/

set_option linter.unusedSectionVars false

namespace StateEstimation
namespace Props

open Real

variable {n N : Nat}

/-- The heading of a planar state of any size that has one. -/
abbrev heading (hn : 6 < n) : Fin n := ⟨6, hn⟩

/-- **C48, addition.**  The heading of the sum is in `[-π, π]` and congruent to the ordinary sum; every other component
is the ordinary sum.  (`n` is 8 in the code; the functions do not check it.) -/
theorem C48_addState (hn : 6 < n) (a b : Fin n → ℝ) : ∃ r : Fin n → ℝ, Planar2d.addState (.of a) (.of b) = some (.of r) ∧
    -π ≤ r (heading hn) ∧ r (heading hn) ≤ π ∧ SameAngle (r (heading hn)) (a (heading hn) + b (heading hn)) ∧
    ∀ i, i ≠ heading hn → r i = a i + b i := by
  obtain ⟨c, h1, h2, h3, h4, h5⟩ := C46_constrainAngle (a (heading hn) + b (heading hn))
  refine ⟨Function.update (a + b) (heading hn) c, ?_, ?_, ?_, ?_, ?_⟩
  · unfold Planar2d.addState
    rw [DVec.add_of]
    show ((DVec.of (a + b)).get? (heading hn)).bind _ = _
    rw [get_of_fin]
    show (constrainAngle (a (heading hn) + b (heading hn))).bind _ = _
    rw [h1]
    exact set_of _ (heading hn) c
  · rw [Function.update_self]; exact h2
  · rw [Function.update_self]; exact h3
  · rw [Function.update_self]; exact h4
  · intro i hi; rw [Function.update_of_ne hi]; rfl

/-- **C48, subtraction.** -/
theorem C48_subtractState (hn : 6 < n) (a b : Fin n → ℝ) :
    ∃ r : Fin n → ℝ, Planar2d.subtractState (.of a) (.of b) = some (.of r) ∧
    -π ≤ r (heading hn) ∧ r (heading hn) ≤ π ∧ SameAngle (r (heading hn)) (a (heading hn) - b (heading hn)) ∧
    ∀ i, i ≠ heading hn → r i = a i - b i := by
  obtain ⟨h1, h2, h3, _⟩ := C47_angleDifference (a (heading hn)) (b (heading hn))
  refine ⟨Function.update (a - b) (heading hn) (angleDifference (a (heading hn)) (b (heading hn))), ?_, ?_, ?_, ?_, ?_⟩
  · unfold Planar2d.subtractState
    rw [DVec.sub_of]
    show ((DVec.of a).get? (heading hn)).bind _ = _
    rw [get_of_fin]
    show ((DVec.of b).get? (heading hn)).bind _ = _
    rw [get_of_fin]
    exact set_of _ (heading hn) _
  · rw [Function.update_self]; exact h1
  · rw [Function.update_self]; exact h2
  · rw [Function.update_self]; exact h3
  · intro i hi; rw [Function.update_of_ne hi]; rfl

/-- Resultant of unit vectors in the given directions. -/
noncomputable def resultant (w t : Fin N → ℝ) : ℂ := ∑ i, (w i : ℂ) * Complex.exp (t i * Complex.I)

theorem resultant_eq (w t : Fin N → ℝ) : resultant w t = ⟨∑ i, w i * cos (t i), ∑ i, w i * sin (t i)⟩ := by
  unfold resultant
  apply Complex.ext
  · rw [Complex.re_sum]
    refine Finset.sum_congr rfl fun i _ => ?_
    rw [Complex.re_ofReal_mul, Complex.exp_ofReal_mul_I_re]
  · rw [Complex.im_sum]
    refine Finset.sum_congr rfl fun i _ => ?_
    rw [Complex.im_ofReal_mul, Complex.exp_ofReal_mul_I_im]

theorem weightedAngleSum_of (w t : Fin N → ℝ) : weightedAngleSum (.of w) (.of t) = some (Complex.arg (resultant w t)) := by
  unfold weightedAngleSum
  rw [dif_pos rfl, resultant_eq]
  rfl

theorem sameAngle_coe {a b : ℝ} : SameAngle a b ↔ (a : Real.Angle) = b := by
  rw [Real.Angle.angle_eq_iff_two_pi_dvd_sub]
  constructor
  · rintro ⟨k, h⟩; exact ⟨k, by rw [h]; ring⟩
  · rintro ⟨k, h⟩; exact ⟨k, by linarith⟩

/-- **C49.**  `weightedAngleSum` succeeds on weights and angles of one size, and its result `m` is
in `(-π, π]`;  it is a circular mean:
* adding multiples of `2π` to the angles changes nothing;
* scaling all weights by a positive factor changes nothing;
* turning all angles by `phi` turns the result by `phi` (if the weighted directions do not cancel out);
* if all angles are one direction and the total weight is positive, the result is that direction. -/
theorem C49_weightedAngleSum (w t : Fin N → ℝ) : ∃ m, weightedAngleSum (.of w) (.of t) = some m ∧ -π < m ∧ m ≤ π ∧
    (∀ t' : Fin N → ℝ, (∀ i, SameAngle (t' i) (t i)) → weightedAngleSum (.of w) (.of t') = some m) ∧
    (∀ c : ℝ, 0 < c → weightedAngleSum (.of fun i => c * w i) (.of t) = some m) ∧
    (∀ phi : ℝ, (∑ i, w i * cos (t i) ≠ 0 ∨ ∑ i, w i * sin (t i) ≠ 0) →
      ∃ m', weightedAngleSum (.of w) (.of fun i => t i + phi) = some m' ∧ SameAngle m' (m + phi)) ∧
    (∀ a : ℝ, (∀ i, SameAngle (t i) a) → 0 < ∑ i, w i → SameAngle m a ∧ (-π < a → a ≤ π → m = a)) := by
  refine ⟨_, weightedAngleSum_of w t, Complex.neg_pi_lt_arg _, Complex.arg_le_pi _, ?_, ?_, ?_, ?_⟩
  · intro t' h
    rw [weightedAngleSum_of, resultant_eq, resultant_eq]
    have h1 : ∀ i, sin (t' i) = sin (t i) ∧ cos (t' i) = cos (t i) := fun i => (sameAngle_iff _ _).mp (h i)
    simp only [fun i => (h1 i).1, fun i => (h1 i).2]
  · intro c hc
    rw [weightedAngleSum_of]
    have : resultant (fun i => c * w i) t = (c : ℂ) * resultant w t := by
      unfold resultant
      rw [Finset.mul_sum]
      refine Finset.sum_congr rfl fun i _ => ?_
      push_cast; ring
    rw [this, Complex.arg_real_mul _ hc]
  · intro phi h0
    have hne : resultant w t ≠ 0 := by
      rw [resultant_eq]
      intro h
      have h1 := congrArg Complex.re h
      have h2 := congrArg Complex.im h
      rcases h0 with h0 | h0
      · exact h0 h1
      · exact h0 h2
    refine ⟨_, weightedAngleSum_of w _, ?_⟩
    have : resultant w (fun i => t i + phi) = resultant w t * Complex.exp (phi * Complex.I) := by
      unfold resultant
      rw [Finset.sum_mul]
      refine Finset.sum_congr rfl fun i _ => ?_
      rw [mul_assoc, ← Complex.exp_add]
      push_cast; ring_nf
    rw [this, sameAngle_coe, Complex.arg_mul_coe_angle hne (Complex.exp_ne_zero _)]
    rw [Complex.arg_exp_mul_I, Real.Angle.coe_toIocMod]
    rfl
  · intro a ha hw
    have : resultant w t = ((∑ i, w i : ℝ) : ℂ) * Complex.exp (a * Complex.I) := by
      rw [resultant_eq]
      have h1 : ∀ i, sin (t i) = sin a ∧ cos (t i) = cos a := fun i => (sameAngle_iff _ _).mp (ha i)
      simp only [fun i => (h1 i).1, fun i => (h1 i).2, ← Finset.sum_mul]
      apply Complex.ext
      · rw [Complex.re_ofReal_mul, Complex.exp_ofReal_mul_I_re]
      · rw [Complex.im_ofReal_mul, Complex.exp_ofReal_mul_I_im]
    rw [this, Complex.arg_real_mul _ hw, Complex.arg_exp_mul_I]
    refine ⟨?_, fun h1 h2 => ?_⟩
    · rw [sameAngle_coe, Real.Angle.coe_toIocMod]
    · rw [toIocMod_eq_self]; exact ⟨h1, by linarith⟩

/-- With a negative total weight the mean of equal angles is the opposite direction: the condition in C49 is needed. -/
theorem C49_negative_weight : weightedAngleSum (.of ![-1]) (.of ![0]) = some π := by
  rw [weightedAngleSum_of, resultant_eq]
  have : (⟨∑ i : Fin 1, (![-1] : Fin 1 → ℝ) i * cos ((![0] : Fin 1 → ℝ) i),
      ∑ i : Fin 1, (![-1] : Fin 1 → ℝ) i * sin ((![0] : Fin 1 → ℝ) i)⟩ : ℂ) = -1 := by
    apply Complex.ext <;> simp
  rw [this, Complex.arg_neg_one]

/-- If the weighted directions cancel out the result is 0 whatever the angles are: the other condition in C49 is needed. -/
theorem C49_cancelled (w t : Fin N → ℝ) (h1 : ∑ i, w i * cos (t i) = 0) (h2 : ∑ i, w i * sin (t i) = 0) :
    weightedAngleSum (.of w) (.of t) = some 0 := by
  rw [weightedAngleSum_of, resultant_eq, h1, h2]
  have : (⟨0, 0⟩ : ℂ) = 0 := rfl
  rw [this, Complex.arg_zero]

/-- **C48, weighted sum.**  The heading is the circular mean of the headings, in `(-π, π]`; the other components are the
ordinary weighted sum. -/
theorem C48_weightedSum (hn : 6 < n) (w : Fin N → ℝ) (X : Matrix (Fin n) (Fin N) ℝ) :
    ∃ r : Fin n → ℝ, Planar2d.weightedSumOfStates (.of w) (.of X) = some (.of r) ∧
      weightedAngleSum (.of w) (.of (X (heading hn))) = some (r (heading hn)) ∧ -π < r (heading hn) ∧ r (heading hn) ≤ π ∧
      ∀ i, i ≠ heading hn → r i = ∑ j, w j * X i j := by
  obtain ⟨m, h1, h2, h3, _⟩ := C49_weightedAngleSum w (X (heading hn))
  set wN : Nat → ℝ := fun j => if h : j < N then w ⟨j, h⟩ else 0 with hwN
  set y : Nat → Fin n → ℝ := fun j i => if h : j < N then X i ⟨j, h⟩ else 0 with hy
  have ew : (DVec.of w) = .of fun j : Fin N => wN j := by congr 1; funext j; simp [hwN]
  have ey : (DMat.of X) = ptsOf N y := by
    show DMat.of X = DMat.of _
    congr 1; funext i j; simp [hy]
  have hs := weightedSum_pts (N := N) wN y
  rw [← ew, ← ey] at hs
  unfold weightedSum at hs
  rw [if_pos rfl] at hs
  set v : Fin n → ℝ := ∑ j ∈ Finset.range N, wN j • y j with hv
  refine ⟨Function.update v (heading hn) m, ?_, ?_, ?_, ?_, ?_⟩
  · unfold Planar2d.weightedSumOfStates
    rw [if_pos rfl]
    refine bind_step hs ?_
    refine bind_step (a := .of (X (heading hn))) (by unfold DMat.row?; rw [dif_pos (show Planar2d.PSI < (DMat.of X).rows from hn)]; rfl) ?_
    refine bind_step h1 ?_
    exact set_of v (heading hn) m
  · rw [Function.update_self]; exact h1
  · rw [Function.update_self]; exact h2
  · rw [Function.update_self]; exact h3
  · intro i hi
    rw [Function.update_of_ne hi, hv, Finset.sum_apply]
    rw [Finset.sum_range]
    refine Finset.sum_congr rfl fun j _ => ?_
    simp [hwN, hy]

/-- **C51** for planar states: the weighted sum of equal states is the state, its heading normalised to `(-π, π]`. -/
theorem C51_planar (hn : 6 < n) (w : Fin N → ℝ) (hw : ∑ i, w i = 1) (x : Fin n → ℝ) :
    ∃ r : Fin n → ℝ, Planar2d.weightedSumOfStates (.of w) (.of fun i (_ : Fin N) => x i) = some (.of r) ∧
      SameAngle (r (heading hn)) (x (heading hn)) ∧ (∀ i, i ≠ heading hn → r i = x i) ∧
      (-π < x (heading hn) → x (heading hn) ≤ π → r = x) := by
  obtain ⟨r, h1, h2, h3, h4, h5⟩ := C48_weightedSum hn w (fun i (_ : Fin N) => x i)
  obtain ⟨m, g1, _, _, _, _, _, g7⟩ := C49_weightedAngleSum w (fun _ : Fin N => x (heading hn))
  have hm : m = r (heading hn) := by
    have : weightedAngleSum (.of w) (.of fun _ : Fin N => x (heading hn)) = some (r (heading hn)) := h2
    rw [g1] at this; exact Option.some.inj this
  obtain ⟨e1, e2⟩ := g7 (x (heading hn)) (fun _ => SameAngle.refl _) (by rw [hw]; exact one_pos)
  have h5' : ∀ i, i ≠ heading hn → r i = x i := by
    intro i hi
    rw [h5 i hi, ← Finset.sum_mul, hw, one_mul]
  refine ⟨r, h1, by rw [← hm]; exact e1, h5', fun a b => ?_⟩
  funext i
  by_cases hi : i = heading hn
  · rw [hi, ← hm]; exact e2 a b
  · exact h5' i hi

/-- **C51** for the default operation: the weighted sum of equal vectors is the vector. -/
theorem C51_default (w : Fin N → ℝ) (hw : ∑ i, w i = 1) (x : Fin n → ℝ) :
    weightedSum (.of w) (.of fun i (_ : Fin N) => x i) = some (.of x) := by
  set wN : Nat → ℝ := fun j => if h : j < N then w ⟨j, h⟩ else 0 with hwN
  have ew : (DVec.of w) = .of fun j : Fin N => wN j := by congr 1; funext j; simp [hwN]
  have hs := weightedSum_pts (N := N) wN (fun _ => x)
  rw [← ew] at hs
  refine hs.trans ?_
  congr 2
  rw [← Finset.sum_smul, Finset.sum_range]
  have : ∑ i : Fin N, wN i = 1 := by rw [← hw]; refine Finset.sum_congr rfl fun j _ => ?_; simp [hwN]
  rw [this, one_smul]

/-- **C66, the part that holds:** planar states, difference added back: the state itself but for the heading, which is
normalised to `[-π, π]`. -/
theorem C66_planar_partial (hn : 6 < n) (a b : Fin n → ℝ) : ∃ d r : Fin n → ℝ,
    Planar2d.subtractState (.of a) (.of b) = some (.of d) ∧ Planar2d.addState (.of b) (.of d) = some (.of r) ∧
    SameAngle (r (heading hn)) (a (heading hn)) ∧ -π ≤ r (heading hn) ∧ r (heading hn) ≤ π ∧
    ∀ i, i ≠ heading hn → r i = a i := by
  obtain ⟨d, h1, _, _, h4, h5⟩ := C48_subtractState hn a b
  obtain ⟨r, g1, g2, g3, g4, g5⟩ := C48_addState hn b d
  refine ⟨d, r, h1, g1, ?_, g2, g3, fun i hi => by rw [g5 i hi, h5 i hi]; ring⟩
  obtain ⟨k, hk⟩ := h4
  obtain ⟨l, hl⟩ := g4
  exact ⟨k + l, by rw [hl, hk]; push_cast; ring⟩

end Props
end StateEstimation
