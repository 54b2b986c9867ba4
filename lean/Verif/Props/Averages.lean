import Verif.Props.Rotations
import Verif.Lemmas.Eigensolver
import Mathlib.Algebra.BigOperators.Fin

/-!
# C62: `weightedQuaternion`
-/

namespace StateEstimation.Props

open Matrix Real StateEstimation

/-- Specification: the same rotation with the other sign. -/
def qNeg (q : Quat) : Quat := ⟨-q.w, -q.x, -q.y, -q.z⟩

/-- Specification: inner product of two quaternions; its square measures how close two rotations are. -/
def qDot (p q : Quat) : ℝ := p.w * q.w + p.x * q.x + p.y * q.y + p.z * q.z

/-- Specification: weighted agreement of `p` with a set of quaternions. -/
def agreement (p : Quat) : List ℝ → List Quat → ℝ
  | w :: ws, q :: qs => w * qDot p q ^ 2 + agreement p ws qs
  | _, _ => 0

/-- Specification: negating the quaternions whose flag is set. -/
def flip : List Bool → List Quat → List Quat
  | b :: bs, q :: qs => (if b then qNeg q else q) :: flip bs qs
  | _, qs => qs

/-- `q` and its negative are the same rotation. -/
theorem qNeg_rot (q : Quat) (v : V3) : (qNeg q).rot v = q.rot v := by
  rw [rot_eq, rot_eq]; ext i; fin_cases i <;> simp [qNeg] <;> ring

theorem flip_length (bs : List Bool) (qs : List Quat) : (flip bs qs).length = qs.length := by
  induction qs generalizing bs with
  | nil => cases bs <;> rfl
  | cons q qs ih => cases bs with
    | nil => rfl
    | cons b bs => simp [flip, ih]

theorem coeffs_neg (q : Quat) : vecMulVec (qNeg q).coeffs (qNeg q).coeffs = vecMulVec q.coeffs q.coeffs := by
  ext i j
  fin_cases i <;> fin_cases j <;> simp [vecMulVec, Quat.coeffs, qNeg]

theorem flip_moment (bs : List Bool) (ws : List ℝ) (qs : List Quat) (m : Matrix (Fin 4) (Fin 4) ℝ) :
    quatMomentLoop ws (flip bs qs) m = quatMomentLoop ws qs m := by
  induction qs generalizing bs ws m with
  | nil => cases bs <;> rfl
  | cons q qs ih => cases bs with
    | nil => rfl
    | cons b bs => cases ws with
      | nil => rfl
      | cons w ws =>
        cases b
        · simp [flip, quatMomentLoop, ih]
        · simp [flip, quatMomentLoop, ih, coeffs_neg]

/-- **C62.** Negating any of the quaternions does not change the result. -/
theorem C62_signs (solver : Matrix (Fin 4) (Fin 4) ℝ → EigenResult 4) (w : List ℝ) (q : List Quat) (b : List Bool) :
    weightedQuaternion solver w (flip b q) = weightedQuaternion solver w q := by
  simp only [weightedQuaternion, flip_length, flip_moment]

theorem moment_symm (ws : List ℝ) (qs : List Quat) (m : Matrix (Fin 4) (Fin 4) ℝ) (hm : mᵀ = m) :
    (quatMomentLoop ws qs m)ᵀ = quatMomentLoop ws qs m := by
  induction qs generalizing ws m with
  | nil => cases ws <;> exact hm
  | cons q qs ih => cases ws with
    | nil => exact hm
    | cons w ws =>
      refine ih _ _ ?_
      rw [transpose_add, hm, transpose_smul, transpose_vecMulVec]

theorem moment_form (p : Quat) (ws : List ℝ) (qs : List Quat) (m : Matrix (Fin 4) (Fin 4) ℝ) :
    p.coeffs ⬝ᵥ (quatMomentLoop ws qs m *ᵥ p.coeffs) = p.coeffs ⬝ᵥ (m *ᵥ p.coeffs) + agreement p ws qs := by
  induction qs generalizing ws m with
  | nil => cases ws <;> simp [quatMomentLoop, agreement]
  | cons q qs ih => cases ws with
    | nil => simp [quatMomentLoop, agreement]
    | cons w ws =>
      rw [quatMomentLoop, ih, agreement, add_mulVec, dotProduct_add, add_assoc]
      congr 2
      simp [qDot, Quat.coeffs, vecMulVec, mulVec, dotProduct, Fin.sum_univ_four]
      ring

theorem coeffs_dot (p q : Quat) : p.coeffs ⬝ᵥ q.coeffs = qDot p q := by
  simp [qDot, Quat.coeffs, dotProduct, Fin.sum_univ_four]; ring

/-- **C62.** With one weight per quaternion the result is a unit quaternion which agrees best with the inputs: it
maximises `∑ w_i (p · q_i)²` over all unit quaternions `p`. -/
theorem C62_best {solver : Matrix (Fin 4) (Fin 4) ℝ → EigenResult 4} (hs : EigenSpec solver) (w : List ℝ) (q : List Quat)
    (hlen : w.length = q.length) :
    ∃ r, weightedQuaternion solver w q = some r ∧ qNormSq r = 1 ∧
      ∀ p, qNormSq p = 1 → agreement p w q ≤ agreement r w q := by
  set m := quatMomentLoop w q 0 with hm
  have hsym : mᵀ = m := moment_symm w q 0 (by simp)
  set V := (solver m).vectors with hV
  refine ⟨⟨V 3 3, V 0 3, V 1 3, V 2 3⟩, by simp only [weightedQuaternion, if_pos hlen]; rfl, ?_, ?_⟩
  · have := congrFun (congrFun (hs.orthonormal m hsym) 3) 3
    rw [Matrix.mul_apply] at this
    simp only [transpose_apply, Fin.sum_univ_four, Matrix.one_apply_eq] at this
    simp only [qNormSq]
    linear_combination this
  · intro p hp
    have hpn : p.coeffs ⬝ᵥ p.coeffs = 1 := by
      rw [coeffs_dot]; simp only [qDot, qNormSq] at *; linarith
    have f1 := moment_form p w q 0
    have f2 := moment_form ⟨V 3 3, V 0 3, V 1 3, V 2 3⟩ w q 0
    rw [← hm] at f1 f2
    simp only [zero_mulVec, dotProduct_zero, zero_add] at f1 f2
    obtain ⟨g1, g2⟩ := eigen_quadratic hs hsym p.coeffs
    have hc : (⟨V 3 3, V 0 3, V 1 3, V 2 3⟩ : Quat).coeffs = V.col 3 := by
      ext i; fin_cases i <;> simp [Quat.coeffs, Matrix.col]
    have hvv : V.col 3 ⬝ᵥ V.col 3 = 1 := by
      have := congrFun (congrFun (hs.orthonormal m hsym) 3) 3
      rw [Matrix.mul_apply, Matrix.one_apply_eq] at this
      exact this
    have top : agreement ⟨V 3 3, V 0 3, V 1 3, V 2 3⟩ w q = (solver m).values 3 := by
      rw [← f2, hc, hs.eigen m hsym 3, dotProduct_smul, ← hV, hvv, smul_eq_mul, mul_one]
    rw [top, ← f1, g1]
    calc ∑ j, (solver m).values j * ((solver m).vectorsᵀ *ᵥ p.coeffs) j ^ 2
        ≤ ∑ j, (solver m).values 3 * ((solver m).vectorsᵀ *ᵥ p.coeffs) j ^ 2 := by
          refine Finset.sum_le_sum fun j _ => mul_le_mul_of_nonneg_right ?_ (sq_nonneg _)
          exact hs.sorted m hsym (by omega)
      _ = (solver m).values 3 := by rw [← Finset.mul_sum, ← g2, hpn, mul_one]

/-- Two unit quaternions whose inner product has modulus at least one are equal up to sign. -/
theorem same_of_dot {p q : Quat} (hp : qNormSq p = 1) (hq : qNormSq q = 1) (h : 1 ≤ qDot p q ^ 2) : p = q ∨ p = qNeg q := by
  simp only [qNormSq] at hp hq
  have hd : 0 ≤ (qDot p q - 1) * (qDot p q + 1) := by nlinarith
  rcases le_or_gt 0 (qDot p q) with h0 | h0
  · left
    have h1 : 1 ≤ qDot p q := by nlinarith
    have hz : (p.w - q.w) ^ 2 + (p.x - q.x) ^ 2 + (p.y - q.y) ^ 2 + (p.z - q.z) ^ 2 ≤ 0 := by
      simp only [qDot] at h1; nlinarith
    have a := sq_nonneg (p.w - q.w)
    have b := sq_nonneg (p.x - q.x)
    have c := sq_nonneg (p.y - q.y)
    have d := sq_nonneg (p.z - q.z)
    ext
    · have : (p.w - q.w) ^ 2 = 0 := by linarith
      exact sub_eq_zero.mp (pow_eq_zero_iff (by norm_num) |>.mp this)
    · have : (p.x - q.x) ^ 2 = 0 := by linarith
      exact sub_eq_zero.mp (pow_eq_zero_iff (by norm_num) |>.mp this)
    · have : (p.y - q.y) ^ 2 = 0 := by linarith
      exact sub_eq_zero.mp (pow_eq_zero_iff (by norm_num) |>.mp this)
    · have : (p.z - q.z) ^ 2 = 0 := by linarith
      exact sub_eq_zero.mp (pow_eq_zero_iff (by norm_num) |>.mp this)
  · right
    have h1 : qDot p q ≤ -1 := by nlinarith
    have hz : (p.w + q.w) ^ 2 + (p.x + q.x) ^ 2 + (p.y + q.y) ^ 2 + (p.z + q.z) ^ 2 ≤ 0 := by
      simp only [qDot] at h1; nlinarith
    have a := sq_nonneg (p.w + q.w)
    have b := sq_nonneg (p.x + q.x)
    have c := sq_nonneg (p.y + q.y)
    have d := sq_nonneg (p.z + q.z)
    ext
    · have : (p.w + q.w) ^ 2 = 0 := by linarith
      exact eq_neg_of_add_eq_zero_left (pow_eq_zero_iff (by norm_num) |>.mp this)
    · have : (p.x + q.x) ^ 2 = 0 := by linarith
      exact eq_neg_of_add_eq_zero_left (pow_eq_zero_iff (by norm_num) |>.mp this)
    · have : (p.y + q.y) ^ 2 = 0 := by linarith
      exact eq_neg_of_add_eq_zero_left (pow_eq_zero_iff (by norm_num) |>.mp this)
    · have : (p.z + q.z) ^ 2 = 0 := by linarith
      exact eq_neg_of_add_eq_zero_left (pow_eq_zero_iff (by norm_num) |>.mp this)

/-- Agreement when every weighted quaternion is `q0` up to sign. -/
theorem agreement_same (q0 p : Quat) : ∀ (w : List ℝ) (q : List Quat), w.length = q.length →
    (∀ e ∈ w.zip q, e.1 = 0 ∨ e.2 = q0 ∨ e.2 = qNeg q0) → agreement p w q = w.sum * qDot p q0 ^ 2
  | [], [], _, _ => by simp [agreement]
  | a :: w, b :: q, hl, h => by
      have ih := agreement_same q0 p w q (by simpa using hl) (fun e he => h e (by simp [he]))
      rw [agreement, ih, List.sum_cons]
      rcases h (a, b) (by simp) with h1 | h1 | h1
      · simp only at h1; rw [h1]; ring
      · simp only at h1; rw [h1]; ring
      · simp only at h1; rw [h1]; simp only [qDot, qNeg]; ring

/-- **C62.** If all the weight is on one rotation (every quaternion with a non-zero weight is `q0` or `-q0`) and the total
weight is positive, the result is that rotation. -/
theorem C62_single {solver : Matrix (Fin 4) (Fin 4) ℝ → EigenResult 4} (hs : EigenSpec solver) (w : List ℝ) (q : List Quat)
    (hlen : w.length = q.length) (q0 : Quat) (h0 : qNormSq q0 = 1)
    (hone : ∀ e ∈ w.zip q, e.1 = 0 ∨ e.2 = q0 ∨ e.2 = qNeg q0) (hsum : 0 < w.sum) :
    ∃ r, weightedQuaternion solver w q = some r ∧ ∀ v, r.rot v = q0.rot v := by
  obtain ⟨r, hr, hu, hbest⟩ := C62_best hs w q hlen
  refine ⟨r, hr, fun v => ?_⟩
  have := hbest q0 h0
  rw [agreement_same q0 q0 w q hlen hone, agreement_same q0 r w q hlen hone] at this
  have h2 := le_of_mul_le_mul_left this hsum
  have h3 : qDot q0 q0 = 1 := by simp only [qDot, qNormSq] at *; linarith
  rw [h3, one_pow] at h2
  rcases same_of_dot hu h0 h2 with e | e
  · rw [e]
  · rw [e, qNeg_rot]

/-- **C62.** A missing or superfluous weight is an assertion failure. -/
theorem C62_length (solver : Matrix (Fin 4) (Fin 4) ℝ → EigenResult 4) (w : List ℝ) (q : List Quat)
    (h : w.length ≠ q.length) : weightedQuaternion solver w q = none := by
  simp only [weightedQuaternion, if_neg h]

/-- Non-vacuity of C62: a solver as assumed exists, and with it the average of a quarter turn, its negative and an
unweighted identity is the quarter turn. -/
example : ∃ solver, EigenSpec (n := 4) solver ∧ ∃ r,
    weightedQuaternion solver [1, 2, 0] [⟨3 / 5, 0, 0, 4 / 5⟩, ⟨-3 / 5, 0, 0, -4 / 5⟩, Quat.identity] = some r ∧
    ∀ v, r.rot v = (⟨3 / 5, 0, 0, 4 / 5⟩ : Quat).rot v := by
  obtain ⟨solver, hs⟩ := eigenSpec_exists 4
  refine ⟨solver, hs, C62_single hs _ _ rfl _ (by simp only [qNormSq]; norm_num) ?_ (by norm_num)⟩
  intro e he
  simp at he
  rcases he with rfl | rfl | rfl
  · right; left; rfl
  · right; right; ext <;> simp [qNeg] <;> norm_num
  · left; rfl

end StateEstimation.Props
