import Verif.Model.FloatKF2
import Verif.Props.FloatKF

/-! # C103: the covariance of a two-state filter in double precision -/

set_option linter.unusedSectionVars false

namespace StateEstimation
namespace Props

open PairKF

/-- All entries are doubles. -/
def AllDouble (c : M2) : Prop := IsDouble c.a ∧ IsDouble c.b ∧ IsDouble c.c ∧ IsDouble c.d

/-- Symmetric. -/
def Sym (c : M2) : Prop := c.b = c.c

private theorem mul_zero' (a : ℚ) : ScalarKF.mul a 0 = 0 := by unfold ScalarKF.mul; rw [mul_zero, roundDouble_zero]
private theorem zero_mul' (a : ℚ) : ScalarKF.mul 0 a = 0 := by unfold ScalarKF.mul; rw [zero_mul, roundDouble_zero]
private theorem add_zero' {a : ℚ} (h : IsDouble a) : ScalarKF.add a 0 = a := by
  unfold ScalarKF.add; rw [add_zero, roundDouble_exact h]
private theorem zero_add' {a : ℚ} (h : IsDouble a) : ScalarKF.add 0 a = a := by
  unfold ScalarKF.add; rw [zero_add, roundDouble_exact h]
private theorem mul_one' {a : ℚ} (h : IsDouble a) : ScalarKF.mul a 1 = a := by
  unfold ScalarKF.mul; rw [mul_one, roundDouble_exact h]
private theorem one_mul' {a : ℚ} (h : IsDouble a) : ScalarKF.mul 1 a = a := by
  unfold ScalarKF.mul; rw [one_mul, roundDouble_exact h]
private theorem dmul (a b : ℚ) : IsDouble (ScalarKF.mul a b) := roundDouble_isDouble _
private theorem dadd (a b : ℚ) : IsDouble (ScalarKF.add a b) := roundDouble_isDouble _
private theorem dsub (a b : ℚ) : IsDouble (ScalarKF.sub a b) := roundDouble_isDouble _
private theorem mul_comm' (a b : ℚ) : ScalarKF.mul a b = ScalarKF.mul b a := by unfold ScalarKF.mul; rw [mul_comm]
private theorem sub_zero' : ScalarKF.sub 0 0 = 0 := by unfold ScalarKF.sub; rw [sub_zero, roundDouble_zero]

/-- **C103 (measured component).**  A correction by a sensor that reads only the first state: the first component of the
estimate and its variance are, to the last bit, those of a filter with that one state.  What C90 proves of such a filter
carries over: if the sensor reads plus or minus a power of two times the state and the variance was not negative, it is not
negative afterwards and not larger. -/
theorem C103_measured_partial {m : MeasM} {x x' : V2} {c c' : M2} {z : ℚ} (hy : m.C.y = 0)
    (h : PairKF.correct m x c z = some (x', c')) :
    ScalarKF.correct ⟨m.C.x, m.cov⟩ x.x c.a z = some (x'.x, c'.a) ∧
    (PowerOfTwo m.C.x → 0 ≤ m.cov → IsDouble x.x → IsDouble c.a → 0 ≤ c.a → 0 ≤ c'.a ∧ c'.a ≤ c.a) := by
  obtain ⟨⟨C, C2⟩, R⟩ := m
  obtain ⟨x1, x2⟩ := x
  obtain ⟨c1, c2, c3, c4⟩ := c
  simp only at hy
  subst hy
  have key : ScalarKF.correct ⟨C, R⟩ x1 c1 z = some (x'.x, c'.a) := by
    unfold PairKF.correct PairKF.gain at h
    rw [Option.map_map, Option.map_eq_some_iff] at h
    obtain ⟨i, hi, h⟩ := h
    simp only [M2.mulVec, V2.dot, mul_zero', zero_mul', add_zero' (dmul _ _), add_zero' (dadd _ _)] at hi
    unfold ScalarKF.correct ScalarKF.gain
    rw [hi]
    obtain ⟨rfl, rfl⟩ := Prod.mk.inj h
    simp only [Function.comp_apply, Option.map_some, ScalarKF.apply, shrink, M2.mulVec, V2.scale, V2.add, V2.dot, V2.outer, M2.sub, M2.mul,
      M2.one, mul_zero', zero_mul', sub_zero', add_zero' (dmul _ _), add_zero' (dadd _ _)]
  refine ⟨key, fun hC hR hx hc hc0 => ?_⟩
  obtain ⟨_, _, a, b, _⟩ := C90_correction_partial hC hR hx hc hc0 key
  exact ⟨a, b⟩

/-- **C103 (prediction).**  A random walk or constant velocity model, `A = [1 a; 0 1]`, process noise on each state with
symmetric covariance, and control noise that is absent or acts on one state only: prediction keeps the covariance symmetric, to
the last bit. -/
theorem C103_prediction_partial {s : SysM} {c : M2} {a : ℚ} (hA : s.A = ⟨1, a, 0, 1⟩) (hP : s.P = M2.one) (hRp : Sym s.Rp)
    (hV : s.Rc = 0 ∨ s.V.x = 0 ∨ s.V.y = 0) (hdR : AllDouble s.Rp) (hd : AllDouble c) (hc : Sym c) : Sym (predictCov s c) := by
  obtain ⟨A, B, P, V, Rp, Rc⟩ := s
  obtain ⟨c1, c2, c3, c4⟩ := c
  obtain ⟨r1, r2, r3, r4⟩ := Rp
  obtain ⟨v1, v2⟩ := V
  simp only [Sym] at *
  subst hA hP hRp hc
  obtain ⟨d1, d2, -, d4⟩ := hd
  obtain ⟨e1, e2, -, e4⟩ := hdR
  simp only at d1 d2 d4 e1 e2 e4
  have hv : ScalarKF.mul (ScalarKF.mul v1 Rc) v2 = ScalarKF.mul (ScalarKF.mul v2 Rc) v1 := by
    rcases hV with rfl | rfl | rfl <;> simp only [mul_zero', zero_mul']
  simp only [predictCov, M2.mul, M2.tr, M2.add, M2.one, V2.scale, V2.outer, hv, mul_zero', zero_mul', one_mul' d1, one_mul' d2,
    one_mul' d4, zero_add' d1, zero_add' d2, zero_add' d4, one_mul' e1, one_mul' e2, one_mul' e4, mul_one' e1, mul_one' e2,
    mul_one' e4, add_zero' e1, add_zero' e2, add_zero' e4, zero_add' e1, zero_add' e2, zero_add' e4, mul_one' d2, mul_one' (dadd _ _),
    zero_add' (dadd _ _)]
  rw [mul_comm' a c4]

/-! ### The claim is false in general -/

/-- models that do not change -/
private def still2 : Class ℤ Unit where
  sysUpdate s _ _ _ := s
  measUpdate _ m _ _ := m

/-- A sensor that reads the first state, with variance 1; the system model is constant velocity with a time step of 0.1 and an
acceleration variance of 0.1 (the doubles nearest to these, `V = (dt²/2, dt)`), no process noise. -/
private def tenth : SEnv Unit where
  sys :=
    let dt := roundDouble (1 / 10)
    ⟨⟨1, dt, 0, 1⟩, ⟨roundDouble (dt * dt) / 2, dt⟩, M2.one, ⟨roundDouble (dt * dt) / 2, dt⟩, ⟨0, 0, 0, 0⟩, roundDouble (1 / 10)⟩
  meas _ := ⟨⟨1, 0⟩, 1⟩

private def pars2 : Params ℤ := { rewindHistory := false, historyWindow := 1, allowPast := false }

/-- **C103 fails (symmetry, correction).**  One measurement of the first state, variance 1, on the covariance `[4 3; 3 3]`: the
two off-diagonal entries of the covariance reported are different numbers. -/
theorem C103_refuted_symmetry : ∃ f a b c d,
    (Filter.construct (plant still2) pars2 tenth [0, 0] [4, 3, 3, 3] 0).correct (plant still2) [0] [1] 0 (some ()) = some f ∧
      f.getCovariance = [a, b, c, d] ∧ c < b := by
  have h : (((Filter.construct (plant still2) pars2 tenth [0, 0] [4, 3, 3, 3] 0).correct (plant still2) [0] [1] 0 (some ())).any
      fun f => match f.getCovariance with | [_, b, c, _] => decide (c < b) | _ => false) = true := by decide +kernel
  rw [Option.any_eq_true] at h
  obtain ⟨f, hf, h2⟩ := h
  split at h2
  next a b c d e => exact ⟨f, a, b, c, d, hf, e, by simpa using h2⟩
  next => cases h2

/-- **C103 fails (symmetry, prediction).**  The constant velocity model with a time step of 0.1 and an acceleration variance of 0.1:
one prediction from a covariance of zero reports an asymmetric covariance. -/
theorem C103_refuted_prediction : ∃ f a b c d,
    (Filter.construct (plant still2) pars2 tenth [0, 0] [0, 0, 0, 0] 0).predictTime (plant still2) 1 = some f ∧
      f.getCovariance = [a, b, c, d] ∧ b ≠ c := by
  have h : (((Filter.construct (plant still2) pars2 tenth [0, 0] [0, 0, 0, 0] 0).predictTime (plant still2) 1).any
      fun f => match f.getCovariance with | [_, b, c, _] => decide (b ≠ c) | _ => false) = true := by decide +kernel
  rw [Option.any_eq_true] at h
  obtain ⟨f, hf, h2⟩ := h
  split at h2
  next a b c d e => exact ⟨f, a, b, c, d, hf, e, by simpa using h2⟩
  next => cases h2

/-- **C103 fails (variance).**  A filter that knows little about its states, but that the second is minus two thirds of the first
(covariance `2⁶⁰ [45 -30; -30 20]`), is given one measurement of the first state with variance 1: the variance it then
reports for the second state is -4096. -/
theorem C103_refuted_variance : ∃ f a b c,
    (Filter.construct (plant still2) pars2 tenth [0, 0] [45 * 2 ^ 60, -30 * 2 ^ 60, -30 * 2 ^ 60, 20 * 2 ^ 60] 0).correct
      (plant still2) [0] [1] 0 (some ()) = some f ∧ f.getCovariance = [a, b, c, -4096] := by
  have h : (((Filter.construct (plant still2) pars2 tenth [0, 0] [45 * 2 ^ 60, -30 * 2 ^ 60, -30 * 2 ^ 60, 20 * 2 ^ 60] 0).correct
      (plant still2) [0] [1] 0 (some ())).any
      fun f => match f.getCovariance with | [_, _, _, d] => decide (d = -4096) | _ => false) = true := by decide +kernel
  rw [Option.any_eq_true] at h
  obtain ⟨f, hf, h2⟩ := h
  split at h2
  next a b c d e => exact ⟨f, a, b, c, hf, by rw [e]; simpa using h2⟩
  next => cases h2

/-- The numbers handed over are doubles, and these covariances are symmetric and positive semidefinite (the first is positive
definite). -/
theorem C103_refuted_hyps : AllDouble ⟨4, 3, 3, 3⟩ ∧ AllDouble ⟨45 * 2 ^ 60, -30 * 2 ^ 60, -30 * 2 ^ 60, 20 * 2 ^ 60⟩ ∧
    ((4 : ℚ) * 3 - 3 * 3 = 3) ∧ ((45 : ℚ) * 20 = (-30) * (-30)) := by
  refine ⟨⟨⟨4, 0, by norm_num, by norm_num, by norm_num⟩, ⟨3, 0, by norm_num, by norm_num, by norm_num⟩,
    ⟨3, 0, by norm_num, by norm_num, by norm_num⟩, ⟨3, 0, by norm_num, by norm_num, by norm_num⟩⟩,
    ⟨⟨45, 60, by norm_num, by norm_num, by norm_num⟩, ⟨-30, 60, by norm_num, by norm_num, by norm_num⟩,
    ⟨-30, 60, by norm_num, by norm_num, by norm_num⟩, ⟨20, 60, by norm_num, by norm_num, by norm_num⟩⟩, by norm_num, by norm_num⟩

/-- The hypotheses of `C103_measured_partial` are met by such a correction. -/
example : ∃ x' c', PairKF.correct ⟨⟨2, 0⟩, 1⟩ ⟨1, 5⟩ ⟨4, 3, 3, 3⟩ 7 = some (x', c') ∧ c'.a ≤ 4 := by
  have h : ((PairKF.correct ⟨⟨2, 0⟩, 1⟩ ⟨1, 5⟩ ⟨4, 3, 3, 3⟩ 7).isSome) = true := by decide +kernel
  obtain ⟨⟨x', c'⟩, h⟩ := Option.isSome_iff_exists.mp h
  refine ⟨x', c', h, ?_⟩
  exact ((C103_measured_partial rfl h).2 ⟨1, by norm_num, Or.inl (by norm_num)⟩ (by norm_num) ⟨1, 0, by norm_num, by norm_num, by norm_num⟩
    ⟨4, 0, by norm_num, by norm_num, by norm_num⟩ (by norm_num)).2

/-- ... and those of `C103_prediction_partial` by a constant velocity model with a time step of 1/4 and noise on the velocity. -/
example : Sym (predictCov ⟨⟨1, 1 / 4, 0, 1⟩, ⟨0, 1⟩, M2.one, ⟨0, 1⟩, ⟨1, 1 / 2, 1 / 2, 1⟩, 3⟩ ⟨4, 3, 3, 3⟩) := by
  refine C103_prediction_partial rfl rfl rfl (Or.inr (Or.inl rfl)) ?_ C103_refuted_hyps.1 rfl
  exact ⟨⟨1, 0, by norm_num, by norm_num, by norm_num⟩, ⟨1, -1, by norm_num, by norm_num, by norm_num⟩,
    ⟨1, -1, by norm_num, by norm_num, by norm_num⟩, ⟨1, 0, by norm_num, by norm_num, by norm_num⟩⟩

end Props
end StateEstimation
