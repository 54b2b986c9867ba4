import Mathlib.Data.Matrix.Mul
import Mathlib.LinearAlgebra.Matrix.NonsingularInverse
import Mathlib.Data.Real.Basic

/-!
# `Eigen::VectorXd` and `Eigen::MatrixXd`

Dynamically sized vectors and matrices.  The sizes are data, and every operation whose sizes do not fit returns
`none`: Eigen's `eigen_assert` (active because the default build does not define `NDEBUG`) aborts there.
Simplification: entries are exact real numbers, not doubles.

`DVec.of`/`DMat.of` wrap a Mathlib vector or matrix; the lemmas below say that on wrapped arguments of fitting size the
operations are Mathlib's.
-/

namespace StateEstimation

/-- `Eigen::VectorXd`. -/
structure DVec where
  size : Nat
  val : Fin size → ℝ

/-- `Eigen::MatrixXd`. -/
structure DMat where
  rows : Nat
  cols : Nat
  val : Matrix (Fin rows) (Fin cols) ℝ

namespace DVec

/-- wrap -/
abbrev of {n : Nat} (v : Fin n → ℝ) : DVec := ⟨n, v⟩

/-- `Eigen::VectorXd()`. -/
def empty : DVec := ⟨0, fun _ => 0⟩
/-- `Eigen::VectorXd::Zero(n)`. -/
def zero (n : Nat) : DVec := ⟨n, fun _ => 0⟩
/-- `Eigen::VectorXd::Constant(n, c)`. -/
def const (n : Nat) (c : ℝ) : DVec := ⟨n, fun _ => c⟩

/-- `v(i)`; out of range is an `eigen_assert`. -/
def get? (v : DVec) (i : Nat) : Option ℝ := if h : i < v.size then some (v.val ⟨i, h⟩) else none

/-- `v(i) = c`. -/
def set? (v : DVec) (i : Nat) (c : ℝ) : Option DVec :=
  if i < v.size then some ⟨v.size, fun j => if j.val = i then c else v.val j⟩ else none

/-- `a + b`. -/
def add (a b : DVec) : Option DVec :=
  if h : a.size = b.size then some ⟨a.size, fun i => a.val i + b.val (Fin.cast h i)⟩ else none

/-- `a - b`. -/
def sub (a b : DVec) : Option DVec :=
  if h : a.size = b.size then some ⟨a.size, fun i => a.val i - b.val (Fin.cast h i)⟩ else none

/-- `c * a`. -/
def smul (c : ℝ) (a : DVec) : DVec := ⟨a.size, fun i => c * a.val i⟩

end DVec

namespace DMat

/-- wrap -/
abbrev of {r c : Nat} (A : Matrix (Fin r) (Fin c) ℝ) : DMat := ⟨r, c, A⟩

/-- `Eigen::MatrixXd()`. -/
def empty : DMat := ⟨0, 0, fun _ _ => 0⟩
/-- `Eigen::MatrixXd::Zero(r, c)`. -/
def zero (r c : Nat) : DMat := ⟨r, c, 0⟩
/-- `Eigen::MatrixXd::Identity(n, n)`. -/
def identity (n : Nat) : DMat := ⟨n, n, 1⟩

/-- `A(i, j)`. -/
def get? (A : DMat) (i j : Nat) : Option ℝ :=
  if h : i < A.rows ∧ j < A.cols then some (A.val ⟨i, h.1⟩ ⟨j, h.2⟩) else none

/-- `A(i, j) = c`. -/
def set? (A : DMat) (i j : Nat) (c : ℝ) : Option DMat :=
  if i < A.rows ∧ j < A.cols then
    some ⟨A.rows, A.cols, fun a b => if a.val = i ∧ b.val = j then c else A.val a b⟩
  else none

/-- `A.col(j)`. -/
def col? (A : DMat) (j : Nat) : Option DVec :=
  if h : j < A.cols then some ⟨A.rows, fun i => A.val i ⟨j, h⟩⟩ else none

/-- `A.col(j) = v`. -/
def setCol? (A : DMat) (j : Nat) (v : DVec) : Option DMat :=
  if h : j < A.cols ∧ A.rows = v.size then
    some ⟨A.rows, A.cols, fun a b => if b.val = j then v.val (Fin.cast h.2 a) else A.val a b⟩
  else none

/-- `A + B`. -/
def add (A B : DMat) : Option DMat :=
  if h : A.rows = B.rows ∧ A.cols = B.cols then
    some ⟨A.rows, A.cols, fun i j => A.val i j + B.val (Fin.cast h.1 i) (Fin.cast h.2 j)⟩
  else none

/-- `A - B`. -/
def sub (A B : DMat) : Option DMat :=
  if h : A.rows = B.rows ∧ A.cols = B.cols then
    some ⟨A.rows, A.cols, fun i j => A.val i j - B.val (Fin.cast h.1 i) (Fin.cast h.2 j)⟩
  else none

/-- `A * B`. -/
def mul (A B : DMat) : Option DMat :=
  if h : A.cols = B.rows then
    some ⟨A.rows, B.cols, A.val * B.val.submatrix (Fin.cast h) id⟩
  else none

/-- `A * v`. -/
def mulVec (A : DMat) (v : DVec) : Option DVec :=
  if h : A.cols = v.size then some ⟨A.rows, A.val.mulVec (fun j => v.val (Fin.cast h j))⟩ else none

/-- `A.transpose()`. -/
def transpose (A : DMat) : DMat := ⟨A.cols, A.rows, A.val.transpose⟩

/-- `c * A`. -/
def smul (c : ℝ) (A : DMat) : DMat := ⟨A.rows, A.cols, c • A.val⟩

/-- `a * b.transpose()` for vectors. -/
def outer (a b : DVec) : DMat := ⟨a.size, b.size, Matrix.vecMulVec a.val b.val⟩

open Classical in
/-- `A.inverse()`: an `eigen_assert` for a non-square matrix.  Simplification: the inverse of a singular matrix, which is
full of infinities and NaNs in the program, is `none`. -/
noncomputable def inverse (A : DMat) : Option DMat :=
  if h : A.rows = A.cols then
    if IsUnit (A.val.submatrix id (Fin.cast h)).det then
      some ⟨A.rows, A.rows, (A.val.submatrix id (Fin.cast h))⁻¹⟩
    else none
  else none

end DMat

/-! ### Wrapped arguments -/

variable {n m k r c : Nat}

@[simp] theorem DVec.of_size (v : Fin n → ℝ) : (DVec.of v).size = n := rfl
@[simp] theorem DMat.of_rows (A : Matrix (Fin r) (Fin c) ℝ) : (DMat.of A).rows = r := rfl
@[simp] theorem DMat.of_cols (A : Matrix (Fin r) (Fin c) ℝ) : (DMat.of A).cols = c := rfl

theorem DVec.of_inj {v w : Fin n → ℝ} : DVec.of v = DVec.of w ↔ v = w := by simp [DVec.of]
theorem DMat.of_inj {A B : Matrix (Fin r) (Fin c) ℝ} : DMat.of A = DMat.of B ↔ A = B := by simp [DMat.of]

theorem DVec.exists_of (v : DVec) (h : v.size = n) : ∃ w : Fin n → ℝ, v = DVec.of w := by
  subst h; exact ⟨v.val, rfl⟩

theorem DMat.exists_of (A : DMat) (h1 : A.rows = r) (h2 : A.cols = c) :
    ∃ B : Matrix (Fin r) (Fin c) ℝ, A = DMat.of B := by
  subst h1 h2; exact ⟨A.val, rfl⟩

theorem DVec.add_of (v w : Fin n → ℝ) : DVec.add (.of v) (.of w) = some (.of (v + w)) := by
  unfold DVec.add; rw [dif_pos rfl]; rfl
theorem DVec.sub_of (v w : Fin n → ℝ) : DVec.sub (.of v) (.of w) = some (.of (v - w)) := by
  unfold DVec.sub; rw [dif_pos rfl]; rfl
theorem DVec.smul_of (a : ℝ) (v : Fin n → ℝ) : DVec.smul a (.of v) = .of (a • v) := rfl
theorem DVec.zero_of : DVec.zero n = DVec.of (0 : Fin n → ℝ) := rfl

theorem DMat.add_of (A B : Matrix (Fin r) (Fin c) ℝ) : DMat.add (.of A) (.of B) = some (.of (A + B)) := by
  unfold DMat.add; rw [dif_pos ⟨rfl, rfl⟩]; rfl
theorem DMat.sub_of (A B : Matrix (Fin r) (Fin c) ℝ) : DMat.sub (.of A) (.of B) = some (.of (A - B)) := by
  unfold DMat.sub; rw [dif_pos ⟨rfl, rfl⟩]; rfl
theorem DMat.mul_of (A : Matrix (Fin r) (Fin k) ℝ) (B : Matrix (Fin k) (Fin c) ℝ) :
    DMat.mul (.of A) (.of B) = some (.of (A * B)) := by
  unfold DMat.mul; rw [dif_pos rfl]; rfl
theorem DMat.mulVec_of (A : Matrix (Fin r) (Fin k) ℝ) (v : Fin k → ℝ) :
    DMat.mulVec (.of A) (.of v) = some (.of (A.mulVec v)) := by
  unfold DMat.mulVec; rw [dif_pos rfl]; rfl
theorem DMat.transpose_of (A : Matrix (Fin r) (Fin c) ℝ) : DMat.transpose (.of A) = .of A.transpose := rfl
theorem DMat.smul_of (a : ℝ) (A : Matrix (Fin r) (Fin c) ℝ) : DMat.smul a (.of A) = .of (a • A) := rfl
theorem DMat.outer_of (v : Fin n → ℝ) (w : Fin m → ℝ) :
    DMat.outer (.of v) (.of w) = .of (Matrix.vecMulVec v w) := rfl
theorem DMat.identity_of : DMat.identity n = .of (1 : Matrix (Fin n) (Fin n) ℝ) := rfl
theorem DMat.zero_of : DMat.zero r c = .of (0 : Matrix (Fin r) (Fin c) ℝ) := rfl

theorem DMat.inverse_of (A : Matrix (Fin n) (Fin n) ℝ) (h : IsUnit A.det) :
    DMat.inverse (.of A) = some (.of A⁻¹) := by
  unfold DMat.inverse
  rw [dif_pos rfl]
  have e : (A.submatrix id (Fin.cast rfl)) = A := rfl
  rw [e, if_pos h]

theorem DMat.inverse_singular (A : Matrix (Fin n) (Fin n) ℝ) (h : ¬ IsUnit A.det) :
    DMat.inverse (.of A) = none := by
  unfold DMat.inverse
  rw [dif_pos rfl]
  have e : (A.submatrix id (Fin.cast rfl)) = A := rfl
  rw [e, if_neg h]

/-! ### Inversion: what a successful operation says about its arguments -/

theorem DVec.add_eq_some {a b r : DVec} (h : a.add b = some r) : a.size = b.size ∧ r.size = a.size := by
  unfold DVec.add at h
  split at h
  · injection h with h; subst h; exact ⟨by assumption, rfl⟩
  · cases h

theorem DVec.sub_eq_some {a b r : DVec} (h : a.sub b = some r) : a.size = b.size ∧ r.size = a.size := by
  unfold DVec.sub at h
  split at h
  · injection h with h; subst h; exact ⟨by assumption, rfl⟩
  · cases h

theorem DMat.add_eq_some {A B C : DMat} (h : A.add B = some C) :
    A.rows = B.rows ∧ A.cols = B.cols ∧ C.rows = A.rows ∧ C.cols = A.cols := by
  unfold DMat.add at h
  split at h
  next h' => injection h with h; subst h; exact ⟨h'.1, h'.2, rfl, rfl⟩
  next => cases h

theorem DMat.sub_eq_some {A B C : DMat} (h : A.sub B = some C) :
    A.rows = B.rows ∧ A.cols = B.cols ∧ C.rows = A.rows ∧ C.cols = A.cols := by
  unfold DMat.sub at h
  split at h
  next h' => injection h with h; subst h; exact ⟨h'.1, h'.2, rfl, rfl⟩
  next => cases h

theorem DMat.mul_eq_some {A B C : DMat} (h : A.mul B = some C) :
    A.cols = B.rows ∧ C.rows = A.rows ∧ C.cols = B.cols := by
  unfold DMat.mul at h
  split at h
  next h' => injection h with h; subst h; exact ⟨h', rfl, rfl⟩
  next => cases h

theorem DMat.mulVec_eq_some {A : DMat} {v r : DVec} (h : A.mulVec v = some r) :
    A.cols = v.size ∧ r.size = A.rows := by
  unfold DMat.mulVec at h
  split at h
  next h' => injection h with h; subst h; exact ⟨h', rfl⟩
  next => cases h

theorem DMat.inverse_eq_some {A B : DMat} (h : A.inverse = some B) :
    A.rows = A.cols ∧ B.rows = A.rows ∧ B.cols = A.rows := by
  unfold DMat.inverse at h
  split at h
  next h' =>
    split at h
    · injection h with h; subst h; exact ⟨h', rfl, rfl⟩
    · cases h
  next => cases h

end StateEstimation
