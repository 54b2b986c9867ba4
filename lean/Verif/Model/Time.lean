import Mathlib.Algebra.Order.Group.Defs
import Mathlib.Order.Defs.LinearOrder

/-!
# Time stamps

`FilterBase` keeps time stamps as `double` (include/state_estimation/filters/filter_base.h:44,70,83) and only
ever compares, subtracts and adds them.  `TimeOps` offers exactly these operations, as raw `Bool` comparisons, so
that clocks with a NaN are instances too.  `LawfulTime` is what finite IEEE doubles satisfy,
`ExactTime` adds that `t + (s - t) = s`, which doubles do not satisfy (see C64).
-/

namespace StateEstimation

/-- The operations on time stamps used by filter_base.hpp: `<` (60,78,101,140,208,254,262,437,449),
`>=`/`<=` (121,282), `-` (120,312,332,378,429), `+=` (315,387) and the literal `0` (121,379). -/
class TimeOps (T : Type) where
  /-- C++ `a < b` (also `b > a`). -/
  lt : T → T → Bool
  /-- C++ `a <= b` (also `b >= a`). -/
  le : T → T → Bool
  /-- C++ `a - b`. -/
  sub : T → T → T
  /-- C++ `a + b`. -/
  add : T → T → T
  /-- C++ `0` / `0.0`. -/
  zero : T

/-- Comparisons form a linear order and the sign of a difference is right.  Finite IEEE doubles
satisfy this (gradual underflow makes `s - t = 0` only for `s = t`). -/
class LawfulTime (T : Type) [LinearOrder T] extends TimeOps T where
  lt_iff : ∀ a b : T, lt a b = true ↔ a < b
  le_iff : ∀ a b : T, le a b = true ↔ a ≤ b
  sub_nonneg_iff : ∀ s t : T, zero ≤ sub s t ↔ t ≤ s
  sub_pos_iff : ∀ s t : T, zero < sub s t ↔ t < s

/-- Lawful time in which adding a difference back is exact (integers, rationals, reals). -/
class ExactTime (T : Type) [LinearOrder T] extends LawfulTime T where
  add_sub_cancel : ∀ s t : T, add t (sub s t) = s

/-- The single fact about IEEE comparisons, true with NaN as well, that memory safety of the rewind loop needs:
`a < b` and `b <= a` are never both true. -/
class SaneTime (T : Type) [TimeOps T] : Prop where
  lt_not_le : ∀ a b : T, TimeOps.lt a b = true → TimeOps.le b a = false

instance (T : Type) [LinearOrder T] [LawfulTime T] : SaneTime T where
  lt_not_le a b h := by
    rw [LawfulTime.lt_iff] at h
    rw [Bool.eq_false_iff]
    intro h2
    rw [LawfulTime.le_iff] at h2
    exact absurd h (not_lt.mpr h2)

/-- Every linearly ordered commutative group is an exact clock. -/
instance ordGroupTime (T : Type) [LinearOrder T] [AddCommGroup T] [IsOrderedAddMonoid T] :
    ExactTime T where
  lt a b := decide (a < b)
  le a b := decide (a ≤ b)
  sub a b := a - b
  add a b := a + b
  zero := 0
  lt_iff := by simp
  le_iff := by simp
  sub_nonneg_iff := fun s t => sub_nonneg
  sub_pos_iff := fun s t => sub_pos
  add_sub_cancel := fun s t => by
    rw [add_comm, sub_add_cancel]

/-- A time stamp or `+infinity` (`none`).  filter_base.hpp:185 starts the search for the oldest queued input
at `std::numeric_limits<double>::infinity()`.  Simplification: a caller-supplied time stamp that is itself
infinite is a value of `T`, not `none`. -/
abbrev Bound (T : Type) := Option T

variable {T : Type} [TimeOps T]

/-- C++ `b > s` where `b` may be `+infinity`.  `+infinity > s` holds for every finite `s` and fails for NaN, for
which `s <= s` fails. -/
def Bound.gt : Bound T → T → Bool
  | some t, s => TimeOps.lt s t
  | none, s => TimeOps.le s s

/-- C++ `s >= b` where `b` may be `+infinity` (false then, for every finite or NaN `s`). -/
def Bound.leTime : Bound T → T → Bool
  | some t, s => TimeOps.le t s
  | none, _ => false

/-- `std::min(b, t)` as used in filter_base.hpp:187,190: `(t < b) ? t : b`. -/
def Bound.min : Bound T → T → Bound T
  | some b, t => if TimeOps.lt t b then some t else some b
  | none, t => if TimeOps.le t t then some t else none

end StateEstimation
