import Verif.Model.Time

/-!
# Clocks with NaN

`WithNaN T` adds the IEEE value NaN to a clock: every comparison with it is false and it absorbs addition and subtraction.
Time stamps of filter_base.h:44,70,83 are doubles, so any caller can pass one.
-/

namespace StateEstimation

/-- a time stamp or NaN -/
inductive WithNaN (T : Type) where
  | num (t : T)
  | nan
deriving DecidableEq

/-- IEEE 754 comparisons and arithmetic with NaN -/
instance (T : Type) [TimeOps T] : TimeOps (WithNaN T) where
  lt
    | .num a, .num b => TimeOps.lt a b
    | _, _ => false
  le
    | .num a, .num b => TimeOps.le a b
    | _, _ => false
  sub
    | .num a, .num b => .num (TimeOps.sub a b)
    | _, _ => .nan
  add
    | .num a, .num b => .num (TimeOps.add a b)
    | _, _ => .nan
  zero := .num TimeOps.zero

instance (T : Type) [TimeOps T] [SaneTime T] : SaneTime (WithNaN T) where
  lt_not_le a b h := by
    cases a with
    | nan => cases b <;> rfl
    | num a =>
      cases b with
      | nan => rfl
      | num b => exact SaneTime.lt_not_le a b h

end StateEstimation
