import Verif.Model.FilterBase
import Mathlib.Algebra.Order.Ring.Int

/-! # A filter for examples on any clock -/

namespace StateEstimation

/-- A user-defined `FilterBase` subclass (in the sense of test/test_filter_base.cpp) on any clock: every control moves the state
by `u` and adds `Rc` to the variance, every measurement moves the state half way, whatever the step length. -/
def counter (T : Type) : Plant T (List ℤ) ℤ Unit ℤ where
  vsize := List.length
  emptyV := []
  emptyM := 0
  zeroV n := List.replicate n 0
  controlSize _ := 1
  rc e := e
  setRc _ R := some R
  sysCheck _ := false
  sysIsStationary _ _ _ := false
  sysProcess e _ _ := some e
  sysMake _ x c := some (x, c)
  setMeasCov e _ _ := some e
  measCheck _ _ := false
  measIsStationary _ _ _ _ := false
  measProcess e _ _ _ := some e
  measMake _ _ x c := some (x, c)
  myPredict e x c u _ := some ([x.headD 0 + u.headD 0], c + e, e)
  myCorrect e x c z _ _ := some ([(x.headD 0 + z.headD 0) / 2], c, e)

end StateEstimation
