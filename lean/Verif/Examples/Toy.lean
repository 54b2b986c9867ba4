import Verif.Model.FilterBase
import Mathlib.Algebra.Order.Ring.Int

/-!
# A small concrete filter used in non-vacuity examples and refutations

A user-defined `FilterBase` subclass in the sense of test/test_filter_base.cpp: a one-dimensional integrator
with integer arithmetic.  `myPredict` moves the state by `u * dt` and adds `Rc` to the variance, `myCorrect`
moves the state half way to the measurement.  It has no stationary predicate.
-/

namespace StateEstimation

/-- Integrator with unit control dimension.  `E = ℤ` is the system model's `Rc`. -/
def toy : Plant ℤ (List ℤ) ℤ Unit ℤ where
  vsize := List.length
  emptyV := []
  emptyM := 0
  zeroV n := List.replicate n 0
  controlSize _ := 1
  rc e := e
  setRc _ R := some R
  sysCheck _ := false
  sysIsStationary _ _ _ := false
  sysProcess e _ _ := some e
  sysMake _ x c := some (x, c)
  setMeasCov e _ _ := some e
  measCheck _ _ := false
  measIsStationary _ _ _ _ := false
  measProcess e _ _ _ := some e
  measMake _ _ x c := some (x, c)
  myPredict e x c u dt := some ([x.headD 0 + u.headD 0 * dt], c + e, e)
  myCorrect e x c z _ _ := some ([(x.headD 0 + z.headD 0) / 2], c, e)

/-- The same integrator with a stationary predicate on the system model: "the state is at zero". Being stationary
sets the variance to 7. -/
def toyStationary : Plant ℤ (List ℤ) ℤ Unit ℤ :=
  { toy with
    sysCheck := fun _ => true
    sysIsStationary := fun _ x _ => x == [0]
    sysMake := fun _ x _ => some (x, 7)
    measCheck := fun _ _ => true
    measIsStationary := fun _ _ x _ => x == [0]
    measMake := fun _ _ x _ => some (x, 70) }

/-- Insertion sort by time, new elements before equal ones. -/
def insSort : List (FilterInput ℤ (List ℤ) ℤ Unit) → List (FilterInput ℤ (List ℤ) ℤ Unit)
  | [] => []
  | a :: l => ins a (insSort l)
where
  ins (a : FilterInput ℤ (List ℤ) ℤ Unit) :
      List (FilterInput ℤ (List ℤ) ℤ Unit) → List (FilterInput ℤ (List ℤ) ℤ Unit)
    | [] => [a]
    | b :: l => if a.timestamp ≤ b.timestamp then a :: b :: l else b :: ins a l

theorem insSort_isTimeSort : IsTimeSort insSort := by
  have hins : ∀ a l, (insSort.ins a l).Perm (a :: l) := by
    intro a l
    induction l with
    | nil => exact List.Perm.refl _
    | cons b l ih =>
      unfold insSort.ins
      split
      · exact List.Perm.refl _
      · exact (List.Perm.cons b ih).trans (List.Perm.swap a b l)
  have hs : ∀ a (l : List (FilterInput ℤ (List ℤ) ℤ Unit)),
      l.Pairwise (fun a b => TimeOps.lt b.timestamp a.timestamp = false) →
      (insSort.ins a l).Pairwise (fun a b => TimeOps.lt b.timestamp a.timestamp = false) := by
    intro a l
    induction l with
    | nil => intro _; simp [insSort.ins]
    | cons b l ih =>
      intro hp
      rw [List.pairwise_cons] at hp
      unfold insSort.ins
      split
      · rename_i hab
        rw [List.pairwise_cons, List.pairwise_cons]
        refine ⟨?_, hp⟩
        intro c hc
        rcases List.mem_cons.mp hc with rfl | hc
        · simpa [TimeOps.lt] using hab
        · have := hp.1 c hc
          simp only [TimeOps.lt, decide_eq_false_iff_not, not_lt] at this ⊢
          exact le_trans hab this
      · rename_i hab
        rw [List.pairwise_cons]
        refine ⟨?_, ih hp.2⟩
        intro c hc
        rcases List.mem_cons.mp ((hins a l).mem_iff.mp hc) with rfl | hc
        · simp only [TimeOps.lt, decide_eq_false_iff_not, not_lt]
          exact le_of_lt (not_le.mp hab)
        · exact hp.1 c hc
  intro l
  induction l with
  | nil => exact ⟨List.Perm.refl _, List.Pairwise.nil⟩
  | cons a l ih =>
    exact ⟨(hins a _).trans (List.Perm.cons a ih.1), hs a _ ih.2⟩

/-- A toy filter with rewinding on, window 100, at time 0, state `[0]`, `Rc = 1`. -/
def toyRewind : Filter ℤ (List ℤ) ℤ Unit ℤ :=
  Filter.construct toy ⟨true, 100, false⟩ 1 [0] 0 0

/-- A toy filter with rewinding off. -/
def toyPlain : Filter ℤ (List ℤ) ℤ Unit ℤ :=
  Filter.construct toy ⟨false, 100, false⟩ 1 [0] 0 0

/-- run on the toy plant -/
abbrev toyRun := Filter.run toy insSort

/-- estimate (state, covariance, time) after a run -/
abbrev estimate {T V M K E : Type} (f : Option (Filter T V M K E)) : Option (V × M × T) :=
  f.map fun g => (g.getState, g.getCovariance, g.getStateTime)

end StateEstimation
