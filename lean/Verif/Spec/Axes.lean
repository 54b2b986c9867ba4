import Verif.Spec.Units
import Verif.Model.SixD

/-!
# Specification vocabulary: the same vehicle described in other body axes

The body axes of a vehicle are a convention.  If `Q` is the rotation from the old axes to the new ones, a vector with
components `v` in the old axes has components `Q v` in the new ones.  A 6-D rates state consists of six such vectors, its
process noise of five, and a sensor mounted with the rotation `R` relative to the old axes is mounted with `R Qᵀ` relative to
the new ones (at the same place of its own frame).
-/

namespace StateEstimation

open Matrix

/-- `Q` applied to every consecutive triple of components. -/
def turnEach (n : Nat) (Q : M3) : Matrix (Fin n) (Fin n) ℝ := fun i j =>
  if i.val / 3 = j.val / 3 then Q ⟨i.val % 3, Nat.mod_lt _ (by omega)⟩ ⟨j.val % 3, Nat.mod_lt _ (by omega)⟩ else 0

/-- The mounting of a sensor, relative to the new axes. -/
def Iso.inAxes (Q : M3) (tf : Iso) : Iso := ⟨tf.R * Qᵀ, tf.t⟩

end StateEstimation
