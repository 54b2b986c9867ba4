import Verif.Model.Geometry
import Mathlib.Analysis.Calculus.Deriv.Basic

/-!
# Specification vocabulary: the motion of a rigid body

A body turns with the constant angular velocity `w` and accelerates with the constant acceleration `a`, both as measured by
instruments fixed to the body.  This is stated by the differential equations of mechanics, not by their solutions.
-/

namespace StateEstimation

open Matrix

/-- `R s` turns vectors given in the frame of the body at time `s` into the frame of the body at time 0.  A vector `b` fixed to the
body moves with the velocity `w × b`. -/
structure Turns (w : V3) (R : ℝ → M3) : Prop where
  start : R 0 = 1
  rate : ∀ (b : V3) (s : ℝ), HasDerivAt (fun s => R s *ᵥ b) (R s *ᵥ crossProduct w b) s

/-- The differential equations of integration.cpp:25-26,45-47: `v' = R a`, `p' = R v`. -/
structure Moves (w a : V3) (R : ℝ → M3) (v p : ℝ → V3) : Prop where
  turns : Turns w R
  velocity : ∀ s, HasDerivAt v (R s *ᵥ a) s
  position : ∀ s, HasDerivAt p (R s *ᵥ v s) s

/-- The same motion described on board: `v s` is the velocity and `g s` a vector fixed in space (gravity), both in the frame of the
body at time `s`.  On board the surroundings turn with `-w`.  (`seen_from_body` in `Props/Physics`: turned into the frame of
time 0, the velocity changes with `R a`, and gravity stays what it was.) -/
structure SeenFromBody (w a : V3) (v g : ℝ → V3) : Prop where
  velocity : ∀ s, HasDerivAt v (a - crossProduct w (v s)) s
  gravity : ∀ s, HasDerivAt g (-crossProduct w (g s)) s

end StateEstimation
