import Verif.Spec.Orbit
import Mathlib.Analysis.Calculus.Deriv.Basic

/-!
# Specification of two-body motion
-/

namespace Pal.Spec

/-- `x` and `v` are position and velocity, as functions of time, of a body that moves under the attraction mu/r² of a mass at the origin and never meets it. -/
structure TwoBody (mu : ℝ) (x v : ℝ → Fin 3 → ℝ) : Prop where
  away : ∀ t, 0 < len (x t)
  velocity : ∀ t i, HasDerivAt (fun τ => x τ i) (v t i) t
  acceleration : ∀ t i, HasDerivAt (fun τ => v τ i) (-mu * x t i / len (x t) ^ 3) t

end Pal.Spec
