import Mathlib.Analysis.SpecialFunctions.Trigonometric.Basic
import Mathlib.Algebra.BigOperators.Intervals

/-!
# Specification vocabulary for refraction
-/

namespace Pal.Spec

/-- The composite Simpson rule with n strips (n even) for the integral of g from a to b. -/
noncomputable def simpson (g : ℝ → ℝ) (a b : ℝ) (n : ℕ) : ℝ :=
  let h := (b - a) / n
  h / 3 * (g a + 4 * ∑ j ∈ Finset.range (n / 2), g (a + (2 * j + 1) * h) + 2 * ∑ j ∈ Finset.range (n / 2 - 1), g (a + (2 * j + 2) * h) + g b)

/-- The two-constant refraction model: vacuum zenith distance belonging to an observed zenith distance. -/
noncomputable def unrefract (a b z : ℝ) : ℝ := z + a * Real.tan z + b * Real.tan z ^ 3

end Pal.Spec
