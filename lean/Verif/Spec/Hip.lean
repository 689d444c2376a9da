import Verif.Spec.Sphere
import Verif.Spec.Nutc
import Mathlib.LinearAlgebra.CrossProduct

/-!
# Specification vocabulary: the FK5 and Hipparcos frames (Hipparcos and Tycho Catalogues, vol. 1, and Mignard and Froeschlé)
-/

namespace Pal.Spec
open Real

/-- One milliarcsecond. -/
noncomputable def mas : ℝ := arcsec / 1000

/-- Angles, about the three axes, from the FK5 axes to the Hipparcos axes at epoch J2000. -/
noncomputable def hipOrientation : Fin 3 → ℝ := ![-19.9 * mas, -9.1 * mas, 22.9 * mas]

/-- The change of these angles in a Julian year. -/
noncomputable def hipSpin : Fin 3 → ℝ := ![-0.30 * mas, 0.60 * mas, 0.70 * mas]

/-- The angles at a Julian epoch. -/
noncomputable def hipAngles (epoch : ℝ) : Fin 3 → ℝ := fun i => hipOrientation i + (epoch - 2000) * hipSpin i

/-- Components of `u` in axes turned by the angle `phi` about the unit vector `k` (Rodrigues' formula). -/
noncomputable def turnAxes (k : Fin 3 → ℝ) (phi : ℝ) (u : Fin 3 → ℝ) : Fin 3 → ℝ :=
  fun i => cos phi * u i - sin phi * crossProduct k u i + (1 - cos phi) * dot k u * k i

end Pal.Spec
