import Verif.Spec.Sphere
import Mathlib.Analysis.SpecialFunctions.Trigonometric.Deriv

/-!
# Specification vocabulary: stars in uniform straight motion, seen by light
-/

namespace Pal.Spec
open Real

/-- The speed of light, au per day (299792.458 km/s, au of 149597870.7 km). -/
noncomputable def lightSpeed : ℝ := 299792.458 * 86400 / 149597870.7

/-- Distance (au) for a parallax in arcseconds; parallaxes below 1e-7 count as 1e-7. -/
noncomputable def distance (px : ℝ) : ℝ := 648000 / π / max px 1e-7

/-- The proper motion as a vector on the unit sphere, radians per year (`pr`: rate of the coordinate right ascension). -/
noncomputable def properMotion (r0 d0 pr pd : ℝ) : Fin 3 → ℝ := fun i => pr * cos d0 * eastAt r0 i + pd * northAt r0 d0 i

/-- Radial velocity in au per day, from km/s. -/
noncomputable def radial (rv : ℝ) : ℝ := rv * 86400 / 149597870.7

/-- The speed (au per day) that distance, proper motion and radial velocity seem to imply. -/
noncomputable def apparentSpeed (r0 d0 pr pd px rv : ℝ) : ℝ := √((distance px * len (properMotion r0 d0 pr pd) / 365.25) ^ 2 + radial rv ^ 2)

/-- Light that left the star at `p` is seen at one epoch; light that left it at `p + T v` (T days later) is seen `days` later. -/
def SeenAfter (p v : Fin 3 → ℝ) (days T : ℝ) : Prop :=
  T + len (fun i => p i + T * v i) / lightSpeed = days + len p / lightSpeed

/-- What palPm reports of a star seen at `p` and moving with `v`. -/
def Reports (p v : Fin 3 → ℝ) (days : ℝ) (o : Option (ℝ × ℝ)) : Prop :=
  ∃ T, SeenAfter p v days T ∧ ((∀ i, p i + T * v i = 0) → o = none) ∧
    ((¬ ∀ i, p i + T * v i = 0) → ∃ r d, o = some (r, d) ∧ r ∈ Set.Ico 0 (2 * π) ∧ |d| ≤ π / 2 ∧ ∀ i, len (fun i => p i + T * v i) * dir r d i = p i + T * v i)

/-- The direction a result shows (zero if it is not set). -/
noncomputable def shown : Option (ℝ × ℝ) → Fin 3 → ℝ
  | some (r, d) => dir r d
  | none => fun _ => 0

end Pal.Spec
