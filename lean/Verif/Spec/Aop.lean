import Verif.Spec.Sphere

/-!
# Specification vocabulary for observed places
-/

namespace Pal.Spec

/-- A unit vector v (in the frame of hour angle and declination) seen from latitude phi has azimuth az (from north through east) and zenith distance zd. -/
def Horizon (phi : ℝ) (v : Fin 3 → ℝ) (az zd : ℝ) : Prop :=
  dot v (northAxis phi) = Real.sin zd * Real.cos az ∧ dot v eastAxis = Real.sin zd * Real.sin az ∧ dot v (zenithAxis phi) = Real.cos zd

/-- The direction in which a source at hour angle ha and declination dec appears to an observer moving eastwards with speed d (in units of the speed of light),
before normalisation. -/
noncomputable def moving (d ha dec : ℝ) : Fin 3 → ℝ := fun i => dir ha dec i + d * eastAxis i

/-- The same vector scaled to length one. -/
noncomputable def unit (w : Fin 3 → ℝ) : Fin 3 → ℝ := fun i => w i / len w

end Pal.Spec
