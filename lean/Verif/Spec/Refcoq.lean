import Mathlib.Analysis.SpecialFunctions.Pow.Real

/-!
# Specification vocabulary: the quick refraction formulae (Gill 1982, Rueger 2002, Stone 1996, Green 1985)
-/

namespace Pal.Spec
open Real

/-- Saturation pressure of water vapour (mbar) at `T` kelvin in air of `p` mbar (Gill). -/
noncomputable def saturation (T p : ℝ) : ℝ :=
  (10 : ℝ) ^ ((0.7859 + 0.03477 * (T - 273.15)) / (1 + 0.00412 * (T - 273.15))) * (1 + p * (4.5 / 10 ^ 6 + 6 / 10 ^ 10 * (T - 273.15) ^ 2))

/-- Pressure of water vapour at relative humidity `r`. -/
noncomputable def vapour (T p r : ℝ) : ℝ := r * p * saturation T p / (p - (1 - r) * saturation T p)

/-- Refractive index minus one of dry air at a pressure of one mbar and a temperature of one kelvin, for light of `wl` micrometres. -/
noncomputable def dryLight (wl : ℝ) : ℝ := (77.53484 + 0.439108 / wl ^ 2 + 0.003666 / wl ^ 4) / 10 ^ 6

/-- Refractive index minus one for light. -/
noncomputable def refractivityLight (T p pw wl : ℝ) : ℝ := (dryLight wl * p - 11.2684 / 10 ^ 6 * pw) / T

/-- Refractive index minus one for radio waves. -/
noncomputable def refractivityRadio (T p pw : ℝ) : ℝ := 77.6890 / 10 ^ 6 * p / T - 6.3938 / 10 ^ 6 * pw / T + 0.375463 * pw / T ^ 2

/-- Green's formulae for the two refraction constants, from the refractive index minus one and the relative height of the equivalent homogeneous atmosphere. -/
noncomputable def greenA (gamma beta : ℝ) : ℝ := gamma * (1 - beta)
noncomputable def greenB (gamma beta : ℝ) : ℝ := -(gamma * (beta - gamma / 2))

end Pal.Spec
