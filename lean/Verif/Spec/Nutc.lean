import Verif.Model.Nutc

/-!
# The textbook nutation and equation of the equinoxes

The low-precision formulas of the Astronomical Almanac and of Meeus (Astronomical Algorithms, chapter 22), written independently of the 194-term series.
`T` is in Julian centuries from J2000 and angles are in radians unless stated.
-/

namespace Pal.Spec
open Real

/-- Julian centuries from J2000 of a Modified Julian Date. -/
noncomputable def centuries (date : ℝ) : ℝ := (date - 51544.5) / 36525

/-- The longitude of the Moon's ascending node. -/
noncomputable def nodeLongitude (T : ℝ) : ℝ := (125.04452 - 1934.136261 * T) * (π / 180)

/-- The mean longitude of the Sun. -/
noncomputable def sunLongitude (T : ℝ) : ℝ := (280.4665 + 36000.7698 * T) * (π / 180)

/-- The mean longitude of the Moon. -/
noncomputable def moonLongitude (T : ℝ) : ℝ := (218.3165 + 481267.8813 * T) * (π / 180)

/-- Nutation in longitude, in arcseconds. -/
noncomputable def nutationLongitude (T : ℝ) : ℝ :=
  -17.20 * sin (nodeLongitude T) - 1.32 * sin (2 * sunLongitude T) - 0.23 * sin (2 * moonLongitude T) + 0.21 * sin (2 * nodeLongitude T)

/-- Nutation in obliquity, in arcseconds. -/
noncomputable def nutationObliquity (T : ℝ) : ℝ :=
  9.20 * cos (nodeLongitude T) + 0.57 * cos (2 * sunLongitude T) + 0.10 * cos (2 * moonLongitude T) - 0.09 * cos (2 * nodeLongitude T)

/-- The mean obliquity of the ecliptic: 23°26′21.448″ − 46.8150″ T. -/
noncomputable def meanObliquity (T : ℝ) : ℝ := (84381.448 - 46.8150 * T) / 3600 * (π / 180)

/-- The equation of the equinoxes, in arcseconds. -/
noncomputable def equationOfEquinoxes (T : ℝ) : ℝ := nutationLongitude T * cos (meanObliquity T)

/-- One arcsecond. -/
noncomputable def arcsec : ℝ := π / 648000

end Pal.Spec
