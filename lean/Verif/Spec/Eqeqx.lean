import Verif.Spec.Nutc

/-!
# The equation of the equinoxes
-/

namespace Pal.Spec
open Real

/-- The mean obliquity of the ecliptic of the IAU 2006 precession in arcseconds, `t` Julian centuries after J2000. -/
noncomputable def obliquity06 (t : ℝ) : ℝ :=
  84381.406 - 46.836769 * t - 0.0001831 * t ^ 2 + 0.00200340 * t ^ 3 - 0.000000576 * t ^ 4 - 0.0000000434 * t ^ 5

/-- The equation of the equinoxes (radians): the nutation in longitude `dpsi` (radians) projected on the equator, plus the complementary terms, `ct` arcseconds. -/
noncomputable def eqEquinoxes (t dpsi ct : ℝ) : ℝ := dpsi * cos (obliquity06 t * arcsec) + ct * arcsec

end Pal.Spec
