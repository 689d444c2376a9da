import Verif.Model.Gmst
import Verif.Spec.Nutc

/-!
# Greenwich mean sidereal time (IAU 2000/2006)
-/

namespace Pal.Spec
open Real

/-- Greenwich mean sidereal time in arcseconds of rotation, before reduction to one turn, from the Earth rotation angle and the accumulated precession (IAU 2006), `d` UT1 days after J2000. -/
noncomputable def gmstArcsec (d : ℝ) : ℝ :=
  1296000 * (0.7790572732640 + 1.00273781191135448 * d) +
    (0.014506 + 4612.156534 * (d / 36525) + 1.3915817 * (d / 36525) ^ 2 - 0.00000044 * (d / 36525) ^ 3 - 0.000029956 * (d / 36525) ^ 4 - 0.0000000368 * (d / 36525) ^ 5)

end Pal.Spec
