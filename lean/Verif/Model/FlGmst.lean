import Verif.Model.FlAngle
import Verif.Model.Gmst

/-!
# Greenwich mean sidereal time in double precision

The operations of `eraEra00`, `eraGmst06`, `palGmst` and `palGmsta` (Model/Gmst.lean) with a rounding after each, in the order of the C code.  C `fmod` is exact.
-/

namespace Pal

/-- `eraEra00`, the Earth rotation angle (called by eraGmst06, /repo/palOne2One.c:1333). -/
noncomputable def flEra00 (fl : ℝ → ℝ) (dj1 dj2 : ℝ) : ℝ :=
  let d1 := if dj1 < dj2 then dj1 else dj2
  let d2 := if dj1 < dj2 then dj2 else dj1
  let t := fl (d1 + fl (d2 - 2451545))
  let f := fl (fmod d1 1 + fmod d2 1)
  flAnp fl (fl (flD2PI fl * fl (fl (f + fl 0.7790572732640) + fl (fl 0.00273781191135448 * t))))

/-- The precession in `eraGmst06`, arcseconds, by Horner's rule (called by /repo/palOne2One.c:1333). -/
noncomputable def flGmstPoly (fl : ℝ → ℝ) (t : ℝ) : ℝ :=
  fl (fl 0.014506 + fl (fl (fl 4612.156534 + fl (fl (fl 1.3915817 + fl (fl (fl (-0.00000044) + fl (fl (fl (-0.000029956) + fl (fl (-0.0000000368) * t)) * t)) * t)) * t)) * t))

/-- `eraGmst06`, called by /repo/palOne2One.c:1333 and 1376. -/
noncomputable def flGmst06 (fl : ℝ → ℝ) (uta utb tta ttb : ℝ) : ℝ :=
  let t := fl (fl (fl (tta - 2451545) + ttb) / 36525)
  flAnp fl (fl (flEra00 fl uta utb + fl (flGmstPoly fl t * flDAS2R fl)))

/-- `palGmst`, /repo/palOne2One.c:1332-1334. -/
noncomputable def flGmst (fl : ℝ → ℝ) (ut1 : ℝ) : ℝ := flGmst06 fl 2400000.5 ut1 2400000.5 ut1

/-- `palGmsta`, /repo/palOne2One.c:1374-1377. -/
noncomputable def flGmsta (fl : ℝ → ℝ) (date ut : ℝ) : ℝ :=
  let date := fl (date + 2400000.5)
  flGmst06 fl date ut date ut

end Pal
