import Verif.Model.Nutc

/-!
# Greenwich mean sidereal time: palGmst and palGmsta

Wrappers of `eraGmst06`, modelled from ERFA's published definition.
-/

namespace Pal
open Real

/-- `eraEra00`, the Earth rotation angle (called by eraGmst06, /repo/palOne2One.c:1333). -/
noncomputable def eraEra00 (dj1 dj2 : ℝ) : ℝ :=
  let d1 := if dj1 < dj2 then dj1 else dj2
  let d2 := if dj1 < dj2 then dj2 else dj1
  let t := d1 + (d2 - 2451545)
  let f := fmod d1 1 + fmod d2 1
  eraAnp (2 * π * (f + 0.7790572732640 + 0.00273781191135448 * t))

/-- `eraGmst06`, called by /repo/palOne2One.c:1333 and 1376. -/
noncomputable def eraGmst06 (uta utb tta ttb : ℝ) : ℝ :=
  let t := ((tta - 2451545) + ttb) / 36525
  eraAnp (eraEra00 uta utb + (0.014506 + (4612.156534 + (1.3915817 + (-0.00000044 + (-0.000029956 + (-0.0000000368) * t) * t) * t) * t) * t) * das2r)

/-- `palGmst`, /repo/palOne2One.c:1332-1334. -/
noncomputable def palGmst (ut1 : ℝ) : ℝ := eraGmst06 2400000.5 ut1 2400000.5 ut1

/-- `palGmsta`, /repo/palOne2One.c:1374-1377. -/
noncomputable def palGmsta (date ut : ℝ) : ℝ :=
  let date := date + 2400000.5
  eraGmst06 date ut date ut

end Pal
