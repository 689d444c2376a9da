import Verif.Model.FlSphere
import Verif.Model.Coord
import Verif.Model.Calendar

/-!
# Air mass, velocity components and ΔT in double precision

The operations of Model/Coord.lean and Model/Calendar.lean with a rounding after each, in the order of the C code.
-/

namespace Pal

/-- `palRverot`, /repo/palRverot.c:85-91: the products are taken from left to right. -/
noncomputable def flRverot (fl : ℝ → ℝ) (L : Libm) (phi ra da st : ℝ) : ℝ :=
  fl (fl (fl (fl 0.4655 * L.cos phi) * L.sin (fl (st - ra))) * L.cos da)

/-- `palRvgalc`, /repo/palRvgalc.c:85-111, with the vector as it is stored. -/
noncomputable def flRvgalc (fl : ℝ → ℝ) (L : Libm) (r2000 d2000 : ℝ) : ℝ :=
  flPdp fl ![fl (-108.70408), fl 97.86251, fl (-164.33610)] (flS2c fl L r2000 d2000)

/-- `palRvlg`, /repo/palRvlg.c:78-106, with the vector as it is stored. -/
noncomputable def flRvlg (fl : ℝ → ℝ) (L : Libm) (r2000 d2000 : ℝ) : ℝ :=
  flPdp fl ![fl (-148.23284), fl 133.44888, fl (-224.09467)] (flS2c fl L r2000 d2000)

/-- `palRvlsrd`, /repo/palRvlsrd.c:90-116, with the vector as it is stored. -/
noncomputable def flRvlsrd (fl : ℝ → ℝ) (L : Libm) (r2000 d2000 : ℝ) : ℝ :=
  flPdp fl ![fl 0.63823, fl 14.58542, fl (-7.80116)] (flS2c fl L r2000 d2000)

/-- `palRvlsrk`, /repo/palRvlsrk.c:90-116, with the vector as it is stored. -/
noncomputable def flRvlsrk (fl : ℝ → ℝ) (L : Libm) (r2000 d2000 : ℝ) : ℝ :=
  flPdp fl ![fl (-0.29000), fl 17.31726, fl (-10.00141)] (flS2c fl L r2000 d2000)

/-- PAL__DD2R as stored, /repo/palmac.h:72. -/
noncomputable def flDd2r (fl : ℝ → ℝ) : ℝ := fl 0.017453292519943295769236907684886127134428718885417

/-- `palAirmas`, /repo/palAirmas.c:86-99. -/
noncomputable def flAirmas (fl : ℝ → ℝ) (L : Libm) (zd : ℝ) : ℝ :=
  let maxzd := fl (87 * flDd2r fl)
  let zd := |zd|
  let zd := if zd > maxzd then maxzd else zd
  let seczm1 := fl (fl (1 / L.cos zd) - 1)
  fl (1 + fl (seczm1 * fl (fl 0.9981833 - fl (seczm1 * fl (fl 0.002875 + fl (fl 0.0008083 * seczm1))))))

/-- `palDt`, /repo/palDt.c:97-125, with the boundaries and coefficients as they are stored. -/
noncomputable def flDt (fl : ℝ → ℝ) (epoch : ℝ) : ℝ :=
  let t := fl (fl (epoch - 1800) / 100)
  if epoch ≥ fl 1708.185161980887 then
    let w := fl (t - fl 0.19)
    fl (fl 5.156 + fl (fl (fl 13.3066 * w) * w))
  else if epoch ≥ fl 979.0258204760233 then
    fl (fl (fl 25.5 * t) * t)
  else
    fl (1360 + fl (fl (320 + fl (fl 44.3 * t)) * t))

end Pal
