import Verif.Model.Coord

/-!
# FK5 and Hipparcos: palFk5hz and palHfk5z

Wrappers of `eraFk5hz` and `eraHfk5z`, modelled from ERFA's published definition.
-/

namespace Pal
open Real

/-- `eraFk5hip`: the FK5 to Hipparcos orientation, as a rotation vector (called by eraFk5hz and eraHfk5z, /repo/palOne2One.c:1294 and 1424). -/
noncomputable def fk5hipEp : Vec3 := ![-19.9e-3 * das2r, -9.1e-3 * das2r, 22.9e-3 * das2r]

/-- `eraFk5hip`: the spin of the FK5 frame with respect to Hipparcos, per Julian year (as above) (/repo/palOne2One.c:1294 and 1424). -/
noncomputable def fk5hipOm : Vec3 := ![-0.30e-3 * das2r, 0.60e-3 * das2r, 0.70e-3 * das2r]

/-- `eraEpj2jd` (real version), /repo/palOne2One.c:1293 and 1423. -/
noncomputable def eraEpj2jdR (epj : ℝ) : ℝ × ℝ := (2400000.5, 51544.5 + (epj - 2000) * 365.25)

/-- `eraFk5hz`, called by /repo/palOne2One.c:1294. -/
noncomputable def eraFk5hz (r5 d5 date1 date2 : ℝ) : ℝ × ℝ :=
  let t := -((date1 - 2451545) + date2) / 365.25
  let p5e := eraS2c r5 d5
  let r5h := eraRv2m fk5hipEp
  let vst : Vec3 := fun i => t * fk5hipOm i
  let rst := eraRv2m vst
  let p5 := eraTrxp rst p5e
  let ph := eraRxp r5h p5
  (eraAnp (eraC2s ph).1, (eraC2s ph).2)

/-- What `eraPv2s` returns of position and velocity direction: longitude, latitude and their rates (called by eraHfk5z and eraPvstar, /repo/palOne2One.c:1424 and /repo/palPm.c:103). -/
noncomputable def eraPv2s (p v : Vec3) : (ℝ × ℝ) × (ℝ × ℝ) :=
  let rtrue := √(p 0 * p 0 + p 1 * p 1 + p 2 * p 2)
  let x := if rtrue = 0 then v 0 else p 0
  let y := if rtrue = 0 then v 1 else p 1
  let z := if rtrue = 0 then v 2 else p 2
  let rxy2 := x * x + y * y
  let r2 := rxy2 + z * z
  let rxy := √rxy2
  let xyp := x * v 0 + y * v 1
  if rxy2 ≠ 0 then
    ((atan2 y x, atan2 z rxy), ((x * v 1 - y * v 0) / rxy2, (v 2 * rxy2 - z * xyp) / (r2 * rxy)))
  else ((0, if z ≠ 0 then atan2 z rxy else 0), (0, 0))

/-- `eraHfk5z`, called by /repo/palOne2One.c:1424. -/
noncomputable def eraHfk5z (rh dh date1 date2 : ℝ) : (ℝ × ℝ) × (ℝ × ℝ) :=
  let t := ((date1 - 2451545) + date2) / 365.25
  let ph := eraS2c rh dh
  let r5h := eraRv2m fk5hipEp
  let sh := eraRxp r5h fk5hipOm
  let vst : Vec3 := fun i => t * fk5hipOm i
  let rst := eraRv2m vst
  let r5ht := eraRxr r5h rst
  let p5e := eraTrxp r5ht ph
  let vv := eraPxp sh ph
  let v5e := eraTrxp r5ht vv
  let s := eraPv2s p5e v5e
  ((eraAnp s.1.1, s.1.2), s.2)

/-- `palFk5hz`, /repo/palOne2One.c:1289-1295. -/
noncomputable def palFk5hz (r5 d5 epoch : ℝ) : ℝ × ℝ :=
  eraFk5hz r5 d5 (eraEpj2jdR epoch).1 (eraEpj2jdR epoch).2

/-- `palHfk5z`, /repo/palOne2One.c:1419-1425: (r5, d5) and (dr5, dd5). -/
noncomputable def palHfk5z (rh dh epoch : ℝ) : (ℝ × ℝ) × (ℝ × ℝ) :=
  eraHfk5z rh dh (eraEpj2jdR epoch).1 (eraEpj2jdR epoch).2

end Pal
