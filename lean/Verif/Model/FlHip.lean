import Verif.Model.FlRot
import Verif.Model.FlSexa
import Verif.Model.FlEpoch
import Verif.Model.Hip

/-!
# FK5 and Hipparcos in double precision
-/

namespace Pal

/-- `eraFk5hip`: the orientation as stored (called by eraFk5hz and eraHfk5z, /repo/palOne2One.c:1294 and 1424). -/
noncomputable def flHipEp (fl : ℝ → ℝ) : Vec3 := ![fl (-fl 19.9e-3 * flDAS2R fl), fl (-fl 9.1e-3 * flDAS2R fl), fl (fl 22.9e-3 * flDAS2R fl)]

/-- `eraFk5hip`: the spin as stored (as above) (/repo/palOne2One.c:1294 and 1424). -/
noncomputable def flHipOm (fl : ℝ → ℝ) : Vec3 := ![fl (-fl 0.30e-3 * flDAS2R fl), fl (fl 0.60e-3 * flDAS2R fl), fl (fl 0.70e-3 * flDAS2R fl)]

/-- Days since J2000 of a Julian epoch, as eraFk5hz and eraHfk5z form them from the two parts that eraEpj2jd returns, /repo/palOne2One.c:1293-1294 and 1423-1424. -/
noncomputable def flHipDays (fl : ℝ → ℝ) (epoch : ℝ) : ℝ := fl (fl (2400000.5 - 2451545) + flEpj2d fl epoch)

/-- `palFk5hz`, /repo/palOne2One.c:1289-1295 (eraFk5hz). -/
noncomputable def flFk5hz (fl : ℝ → ℝ) (L : Libm) (nz : Bool) (r5 d5 epoch : ℝ) : ℝ × ℝ :=
  let t := fl (-flHipDays fl epoch / 365.25)
  let p5e := flS2c fl L r5 d5
  let r5h := flRv2m fl L (flHipEp fl)
  let vst : Vec3 := fun i => fl (t * flHipOm fl i)
  let rst := flRv2m fl L vst
  let p5 := flTrxp fl rst p5e
  let ph := flRxp fl r5h p5
  let s := flC2s fl L nz ph
  (flAnp fl s.1, s.2)

/-- What `eraPv2s` returns of position and velocity direction (called by eraHfk5z, /repo/palOne2One.c:1424); `nz`: the y component is the negative zero if it is zero. -/
noncomputable def flPv2s (fl : ℝ → ℝ) (L : Libm) (nz : Bool) (p v : Vec3) : (ℝ × ℝ) × (ℝ × ℝ) :=
  let rxy2 := fl (fl (p 0 * p 0) + fl (p 1 * p 1))
  let r2 := fl (rxy2 + fl (p 2 * p 2))
  let rtrue := fl (√r2)
  let q : Vec3 := if rtrue = 0 then v else p
  let rxy2 := if rtrue = 0 then fl (fl (q 0 * q 0) + fl (q 1 * q 1)) else rxy2
  let r2 := if rtrue = 0 then fl (rxy2 + fl (q 2 * q 2)) else r2
  let rxy := fl (√rxy2)
  let xyp := fl (fl (q 0 * v 0) + fl (q 1 * v 1))
  if rxy2 ≠ 0 then
    ((flAtan2 L nz (q 1) (q 0), L.atan2 (q 2) rxy),
     (fl (fl (fl (q 0 * v 1) - fl (q 1 * v 0)) / rxy2), fl (fl (fl (v 2 * rxy2) - fl (q 2 * xyp)) / fl (r2 * rxy))))
  else ((0, if q 2 ≠ 0 then L.atan2 (q 2) rxy else 0), (0, 0))

/-- Position and velocity that eraHfk5z forms, /repo/palOne2One.c:1424. -/
noncomputable def flHfk5zPv (fl : ℝ → ℝ) (L : Libm) (rh dh epoch : ℝ) : Vec3 × Vec3 :=
  let t := fl (flHipDays fl epoch / 365.25)
  let ph := flS2c fl L rh dh
  let r5h := flRv2m fl L (flHipEp fl)
  let sh := flRxp fl r5h (flHipOm fl)
  let vst : Vec3 := fun i => fl (t * flHipOm fl i)
  let rst := flRv2m fl L vst
  let r5ht := flRxr fl r5h rst
  (flTrxp fl r5ht ph, flTrxp fl r5ht (flPxp fl sh ph))

/-- `palHfk5z`, /repo/palOne2One.c:1419-1425 (eraHfk5z): (r5, d5) and (dr5, dd5). -/
noncomputable def flHfk5z (fl : ℝ → ℝ) (L : Libm) (nz : Bool) (rh dh epoch : ℝ) : (ℝ × ℝ) × (ℝ × ℝ) :=
  let pv := flHfk5zPv fl L rh dh epoch
  let s := flPv2s fl L nz pv.1 pv.2
  ((flAnp fl s.1.1, s.1.2), s.2)

end Pal
