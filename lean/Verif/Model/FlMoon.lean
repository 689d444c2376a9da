import Verif.Model.Moon
import Verif.Model.FlSmall
import Verif.Model.FlSphere
import Verif.Model.FlSexa

/-!
# palDmoon in double precision

Every operation of /repo/palDmoon.c is followed by a rounding; `fmod` is exact; multiplication and addition are not fused.
-/

namespace Pal

/-- A cubic in degrees reduced by `fmod` and converted to radians, /repo/palDmoon.c:380, 384, 388, 392, 396, 400; the coefficients are stored as doubles. -/
noncomputable def flMoonArg (fl : ℝ → ℝ) (a0 a1 a2 a3 t : ℝ) : ℝ :=
  fl (flDd2r fl * fmod (fl (fl a0 + fl (fl (fl a1 + fl (fl (fl a2 + fl (fl a3 * t)) * t)) * t))) 360)

/-- Its derivative, /repo/palDmoon.c:381, 385, 389, 393, 397, 401. -/
noncomputable def flMoonArgD (fl : ℝ → ℝ) (a1 a2 a3 t : ℝ) : ℝ :=
  fl (flDd2r fl * fl (fl a1 + fl (fl (fl (2 * fl a2) + fl (fl (3 * fl a3) * t)) * t)))

/-- Fundamental arguments with their periodic variations, E factor, and derivatives, /repo/palDmoon.c:379-432 (coefficients 125-184). -/
noncomputable def flMoonArgs (fl : ℝ → ℝ) (L : Libm) (t : ℝ) : MoonArgs :=
  let elp := flMoonArg fl 270.434164 481267.8831 (-0.001133) 0.0000019 t
  let delp := flMoonArgD fl 481267.8831 (-0.001133) 0.0000019 t
  let em := flMoonArg fl 358.475833 35999.0498 (-0.000150) (-0.0000033) t
  let dem := flMoonArgD fl 35999.0498 (-0.000150) (-0.0000033) t
  let emp := flMoonArg fl 296.104608 477198.8491 0.009192 0.0000144 t
  let demp := flMoonArgD fl 477198.8491 0.009192 0.0000144 t
  let d := flMoonArg fl 350.737486 445267.1142 (-0.001436) 0.0000019 t
  let dd := flMoonArgD fl 445267.1142 (-0.001436) 0.0000019 t
  let f := flMoonArg fl 11.250889 483202.0251 (-0.003211) (-0.0000003) t
  let df := flMoonArgD fl 483202.0251 (-0.003211) (-0.0000003) t
  let om := flMoonArg fl 259.183275 (-1934.1420) 0.002078 0.0000022 t
  let dom := flMoonArgD fl (-1934.1420) 0.002078 0.0000022 t
  let sinom := L.sin om
  let cosom := L.cos om
  let domcom := fl (dom * cosom)
  let theta := fl (flDd2r fl * fl (fl 51.2 + fl (fl 20.2 * t)))
  let wa := L.sin theta
  let dwa := fl (fl (flDd2r fl * fl 20.2) * L.cos theta)
  let theta := fl (flDd2r fl * fl (fl 346.560 + fl (fl (fl 132.870 + fl (fl (-0.0091731) * t)) * t)))
  let wb := fl (fl 0.003964 * L.sin theta)
  let dwb := fl (fl (fl (flDd2r fl * fl 0.003964) * fl (fl 132.870 + fl (fl (2 * fl (-0.0091731)) * t))) * L.cos theta)
  let elp := fl (elp + fl (flDd2r fl * fl (fl (fl (fl 0.000233 * wa) + wb) + fl (fl 0.001964 * sinom))))
  let delp := fl (delp + fl (flDd2r fl * fl (fl (fl (fl 0.000233 * dwa) + dwb) + fl (fl 0.001964 * domcom))))
  let em := fl (em + fl (fl (flDd2r fl * fl (-0.001778)) * wa))
  let dem := fl (dem + fl (fl (flDd2r fl * fl (-0.001778)) * dwa))
  let emp := fl (emp + fl (flDd2r fl * fl (fl (fl (fl 0.000817 * wa) + wb) + fl (fl 0.002541 * sinom))))
  let demp := fl (demp + fl (flDd2r fl * fl (fl (fl (fl 0.000817 * dwa) + dwb) + fl (fl 0.002541 * domcom))))
  let d := fl (d + fl (flDd2r fl * fl (fl (fl (fl 0.002011 * wa) + wb) + fl (fl 0.001964 * sinom))))
  let dd := fl (dd + fl (flDd2r fl * fl (fl (fl (fl 0.002011 * dwa) + dwb) + fl (fl 0.001964 * domcom))))
  let wom := fl (om + fl (flDd2r fl * fl (fl 275.05 + fl (fl (-2.30) * t))))
  let dwom := fl (dom + fl (flDd2r fl * fl (-2.30)))
  let sinwom := L.sin wom
  let coswom := L.cos wom
  let f := fl (f + fl (flDd2r fl * fl (fl (wb + fl (fl (-0.024691) * sinom)) + fl (fl (-0.004328) * sinwom))))
  let df := fl (df + fl (flDd2r fl * fl (fl (dwb + fl (fl (-0.024691) * domcom)) + fl (fl (fl (-0.004328) * dwom) * coswom))))
  let e := fl (1 + fl (fl (fl (-0.002495) + fl (fl (-0.00000752) * t)) * t))
  let de := fl (fl (-0.002495) + fl (fl (2 * fl (-0.00000752)) * t))
  ⟨elp, delp, em, dem, emp, demp, d, dd, f, df, om, dom, wom, dwom, e, de⟩

/-- The argument of a term and its derivative, /repo/palDmoon.c:458-459, 487-488, 518-519. -/
noncomputable def flMoonTheta (fl : ℝ → ℝ) (a : MoonArgs) (m m' d f : ℤ) : ℝ × ℝ :=
  (fl (fl (fl (fl (m * a.em) + fl (m' * a.emp)) + fl (d * a.d)) + fl (f * a.f)), fl (fl (fl (fl (m * a.dem) + fl (m' * a.demp)) + fl (d * a.dd)) + fl (f * a.df)))

/-- The power of E and its derivative, /repo/palDmoon.c:448-457, 477-486, 508-517 (`ESQ` and `DESQ` from 431-432). -/
noncomputable def flMoonE (fl : ℝ → ℝ) (a : MoonArgs) (i : ℕ) : ℝ × ℝ :=
  if i = 0 then (1, 0) else if i = 1 then (a.e, a.de) else (fl (a.e * a.e), fl (fl (2 * a.e) * a.de))

/-- The loops for longitude and latitude, /repo/palDmoon.c:439-463 and 468-492: from the last term to the first, the sum and its derivative. -/
noncomputable def flMoonSin (fl : ℝ → ℝ) (L : Libm) (a : MoonArgs) : List (ℝ × ℤ × ℤ × ℤ × ℤ × ℕ) → ℝ × ℝ
  | [] => (0, 0)
  | (coeff, m, m', d, f, i) :: rest =>
    let s := flMoonSin fl L a rest
    let en := flMoonE fl a i
    let th := flMoonTheta fl a m m' d f
    let ft := L.sin th.1
    (fl (s.1 + fl (fl (fl coeff * ft) * en.1)), fl (s.2 + fl (fl coeff * fl (fl (fl (L.cos th.1 * th.2) * en.1) + fl (ft * en.2)))))

/-- The loop for the parallax, /repo/palDmoon.c:499-523: cosines. -/
noncomputable def flMoonCos (fl : ℝ → ℝ) (L : Libm) (a : MoonArgs) : List (ℝ × ℤ × ℤ × ℤ × ℤ × ℕ) → ℝ × ℝ
  | [] => (0, 0)
  | (coeff, m, m', d, f, i) :: rest =>
    let s := flMoonCos fl L a rest
    let en := flMoonE fl a i
    let th := flMoonTheta fl a m m' d f
    let ft := L.cos th.1
    (fl (s.1 + fl (fl (fl coeff * ft) * en.1)), fl (s.2 + fl (fl coeff * fl (fl (fl (-L.sin th.1 * th.2) * en.1) + fl (ft * en.2)))))

/-- Ecliptic position (AU) and velocity (AU per second), /repo/palDmoon.c:438-549. -/
noncomputable def flMoonEcl (fl : ℝ → ℝ) (L : Libm) (a : MoonArgs) : PV :=
  let cj := 3155760000
  let eradau := fl 4.2635212653763e-5
  let s := flMoonSin fl L a moonTL
  let el := fl (a.elp + fl (flDd2r fl * s.1))
  let del := fl (fl (a.delp + fl (flDd2r fl * s.2)) / cj)
  let s := flMoonSin fl L a moonTB
  let bf := fl (fl (1 - fl (fl 0.0004664 * L.cos a.om)) - fl (fl 0.0000754 * L.cos a.wom))
  let dbf := fl (fl (fl (fl 0.0004664 * a.dom) * L.sin a.om) + fl (fl (fl 0.0000754 * a.dwom) * L.sin a.wom))
  let b := fl (fl (flDd2r fl * s.1) * bf)
  let db := fl (fl (flDd2r fl * fl (fl (s.2 * bf) + fl (s.1 * dbf))) / cj)
  let s := flMoonCos fl L a moonTP
  let p := fl (flDd2r fl * s.1)
  let dp := fl (fl (flDd2r fl * s.2) / cj)
  let sp := L.sin p
  let r := fl (eradau / sp)
  let dr := fl (fl (fl (-r * dp) * L.cos p) / sp)
  let sel := L.sin el
  let cel := L.cos el
  let sb := L.sin b
  let cb := L.cos b
  let rcb := fl (r * cb)
  let rbd := fl (r * db)
  let w := fl (fl (rbd * sb) - fl (cb * dr))
  let x := fl (rcb * cel)
  let y := fl (rcb * sel)
  let z := fl (r * sb)
  ⟨![x, y, z], ![fl (fl (-y * del) - fl (w * cel)), fl (fl (x * del) - fl (w * sel)), fl (fl (rbd * cb) + fl (sb * dr))]⟩

/-- `palDmoon`, /repo/palDmoon.c:95-573, in double precision: the ecliptic position and velocity followed by the equinox correction and the obliquity (551-571). -/
noncomputable def flDmoon (fl : ℝ → ℝ) (L : Libm) (date : ℝ) : PV :=
  let q := flMoonEcl fl L (flMoonArgs fl L (fl (fl (date - 15019.5) / 36525)))
  let t := fl (fl (date - 51544.5) / 36525)
  let epj := fl (2000 + fl (t * 100))
  let eqcor := fl (flDS2R fl * fl (fl 0.035 + fl (fl 0.00085 * fl (epj - fl 1949.9997904423))))
  let eps := fl (fl 4.8481368110953599358991410235794797595635330237270e-6 * fl (fl 84381.448 + fl (fl (-fl 46.8150 + fl (fl (-fl 0.00059 + fl (fl 0.001813 * t)) * t)) * t)))
  let sineps := L.sin eps
  let coseps := L.cos eps
  let es := fl (eqcor * sineps)
  let ec := fl (eqcor * coseps)
  ⟨![fl (fl (q.p 0 - fl (ec * q.p 1)) + fl (es * q.p 2)), fl (fl (fl (eqcor * q.p 0) + fl (q.p 1 * coseps)) - fl (q.p 2 * sineps)), fl (fl (q.p 1 * sineps) + fl (q.p 2 * coseps))],
   ![fl (fl (q.v 0 - fl (ec * q.v 1)) + fl (es * q.v 2)), fl (fl (fl (eqcor * q.v 0) + fl (q.v 1 * coseps)) - fl (q.v 2 * sineps)), fl (fl (q.v 1 * sineps) + fl (q.v 2 * coseps))]⟩

end Pal
