import Verif.Model.Aop
import Verif.Model.Orbit

/-!
# The Moon: palDmoon

Models /repo/palDmoon.c over the reals.  The C keeps every quantity together with its time derivative; the model keeps both members too.
-/

namespace Pal
open Real

/-- PAL__DD2R, degrees to radians, /repo/palmac.h:72. -/
noncomputable def dd2r : ℝ := π / 180

/-- The terms of the longitude series, /repo/palDmoon.c:199-261 (`TL` and `ITL`): coefficient in degrees, multiples of M, M', D, F, and power of E. -/
noncomputable def moonTL : List (ℝ × ℤ × ℤ × ℤ × ℤ × ℕ) := [
    (6.28875, 0, 1, 0, 0, 0), (1.274018, 0, -1, 2, 0, 0), (0.658309, 0, 0, 2, 0, 0), (0.213616, 0, 2, 0, 0, 0), (-0.185596, 1, 0, 0, 0, 1),
    (-0.114336, 0, 0, 0, 2, 0), (0.058793, 0, -2, 2, 0, 0), (0.057212, -1, -1, 2, 0, 1), (0.05332, 0, 1, 2, 0, 0), (0.045874, -1, 0, 2, 0, 1),
    (0.041024, -1, 1, 0, 0, 1), (-0.034718, 0, 0, 1, 0, 0), (-0.030465, 1, 1, 0, 0, 1), (0.015326, 0, 0, 2, -2, 0), (-0.012528, 0, 1, 0, 2, 0),
    (-0.01098, 0, -1, 0, 2, 0), (0.010674, 0, -1, 4, 0, 0), (0.010034, 0, 3, 0, 0, 0), (0.008548, 0, -2, 4, 0, 0), (-0.00791, 1, -1, 2, 0, 1),
    (-0.006783, 1, 0, 2, 0, 1), (0.005162, 0, 1, -1, 0, 0), (0.005, 1, 0, 1, 0, 1), (0.004049, -1, 1, 2, 0, 1), (0.003996, 0, 2, 2, 0, 0),
    (0.003862, 0, 0, 4, 0, 0), (0.003665, 0, -3, 2, 0, 0), (0.002695, -1, 2, 0, 0, 1), (0.002602, 0, 1, -2, -2, 0), (0.002396, -1, -2, 2, 0, 1),
    (-0.002349, 0, 1, 1, 0, 0), (0.002249, -2, 0, 2, 0, 2), (-0.002125, 1, 2, 0, 0, 1), (-0.002079, 2, 0, 0, 0, 2), (0.002059, -2, -1, 2, 0, 2),
    (-0.001773, 0, 1, 2, -2, 0), (-0.001595, 0, 0, 2, 2, 0), (0.00122, -1, -1, 4, 0, 1), (-0.00111, 0, 2, 0, 2, 0), (0.000892, 0, 1, -3, 0, 0),
    (-0.000811, 1, 1, 2, 0, 1), (0.000761, -1, -2, 4, 0, 1), (0.000717, -2, 1, 0, 0, 2), (0.000704, -2, 1, -2, 0, 2), (0.000693, 1, -2, 2, 0, 1),
    (0.000598, -1, 0, 2, -2, 1), (0.00055, 0, 1, 4, 0, 0), (0.000538, 0, 4, 0, 0, 0), (0.000521, -1, 0, 4, 0, 1), (0.000486, 0, 2, -1, 0, 0)]

/-- The terms of the latitude series, /repo/palDmoon.c:266-323 (`TB` and `ITB`): coefficient in degrees, multiples of M, M', D, F, and power of E. -/
noncomputable def moonTB : List (ℝ × ℤ × ℤ × ℤ × ℤ × ℕ) := [
    (5.128189, 0, 0, 0, 1, 0), (0.280606, 0, 1, 0, 1, 0), (0.277693, 0, 1, 0, -1, 0), (0.173238, 0, 0, 2, -1, 0), (0.055413, 0, -1, 2, 1, 0),
    (0.046272, 0, -1, 2, -1, 0), (0.032573, 0, 0, 2, 1, 0), (0.017198, 0, 2, 0, 1, 0), (0.009267, 0, 1, 2, -1, 0), (0.008823, 0, 2, 0, -1, 0),
    (0.008247, -1, 0, 2, -1, 1), (0.004323, 0, -2, 2, -1, 0), (0.0042, 0, 1, 2, 1, 0), (0.003372, -1, 0, -2, 1, 1), (0.002472, -1, -1, 2, 1, 1),
    (0.002222, -1, 0, 2, 1, 1), (0.002072, -1, -1, 2, -1, 1), (0.001877, -1, 1, 0, 1, 1), (0.001828, 0, -1, 4, -1, 0), (-0.001803, 1, 0, 0, 1, 1),
    (-0.00175, 0, 0, 0, 3, 0), (0.00157, -1, 1, 0, -1, 1), (-0.001487, 0, 0, 1, 1, 0), (-0.001481, 1, 1, 0, 1, 1), (0.001417, -1, -1, 0, 1, 1),
    (0.00135, -1, 0, 0, 1, 1), (0.00133, 0, 0, -1, 1, 0), (0.001106, 0, 3, 0, 1, 0), (0.00102, 0, 0, 4, -1, 0), (0.000833, 0, -1, 4, 1, 0),
    (0.000781, 0, 1, 0, -3, 0), (0.00067, 0, -2, 4, 1, 0), (0.000606, 0, 0, 2, -3, 0), (0.000597, 0, 2, 2, -1, 0), (0.000492, -1, 1, 2, -1, 1),
    (0.00045, 0, 2, -2, -1, 0), (0.000439, 0, 3, 0, -1, 0), (0.000423, 0, 2, 2, 1, 0), (0.000422, 0, -3, 2, -1, 0), (-0.000367, 1, -1, 2, 1, 1),
    (-0.000353, 1, 0, 2, 1, 1), (0.000331, 0, 0, 4, 1, 0), (0.000317, -1, 1, 2, 1, 1), (0.000306, -2, 0, 2, -1, 2), (-0.000283, 0, 1, 0, 3, 0)]

/-- The terms of the parallax series, /repo/palDmoon.c:328-369 (`TP` and `ITP`): coefficient in degrees, multiples of M, M', D, F, and power of E. -/
noncomputable def moonTP : List (ℝ × ℤ × ℤ × ℤ × ℤ × ℕ) := [
    (0.950724, 0, 0, 0, 0, 0), (0.051818, 0, 1, 0, 0, 0), (0.009531, 0, -1, 2, 0, 0), (0.007843, 0, 0, 2, 0, 0), (0.002824, 0, 2, 0, 0, 0),
    (0.000857, 0, 1, 2, 0, 0), (0.000533, -1, 0, 2, 0, 1), (0.000401, -1, -1, 2, 0, 1), (0.00032, -1, 1, 0, 0, 1), (-0.000271, 0, 0, 1, 0, 0),
    (-0.000264, 1, 1, 0, 0, 1), (-0.000198, 0, -1, 0, 2, 0), (0.000173, 0, 3, 0, 0, 0), (0.000167, 0, -1, 4, 0, 0), (-0.000111, 1, 0, 0, 0, 1),
    (0.000103, 0, -2, 4, 0, 0), (-0.000084, 0, 2, -2, 0, 0), (-0.000083, 1, 0, 2, 0, 1), (0.000079, 0, 2, 2, 0, 0), (0.000072, 0, 0, 4, 0, 0),
    (0.000064, -1, 1, 2, 0, 1), (-0.000063, 1, -1, 2, 0, 1), (0.000041, 1, 0, 1, 0, 1), (0.000035, -1, 2, 0, 0, 1), (-0.000033, 0, 3, -2, 0, 0),
    (-0.00003, 0, 1, 1, 0, 0), (-0.000029, 0, 0, -2, 2, 0), (-0.000029, 1, 2, 0, 0, 1), (0.000026, -2, 0, 2, 0, 2), (-0.000023, 0, 1, -2, 2, 0),
    (0.000019, -1, -1, 4, 0, 1)]

/-- The fundamental arguments and their derivatives per Julian century (variables of /repo/palDmoon.c:379-432). -/
structure MoonArgs where
  elp : ℝ
  delp : ℝ
  em : ℝ
  dem : ℝ
  emp : ℝ
  demp : ℝ
  d : ℝ
  dd : ℝ
  f : ℝ
  df : ℝ
  om : ℝ
  dom : ℝ
  wom : ℝ
  dwom : ℝ
  e : ℝ
  de : ℝ

/-- A cubic in degrees reduced by `fmod` and converted to radians, /repo/palDmoon.c:380, 384, 388, 392, 396, 400. -/
noncomputable def moonArg (a0 a1 a2 a3 t : ℝ) : ℝ := dd2r * fmod (a0 + (a1 + (a2 + a3 * t) * t) * t) 360

/-- Its derivative, /repo/palDmoon.c:381, 385, 389, 393, 397, 401. -/
noncomputable def moonArgD (a1 a2 a3 t : ℝ) : ℝ := dd2r * (a1 + (2 * a2 + 3 * a3 * t) * t)

/-- Fundamental arguments with their periodic variations, E factor, and derivatives, /repo/palDmoon.c:379-432 (coefficients 125-184). -/
noncomputable def moonArgs (t : ℝ) : MoonArgs :=
  let elp := moonArg 270.434164 481267.8831 (-0.001133) 0.0000019 t
  let delp := moonArgD 481267.8831 (-0.001133) 0.0000019 t
  let em := moonArg 358.475833 35999.0498 (-0.000150) (-0.0000033) t
  let dem := moonArgD 35999.0498 (-0.000150) (-0.0000033) t
  let emp := moonArg 296.104608 477198.8491 0.009192 0.0000144 t
  let demp := moonArgD 477198.8491 0.009192 0.0000144 t
  let d := moonArg 350.737486 445267.1142 (-0.001436) 0.0000019 t
  let dd := moonArgD 445267.1142 (-0.001436) 0.0000019 t
  let f := moonArg 11.250889 483202.0251 (-0.003211) (-0.0000003) t
  let df := moonArgD 483202.0251 (-0.003211) (-0.0000003) t
  let om := moonArg 259.183275 (-1934.1420) 0.002078 0.0000022 t
  let dom := moonArgD (-1934.1420) 0.002078 0.0000022 t
  let sinom := sin om
  let cosom := cos om
  let domcom := dom * cosom
  let theta := dd2r * (51.2 + 20.2 * t)
  let wa := sin theta
  let dwa := dd2r * 20.2 * cos theta
  let theta := dd2r * (346.560 + (132.870 + -0.0091731 * t) * t)
  let wb := 0.003964 * sin theta
  let dwb := dd2r * 0.003964 * (132.870 + 2 * -0.0091731 * t) * cos theta
  let elp := elp + dd2r * (0.000233 * wa + wb + 0.001964 * sinom)
  let delp := delp + dd2r * (0.000233 * dwa + dwb + 0.001964 * domcom)
  let em := em + dd2r * (-0.001778) * wa
  let dem := dem + dd2r * (-0.001778) * dwa
  let emp := emp + dd2r * (0.000817 * wa + wb + 0.002541 * sinom)
  let demp := demp + dd2r * (0.000817 * dwa + dwb + 0.002541 * domcom)
  let d := d + dd2r * (0.002011 * wa + wb + 0.001964 * sinom)
  let dd := dd + dd2r * (0.002011 * dwa + dwb + 0.001964 * domcom)
  let wom := om + dd2r * (275.05 + -2.30 * t)
  let dwom := dom + dd2r * -2.30
  let sinwom := sin wom
  let coswom := cos wom
  let f := f + dd2r * (wb + -0.024691 * sinom + -0.004328 * sinwom)
  let df := df + dd2r * (dwb + -0.024691 * domcom + -0.004328 * dwom * coswom)
  let e := 1 + (-0.002495 + -0.00000752 * t) * t
  let de := -0.002495 + 2 * -0.00000752 * t
  ⟨elp, delp, em, dem, emp, demp, d, dd, f, df, om, dom, wom, dwom, e, de⟩

/-- The argument of a term and its derivative, /repo/palDmoon.c:458-459, 487-488, 518-519. -/
noncomputable def moonTheta (a : MoonArgs) (m m' d f : ℤ) : ℝ × ℝ :=
  (m * a.em + m' * a.emp + d * a.d + f * a.f, m * a.dem + m' * a.demp + d * a.dd + f * a.df)

/-- The power of E and its derivative, /repo/palDmoon.c:448-457, 477-486, 508-517 (`ESQ` and `DESQ` from 431-432). -/
noncomputable def moonE (a : MoonArgs) (i : ℕ) : ℝ × ℝ :=
  if i = 0 then (1, 0) else if i = 1 then (a.e, a.de) else (a.e * a.e, 2 * a.e * a.de)

/-- The loops for longitude and latitude, /repo/palDmoon.c:439-463 and 468-492: from the last term to the first, the sum and its derivative. -/
noncomputable def moonSin (a : MoonArgs) : List (ℝ × ℤ × ℤ × ℤ × ℤ × ℕ) → ℝ × ℝ
  | [] => (0, 0)
  | (coeff, m, m', d, f, i) :: rest =>
    let s := moonSin a rest
    let en := moonE a i
    let th := moonTheta a m m' d f
    let ft := sin th.1
    (s.1 + coeff * ft * en.1, s.2 + coeff * (cos th.1 * th.2 * en.1 + ft * en.2))

/-- The loop for the parallax, /repo/palDmoon.c:499-523: cosines. -/
noncomputable def moonCos (a : MoonArgs) : List (ℝ × ℤ × ℤ × ℤ × ℤ × ℕ) → ℝ × ℝ
  | [] => (0, 0)
  | (coeff, m, m', d, f, i) :: rest =>
    let s := moonCos a rest
    let en := moonE a i
    let th := moonTheta a m m' d f
    let ft := cos th.1
    (s.1 + coeff * ft * en.1, s.2 + coeff * (-sin th.1 * th.2 * en.1 + ft * en.2))

/-- Ecliptic position (AU) and velocity (AU per second), /repo/palDmoon.c:438-549. -/
noncomputable def moonEcl (a : MoonArgs) : PV :=
  let cj := 3155760000
  let eradau := 4.2635212653763e-5
  let s := moonSin a moonTL
  let el := a.elp + dd2r * s.1
  let del := (a.delp + dd2r * s.2) / cj
  let s := moonSin a moonTB
  let bf := 1 - 0.0004664 * cos a.om - 0.0000754 * cos a.wom
  let dbf := 0.0004664 * a.dom * sin a.om + 0.0000754 * a.dwom * sin a.wom
  let b := dd2r * s.1 * bf
  let db := dd2r * (s.2 * bf + s.1 * dbf) / cj
  let s := moonCos a moonTP
  let p := dd2r * s.1
  let dp := dd2r * s.2 / cj
  let sp := sin p
  let r := eradau / sp
  let dr := -r * dp * cos p / sp
  let sel := sin el
  let cel := cos el
  let sb := sin b
  let cb := cos b
  let rcb := r * cb
  let rbd := r * db
  let w := rbd * sb - cb * dr
  let x := rcb * cel
  let y := rcb * sel
  let z := r * sb
  ⟨![x, y, z], ![-y * del - w * cel, x * del - w * sel, rbd * cb + sb * dr]⟩

/-- `palDmoon`, /repo/palDmoon.c:95-573: `moonEcl` followed by the equinox correction and the obliquity (551-571). -/
noncomputable def palDmoon (date : ℝ) : PV :=
  let q := moonEcl (moonArgs ((date - 15019.5) / 36525))
  let t := (date - 51544.5) / 36525
  let epj := 2000 + t * 100
  let eqcor := ds2r * (0.035 + 0.00085 * (epj - 1949.9997904423))
  let eps := das2r * (84381.448 + (-46.8150 + (-0.00059 + 0.001813 * t) * t) * t)
  let sineps := sin eps
  let coseps := cos eps
  let es := eqcor * sineps
  let ec := eqcor * coseps
  ⟨![q.p 0 - ec * q.p 1 + es * q.p 2, eqcor * q.p 0 + q.p 1 * coseps - q.p 2 * sineps, q.p 1 * sineps + q.p 2 * coseps],
   ![q.v 0 - ec * q.v 1 + es * q.v 2, eqcor * q.v 0 + q.v 1 * coseps - q.v 2 * sineps, q.v 1 * sineps + q.v 2 * coseps]⟩

end Pal
