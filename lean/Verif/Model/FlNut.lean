import Verif.Model.FlPrec
import Verif.Model.FlEpoch
import Verif.Model.FlMap

/-!
# Nutation, the Earth ephemeris and the mean-to-apparent parameters in double precision

The operations of palNutc, palNut, palPrenut, palEvp and palMappa (Model/Coord.lean, Model/Map.lean), and of the ERFA functions they call, with a rounding after each, in the order of the C code.  The numbers returned by `eraNut06a` and `eraEpv00` stay
parameters.
-/

namespace Pal

/-- `eraP06e` restricted to the four angles PAL uses, /repo/palPrenut.c:98-99. -/
noncomputable def flP06e (fl : ℝ → ℝ) (d1 d2 : ℝ) : P06 :=
  let t := flCent06 fl d1 d2
  let eps0 := fl (fl 84381.406 * flDAS2R fl)
  { eps0 := eps0
    psia := fl (fl (flPoly fl 5038.481507 [-1.0790069, -0.00114045, 0.000132851, -0.0000000951] t * t) * flDAS2R fl)
    oma := fl (eps0 + fl (fl (flPoly fl (-0.025754) [0.0512623, -0.00772503, -0.000000467, 0.0000003337] t * t) * flDAS2R fl))
    chia := fl (fl (flPoly fl 10.556403 [-2.3814292, -0.00121197, 0.000170663, -0.0000000560] t * t) * flDAS2R fl) }

/-- `eraPnm06a` with `eraFw2m`, called in /repo/palPrenut.c:107; `nut` holds the numbers returned by `eraNut06a`. -/
noncomputable def flPnm06a (fl : ℝ → ℝ) (L : Libm) (nut : ℝ → ℝ → ℝ × ℝ) (d1 d2 : ℝ) : Mat3 :=
  let p := flPfw06 fl d1 d2
  let n := nut d1 d2
  flRx fl L (-(fl (p.epsa + n.2))) (flRz fl L (-(fl (p.psib + n.1))) (flRx fl L p.phib (flRz fl L p.gamb eraIr)))

/-- `palNutc`, /repo/palNutc.c:77-80: dpsi, deps, eps0. -/
noncomputable def flNutc (fl : ℝ → ℝ) (nut : ℝ → ℝ → ℝ × ℝ) (date : ℝ) : ℝ × ℝ × ℝ := ((nut 2400000.5 date).1, (nut 2400000.5 date).2, flObl06 fl 2400000.5 date)

/-- `palNut`, /repo/palNut.c:76-85. -/
noncomputable def flNut (fl : ℝ → ℝ) (L : Libm) (nut : ℝ → ℝ → ℝ × ℝ) (date : ℝ) : Mat3 :=
  let n := flNutc fl nut date
  flDeuler fl L ['X', 'Z', 'X'] n.2.2 (-n.1) (-(fl (n.2.2 + n.2.1)))

/-- `palPrenut`, /repo/palPrenut.c:70-111. -/
noncomputable def flPrenut (fl : ℝ → ℝ) (L : Libm) (nut : ℝ → ℝ → ℝ × ℝ) (epoch date : ℝ) : Mat3 :=
  let p := flP06e fl 2400000.5 (flEpj2d fl epoch)
  let r1 := flRx fl L (-p.eps0) (flRz fl L p.psia (flRx fl L p.oma (flRz fl L (-p.chia) eraIr)))
  let r2 := flPnm06a fl L nut 2400000.5 date
  flRxr fl r2 r1

/-- `palEvp`, /repo/palEvp.c:81-110 (`eraRxpv` applies the matrix to position and velocity); `epv00` holds the numbers returned by `eraEpv00`. -/
noncomputable def flEvp (fl : ℝ → ℝ) (L : Libm) (epv00 : ℝ → ℝ → Epv) (date deqx : ℝ) : Epv :=
  let e := epv00 2400000.5 date
  let e : Epv :=
    if deqx > 0 then
      let r := flPmat06 fl L 2400000.5 (flEpj2d fl deqx)
      { ph := flRxp fl r e.ph, vh := flRxp fl r e.vh, pb := flRxp fl r e.pb, vb := flRxp fl r e.vb }
    else e
  { ph := e.ph, vh := fun i => fl (e.vh i / 86400), pb := e.pb, vb := fun i => fl (e.vb i / 86400) }

/-- `palMappa`, /repo/palMappa.c:94-129 (the constant GR2 is a product, rounded when the constant is made). -/
noncomputable def flMappa (fl : ℝ → ℝ) (L : Libm) (nut : ℝ → ℝ → ℝ × ℝ) (epv00 : ℝ → ℝ → Epv) (eq date : ℝ) : Amprms :=
  let gr2 := fl (2 * fl 9.87063e-9)
  let ev := flEvp fl L epv00 date eq
  let eh := flPn fl ev.ph
  let abv : Vec3 := fun i => fl (ev.vb i * fl 499.004782)
  let vm := (flPn fl abv).1
  { pmt := fl (flEpj fl date - eq)
    eb := ev.pb
    ehn := eh.2
    gr2e := fl (gr2 / eh.1)
    abv := abv
    ab1 := fl (√(fl (1 - fl (vm * vm))))
    mat := flPrenut fl L nut eq date }

end Pal
