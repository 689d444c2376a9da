import Verif.Model.FlNut
import Verif.Model.FlObs
import Verif.Model.FlGmst
import Verif.Model.FlSmall
import Verif.Model.FlMoon
import Verif.Model.Orbit

/-!
# Topocentric places of the Sun, the Moon and the planets in double precision

The operations of `palRdplan` (Model/Orbit.lean) with a rounding after each, in the order of the C code.  The numbers returned by `eraNut06a` and `eraPlan94` stay parameters, and so does the library's arc sine.
-/

namespace Pal

/-- `palPlanet`, /repo/palPlanet.c:82-99 (position and velocity; PAL__SPD is a whole number), of the numbers returned by eraPlan94. -/
noncomputable def flPlanet (fl : ℝ → ℝ) (plan94 : ℝ → ℝ → ℤ → PV × ℤ) (date : ℝ) (np : ℤ) : PV :=
  let o := plan94 2400000.5 date np
  { p := o.1.p, v := fun i => fl (o.1.v i / 86400) }

/-- Local sidereal time, /repo/palRdplan.c:136. -/
noncomputable def flRdplanLst (fl : ℝ → ℝ) (date elong : ℝ) : ℝ :=
  fl (flGmst fl (fl (date - fl (flDt fl (flEpj fl date) / 86400))) + elong)

/-- The geocentric state of the body, true equator and equinox of date, /repo/palRdplan.c:138-195. -/
noncomputable def flRdplanGeo (fl : ℝ → ℝ) (L : Libm) (nut : ℝ → ℝ → ℝ × ℝ) (plan94 : ℝ → ℝ → ℤ → PV × ℤ) (date : ℝ) (np : ℤ) : PV :=
  let m := flDmoon fl L date
  let n := flNut fl L nut date
  let vgm : PV := { p := flRxp fl n m.p, v := flRxp fl n m.v }
  if np = 3 then vgm
  else
    let rmat := flPrenut fl L nut 2000 date
    let emb := flPlanet fl plan94 date 3
    let k := fl 0.012150581
    let vsg : PV := { p := fun i => fl (flRxp fl rmat emb.p i - fl (k * vgm.p i)), v := fun i => fl (flRxp fl rmat emb.v i - fl (k * vgm.v i)) }
    if np = 0 then { p := fun i => -vsg.p i, v := fun i => -vsg.v i }
    else
      let pl := flPlanet fl plan94 date np
      { p := fun i => fl (flRxp fl rmat pl.p i - vsg.p i), v := fun i => fl (flRxp fl rmat pl.v i - vsg.v i) }

/-- From the geocentric state, the observer and the radius of the body (km) to the place and the diameter, /repo/palRdplan.c:197-222 (AUKM is a whole number; `nz`: the y component given to eraC2s is the negative zero if it is zero). -/
noncomputable def flRdplanTopo (fl : ℝ → ℝ) (L : Libm) (asn : ℝ → ℝ) (nz : Bool) (g : PV) (o : Vec3 × Vec3) (radius : ℝ) : ℝ × ℝ × ℝ :=
  let p : Vec3 := fun i => fl (g.p i - o.1 i)
  let v : Vec3 := fun i => fl (g.v i - o.2 i)
  let r := flPm fl p
  let tl := fl (fl 499.004782 * r)
  let c := flC2s fl L nz (fun i => fl (p i - fl (tl * v i)))
  (flAnp fl c.1, c.2, fl (2 * asn (fl (fl radius / fl (r * 149597870)))))

/-- `palRdplan`, /repo/palRdplan.c:101-224: RA, Dec, apparent diameter. -/
noncomputable def flRdplan (fl : ℝ → ℝ) (L : Libm) (asn : ℝ → ℝ) (nz : Bool) (nut : ℝ → ℝ → ℝ × ℝ) (plan94 : ℝ → ℝ → ℤ → PV × ℤ) (date : ℝ) (np : ℤ) (elong phi : ℝ) : ℝ × ℝ × ℝ :=
  let np := if np < 0 ∨ np > 8 then 0 else np
  flRdplanTopo fl L asn nz (flRdplanGeo fl L nut plan94 date np) (flPvobs fl L phi 0 (flRdplanLst fl date elong)) (eqrau np)

end Pal
