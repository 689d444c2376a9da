import Verif.Model.FlRot
import Verif.Model.FlFk4
import Verif.Model.FlAngle
import Verif.Model.Prec06

/-!
# Precession and ecliptic coordinates in double precision

The operations of palPrebn, palPrec, palPreces, palEcmat, palEqecl, palEcleq and palGe50 (Model/Coord.lean), and of the ERFA functions they call (Model/Prec06.lean), with a rounding after each, in the order of the C code; constants are rounded when
stored.
-/

namespace Pal

/-- A polynomial `c + (d + (e + ...) * t) * t` as it is written in the ERFA functions called in /repo/palPrec.c:90-103 and /repo/palEcmat.c:77. -/
noncomputable def flPoly (fl : ℝ → ℝ) : ℝ → List ℝ → ℝ → ℝ
  | c, [], _ => fl c
  | c, d :: ds, t => fl (fl c + fl (flPoly fl d ds t * t))

/-- Julian centuries since J2000.0, the first line of the ERFA functions called in /repo/palPrec.c:90-103 and /repo/palEcmat.c:77. -/
noncomputable def flCent06 (fl : ℝ → ℝ) (d1 d2 : ℝ) : ℝ := fl (fl (fl (d1 - 2451545) + d2) / 36525)

/-- `eraObl06`, called in /repo/palEcmat.c:77. -/
noncomputable def flObl06 (fl : ℝ → ℝ) (d1 d2 : ℝ) : ℝ :=
  fl (flPoly fl 84381.406 [-46.836769, -0.0001831, 0.00200340, -0.000000576, -0.0000000434] (flCent06 fl d1 d2) * flDAS2R fl)

/-- `eraPfw06`, called by `eraPmat06` (/repo/palPrec.c:90). -/
noncomputable def flPfw06 (fl : ℝ → ℝ) (d1 d2 : ℝ) : Pfw :=
  let t := flCent06 fl d1 d2
  { gamb := fl (flPoly fl (-0.052928) [10.556378, 0.4932044, -0.00031238, -0.000002788, 0.0000000260] t * flDAS2R fl)
    phib := fl (flPoly fl 84381.412819 [-46.811016, 0.0511268, 0.00053289, -0.000000440, -0.0000000176] t * flDAS2R fl)
    psib := fl (flPoly fl (-0.041775) [5038.481484, 1.5584175, -0.00018522, -0.000026452, -0.0000000148] t * flDAS2R fl)
    epsa := flObl06 fl d1 d2 }

/-- `eraPmat06` with `eraFw2m`, called in /repo/palPrec.c:90, 95, 101 and 103. -/
noncomputable def flPmat06 (fl : ℝ → ℝ) (L : Libm) (d1 d2 : ℝ) : Mat3 :=
  let p := flPfw06 fl d1 d2
  flRx fl L (-p.epsa) (flRz fl L (-p.psib) (flRx fl L p.phib (flRz fl L p.gamb eraIr)))

/-- `palPrec`, /repo/palPrec.c:76-106. -/
noncomputable def flPrec (fl : ℝ → ℝ) (L : Libm) (ep0 ep1 : ℝ) : Mat3 :=
  let ep0_days := fl (fl (ep0 - 2000) * 365.25)
  let ep1_days := fl (fl (ep1 - 2000) * 365.25)
  if ep0 = 2000 then flPmat06 fl L 2451545 ep1_days
  else if ep1 = 2000 then eraTr (flPmat06 fl L 2451545 ep0_days)
  else flRxr fl (eraTr (flPmat06 fl L 2451545 ep0_days)) (flPmat06 fl L 2451545 ep1_days)

/-- `palPrebn`, /repo/palPrebn.c:76-98. -/
noncomputable def flPrebn (fl : ℝ → ℝ) (L : Libm) (bep0 bep1 : ℝ) : Mat3 :=
  let bigt := fl (fl (bep0 - 1850) / 100)
  let t := fl (fl (bep1 - bep0) / 100)
  let tas2r := fl (t * flDAS2R fl)
  let w := fl (fl 2303.5548 + fl (fl (fl 1.39720 + fl (fl 0.000059 * bigt)) * bigt))
  let zeta := fl (fl (w + fl (fl (fl (fl 0.30242 - fl (fl 0.000269 * bigt)) + fl (fl 0.017996 * t)) * t)) * tas2r)
  let z := fl (fl (w + fl (fl (fl (fl 1.09478 + fl (fl 0.000387 * bigt)) + fl (fl 0.018324 * t)) * t)) * tas2r)
  let theta := fl (fl (fl (fl 2005.1125 + fl (fl (fl (-0.85294) - fl (fl 0.000365 * bigt)) * bigt)) + fl (fl (fl (fl (-0.42647) - fl (fl 0.000365 * bigt)) - fl (fl 0.041802 * t)) * t)) * tas2r)
  flDeuler fl L ['Z', 'Y', 'Z'] (-zeta) theta (-z)

/-- `palPreces`, /repo/palPreces.c:99-126 (`nz`: see `flC2s`). -/
noncomputable def flPreces (fl : ℝ → ℝ) (L : Libm) (nz : Bool) (sys : List Char) (ep0 ep1 ra dc : ℝ) : ℝ × ℝ :=
  let go (pm : Mat3) : ℝ × ℝ :=
    let s := flC2s fl L nz (flRxp fl pm (flS2c fl L ra dc))
    (flAnp fl s.1, s.2)
  if sysIs ['F', 'K', '4'] sys then go (flPrebn fl L ep0 ep1)
  else if sysIs ['F', 'K', '5'] sys then go (flPrec fl L ep0 ep1)
  else (-99, -99)

/-- `palEcmat`, /repo/palEcmat.c:73-82. -/
noncomputable def flEcmat (fl : ℝ → ℝ) (L : Libm) (date : ℝ) : Mat3 := flDeuler fl L ['X'] (flObl06 fl 2400000.5 date) 0 0

/-- `palEcleq`, /repo/palEcleq.c:76-97. -/
noncomputable def flEcleq (fl : ℝ → ℝ) (L : Libm) (nz : Bool) (dl db date : ℝ) : ℝ × ℝ :=
  let v2 := flTrxp fl (flEcmat fl L date) (flS2c fl L dl db)
  let s := flC2s fl L nz (flTrxp fl (flPrec fl L 2000 (flEpj fl date)) v2)
  (flAnp fl s.1, flDrange fl s.2)

/-- `palEqecl`, /repo/palEqecl.c:76-97. -/
noncomputable def flEqecl (fl : ℝ → ℝ) (L : Libm) (nz : Bool) (dr dd date : ℝ) : ℝ × ℝ :=
  let v2 := flRxp fl (flPrec fl L 2000 (flEpj fl date)) (flS2c fl L dr dd)
  let s := flC2s fl L nz (flRxp fl (flEcmat fl L date) v2)
  (flAnp fl s.1, flDrange fl s.2)

/-- `palGe50`, /repo/palGe50.c:79-128. -/
noncomputable def flGe50 (fl : ℝ → ℝ) (L : Libm) (nz nz' : Bool) (dl db : ℝ) : ℝ × ℝ :=
  let s := flC2s fl L nz (flTrxp fl (fun i j => fl (ge50Mat i j)) (flS2c fl L dl db))
  let e := flAddet fl L nz' s.1 s.2 1950
  (flAnp fl e.1, flAnpm fl e.2)

end Pal
