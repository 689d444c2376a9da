import Verif.Model.Sphere
import Mathlib.Analysis.SpecialFunctions.Pow.Real

/-!
# Model of the coordinate conversions: ecliptic, galactic, supergalactic, E-terms, radial velocities, airmass, distortion, polar motion, precession

The astronomical theories that PAL takes from ERFA are not part of /repo.  They are fields of the structure `Theory`; theorems quantify over every value of it and
state as hypotheses whatever they need to know (for instance that the precession matrices are rotations).
-/

namespace Pal
open Real

/-- The quantities that PAL uses out of those returned by `eraP06e` (/repo/palPrenut.c:98-99). -/
structure P06 where
  eps0 : ℝ
  psia : ℝ
  oma : ℝ
  chia : ℝ

/-- The ERFA theories PAL calls: `eraPmat06` (/repo/palPrec.c:89), `eraObl06` (/repo/palEcmat.c:77), `eraNut06a` (/repo/palNutc.c:78),
`eraP06e` (/repo/palPrenut.c:98), `eraPnm06a` (/repo/palPrenut.c:107). -/
structure Theory where
  pmat06 : ℝ → ℝ → Mat3
  obl06 : ℝ → ℝ → ℝ
  nut06a : ℝ → ℝ → ℝ × ℝ
  p06e : ℝ → ℝ → P06
  pnm06a : ℝ → ℝ → Mat3

/-- PAL__MJD0, /repo/palmac.h:96. -/
noncomputable def rMJD0 : ℝ := 2400000.5

/-- `eraEpj` through palEpj, /repo/palOne2One.c:1169-1171, over ℝ (the rational version is in Verif/Model/Calendar.lean). -/
noncomputable def palEpjR (date : ℝ) : ℝ := 2000 + ((rMJD0 - 2451545) + date) / 365.25

/-- `palPrec`, /repo/palPrec.c:76-106: `eraRxr(rmatp, rmatq, rmatp)` in the general case. -/
noncomputable def palPrec (T : Theory) (ep0 ep1 : ℝ) : Mat3 :=
  let ep0_days := (ep0 - 2000) * 365.25
  let ep1_days := (ep1 - 2000) * 365.25
  if ep0 = 2000 then T.pmat06 2451545 ep1_days
  else if ep1 = 2000 then eraTr (T.pmat06 2451545 ep0_days)
  else
    let rmatp := eraTr (T.pmat06 2451545 ep0_days)
    let rmatq := T.pmat06 2451545 ep1_days
    eraRxr rmatp rmatq

/-- `PAL__DAS2R`, /repo/palmac.h:78. -/
noncomputable def das2r : ℝ := π / 648000

/-- `palPrebn`, /repo/palPrebn.c:76-98. -/
noncomputable def palPrebn (bep0 bep1 : ℝ) : Mat3 :=
  let bigt := (bep0 - 1850) / 100
  let t := (bep1 - bep0) / 100
  let tas2r := t * das2r
  let w := 2303.5548 + (1.39720 + 0.000059 * bigt) * bigt
  let zeta := (w + (0.30242 - 0.000269 * bigt + 0.017996 * t) * t) * tas2r
  let z := (w + (1.09478 + 0.000387 * bigt + 0.018324 * t) * t) * tas2r
  let theta := (2005.1125 + (-0.85294 - 0.000365 * bigt) * bigt + (-0.42647 - 0.000365 * bigt - 0.041802 * t) * t) * tas2r
  palDeuler ['Z', 'Y', 'Z'] (-zeta) theta (-z)

/-- `palNutc`, /repo/palNutc.c:77-80: dpsi, deps, eps0. -/
noncomputable def palNutc (T : Theory) (date : ℝ) : ℝ × ℝ × ℝ := ((T.nut06a rMJD0 date).1, (T.nut06a rMJD0 date).2, T.obl06 rMJD0 date)

/-- `palNut`, /repo/palNut.c:76-85. -/
noncomputable def palNut (T : Theory) (date : ℝ) : Mat3 :=
  let n := palNutc T date
  palDeuler ['X', 'Z', 'X'] n.2.2 (-n.1) (-(n.2.2 + n.2.1))

/-- `palPrenut`, /repo/palPrenut.c:70-111 (`eraEpj2jd` splits the epoch as MJD0 + MJD). -/
noncomputable def palPrenut (T : Theory) (epoch date : ℝ) : Mat3 :=
  let p := T.p06e rMJD0 (51544.5 + (epoch - 2000) * 365.25)
  let r1 := eraRx (-p.eps0) (eraRz p.psia (eraRx p.oma (eraRz (-p.chia) eraIr)))
  let r2 := T.pnm06a rMJD0 date
  eraRxr r2 r1

/-- C `tolower` on ASCII letters, used by `strncasecmp` in /repo/palPreces.c:107,109. -/
def lowerC (c : Char) : Char := if 'A' ≤ c ∧ c ≤ 'Z' then Char.ofNat (c.toNat + 32) else c

/-- `strncasecmp(key, sys, 3) == 0` for a three-letter key; the string argument stops at its terminator, /repo/palPreces.c:107. -/
def sysIs (key : List Char) (sys : List Char) : Bool := ((sys.take 3).map lowerC) == (key.map lowerC)

/-- `palPreces`, /repo/palPreces.c:99-126. -/
noncomputable def palPreces (T : Theory) (sys : List Char) (ep0 ep1 : ℝ) (ra dc : ℝ) : ℝ × ℝ :=
  let go (pm : Mat3) : ℝ × ℝ :=
    let s := eraC2s (eraRxp pm (eraS2c ra dc))
    (eraAnp s.1, s.2)
  if sysIs ['F', 'K', '4'] sys then go (palPrebn ep0 ep1)
  else if sysIs ['F', 'K', '5'] sys then go (palPrec T ep0 ep1)
  else (-99, -99)

/-- `palEcmat`, /repo/palEcmat.c:73-82. -/
noncomputable def palEcmat (T : Theory) (date : ℝ) : Mat3 := palDeuler ['X'] (T.obl06 rMJD0 date) 0 0

/-- `palEcleq`, /repo/palEcleq.c:76-97. -/
noncomputable def palEcleq (T : Theory) (dl db date : ℝ) : ℝ × ℝ :=
  let v1 := eraS2c dl db
  let v2 := eraTrxp (palEcmat T date) v1
  let v1 := eraTrxp (palPrec T 2000 (palEpjR date)) v2
  let s := eraC2s v1
  (eraAnp s.1, palDrange s.2)

/-- `palEqecl`, /repo/palEqecl.c:76-97. -/
noncomputable def palEqecl (T : Theory) (dr dd date : ℝ) : ℝ × ℝ :=
  let v1 := eraS2c dr dd
  let v2 := eraRxp (palPrec T 2000 (palEpjR date)) v1
  let v1 := eraRxp (palEcmat T date) v2
  let s := eraC2s v1
  (eraAnp s.1, palDrange s.2)

/-- The matrix in /repo/palEqgal.c:99-103. -/
noncomputable def eqgalMat : Mat3 :=
  !![-0.054875539726, -0.873437108010, -0.483834985808;
     0.494109453312, -0.444829589425, 0.746982251810;
     -0.867666135858, -0.198076386122, 0.455983795705]

/-- The matrix in /repo/palGaleq.c:99-103. -/
noncomputable def galeqMat : Mat3 :=
  !![-0.054875539726, -0.873437108010, -0.483834985808;
     0.494109453312, -0.444829589425, 0.746982251810;
     -0.867666135858, -0.198076386122, 0.455983795705]

/-- `palEqgal`, /repo/palEqgal.c:80-118. -/
noncomputable def palEqgal (dr dd : ℝ) : ℝ × ℝ :=
  let s := eraC2s (eraRxp eqgalMat (eraS2c dr dd))
  (eraAnp s.1, eraAnpm s.2)

/-- `palGaleq`, /repo/palGaleq.c:80-118. -/
noncomputable def palGaleq (dl db : ℝ) : ℝ × ℝ :=
  let s := eraC2s (eraTrxp galeqMat (eraS2c dl db))
  (eraAnp s.1, eraAnpm s.2)

/-- The matrix in /repo/palGalsup.c:97-101. -/
noncomputable def galsupMat : Mat3 :=
  !![-0.735742574804, 0.677261296414, 0.000000000000;
     -0.074553778365, -0.080991471307, 0.993922590400;
     0.673145302109, 0.731271165817, 0.110081262225]

/-- The matrix in /repo/palSupgal.c:97-101. -/
noncomputable def supgalMat : Mat3 :=
  !![-0.735742574804, 0.677261296414, 0.000000000000;
     -0.074553778365, -0.080991471307, 0.993922590400;
     0.673145302109, 0.731271165817, 0.110081262225]

/-- `palGalsup`, /repo/palGalsup.c:83-116. -/
noncomputable def palGalsup (dl db : ℝ) : ℝ × ℝ :=
  let s := eraC2s (eraRxp galsupMat (eraS2c dl db))
  (eraAnp s.1, eraAnpm s.2)

/-- `palSupgal`, /repo/palSupgal.c:83-116. -/
noncomputable def palSupgal (dsl dsb : ℝ) : ℝ × ℝ :=
  let s := eraC2s (eraTrxp supgalMat (eraS2c dsl dsb))
  (eraAnp s.1, eraAnpm s.2)

/-- `palEtrms`, /repo/palEtrms.c:78-106. -/
noncomputable def palEtrms (ep : ℝ) : Vec3 :=
  let t := (ep - 1950) * 0.0100002135903
  let e := 0.01673011 - (t * 1.26e-7 + 4.193e-5) * t
  let e0 := (84404.836 - ((t * 0.00181 + 0.00319) * t + 46.8495) * t) * das2r
  let p := (((t * 0.012 + 1.65) * t + 6190.67) * t + 1015489.951) * das2r
  let ek := e * 20.49552 * das2r
  let cp := cos p
  ![ek * sin p, -ek * cp * cos e0, -ek * cp * sin e0]

/-- `palAddet`, /repo/palAddet.c:88-112. -/
noncomputable def palAddet (rm dm eq : ℝ) : ℝ × ℝ :=
  let a := palEtrms eq
  let v := eraS2c rm dm
  let v : Vec3 := fun i => v i + a i
  let s := eraC2s v
  (eraAnp s.1, s.2)

/-- `palSubet`, /repo/palSubet.c:86-112. -/
noncomputable def palSubet (rc dc eq : ℝ) : ℝ × ℝ :=
  let a := palEtrms eq
  let v := eraS2c rc dc
  let f := 1 + eraPdp v a
  let v : Vec3 := fun i => f * v i - a i
  let s := eraC2s v
  (eraAnp s.1, s.2)

/-- The matrix in /repo/palGe50.c:104-108. -/
noncomputable def ge50Mat : Mat3 :=
  !![-0.066988739415, -0.872755765852, -0.483538914632;
     0.492728466075, -0.450346958020, 0.744584633283;
     -0.867600811151, -0.188374601723, 0.460199784784]

/-- `palGe50`, /repo/palGe50.c:79-128. -/
noncomputable def palGe50 (dl db : ℝ) : ℝ × ℝ :=
  let s := eraC2s (eraTrxp ge50Mat (eraS2c dl db))
  let e := palAddet s.1 s.2 1950
  (eraAnp e.1, eraAnpm e.2)

/-- `palRverot`, /repo/palRverot.c:85-91. -/
noncomputable def palRverot (phi ra da st : ℝ) : ℝ := 0.4655 * cos phi * sin (st - ra) * cos da

/-- `palRvgalc`, /repo/palRvgalc.c:85-111. -/
noncomputable def palRvgalc (r2000 d2000 : ℝ) : ℝ := eraPdp ![-108.70408, 97.86251, -164.33610] (eraS2c r2000 d2000)

/-- `palRvlg`, /repo/palRvlg.c:78-106. -/
noncomputable def palRvlg (r2000 d2000 : ℝ) : ℝ := eraPdp ![-148.23284, 133.44888, -224.09467] (eraS2c r2000 d2000)

/-- `palRvlsrd`, /repo/palRvlsrd.c:90-116. -/
noncomputable def palRvlsrd (r2000 d2000 : ℝ) : ℝ := eraPdp ![0.63823, 14.58542, -7.80116] (eraS2c r2000 d2000)

/-- `palRvlsrk`, /repo/palRvlsrk.c:90-116. -/
noncomputable def palRvlsrk (r2000 d2000 : ℝ) : ℝ := eraPdp ![-0.29000, 17.31726, -10.00141] (eraS2c r2000 d2000)

/-- `palAirmas`, /repo/palAirmas.c:86-99. -/
noncomputable def palAirmas (zd : ℝ) : ℝ :=
  let maxzd := 87 * (π / 180)
  let zd := |zd|
  let zd := if zd > maxzd then maxzd else zd
  let seczm1 := 1 / cos zd - 1
  1 + seczm1 * (0.9981833 - seczm1 * (0.002875 + 0.0008083 * seczm1))

/-- `palPcd`, /repo/palPcd.c:98-104. -/
def palPcd (disco x y : ℝ) : ℝ × ℝ :=
  let f := 1 + disco * (x * x + y * y)
  (x * f, y * f)

/-- C `copysign(pow(fabs(w), 1.0/3.0), w)`, /repo/palUnpcd.c:142,144 (the sign of a zero is irrelevant: the magnitude is then 0). -/
noncomputable def cbrtSign (w : ℝ) : ℝ := if w < 0 then -(|w| ^ (1 / 3 : ℝ)) else |w| ^ (1 / 3 : ℝ)

/-- `palUnpcd`, /repo/palUnpcd.c:119-176. -/
noncomputable def palUnpcd (disco x y : ℝ) : ℝ × ℝ :=
  let rp := √(x * x + y * y)
  if rp ≠ 0 ∧ disco ≠ 0 then
    let q := 1 / (3 * disco)
    let r := rp / (2 * disco)
    let w := q * q * q + r * r
    let f :=
      if w > 0 then
        let d := √w
        let s := cbrtSign (r + d)
        let t := cbrtSign (r - d)
        s + t
      else
        let w := 2 / √(-3 * disco)
        let c := 4 * rp / (disco * w * w * w)
        let c2 := c * c
        let s := √(1 - min c2 1)
        let t3 := atan2 s c
        let f1 := w * cos ((2 * π - t3) / 3)
        let f2 := w * cos (t3 / 3)
        let f3 := w * cos ((2 * π + t3) / 3)
        let w1 := |f1 - rp|
        let w2 := |f2 - rp|
        let w3 := |f3 - rp|
        if w1 < w2 then (if w1 < w3 then f1 else f3) else (if w2 < w3 then f2 else f3)
    let f := f / rp
    (x * f, y * f)
  else (x, y)

/-- Results of palPolmo, /repo/palPolmo.c:32-34. -/
structure PolmoOut where
  elong : ℝ
  phi : ℝ
  daz : ℝ

/-- `palPolmo`, /repo/palPolmo.c:135-190.  `none` stands for the division by zero of lines 170-171 (which gives NaN), reached when the site is at the true pole. -/
noncomputable def palPolmo (elongm phim xp yp : ℝ) : Option PolmoOut :=
  let sel := sin elongm
  let cel := cos elongm
  let sph := sin phim
  let cph := cos phim
  let xm := cel * cph
  let ym := sel * cph
  let zm := sph
  let sxp := sin xp
  let cxp := cos xp
  let syp := sin yp
  let cyp := cos yp
  let zw := -ym * syp + zm * cyp
  let xt := xm * cxp - zw * sxp
  let yt := ym * cyp + zm * syp
  let zt := xm * sxp + zw * cxp
  let xnm := -sxp * cyp
  let ynm := syp
  let znm := cxp * cyp
  let cph := √(xt * xt + yt * yt)
  if cph = 0 then none
  else
    let sel := yt / cph
    let cel := xt / cph
    let elong := if xt ≠ 0 ∨ yt ≠ 0 then atan2 yt xt else 0
    let phi := atan2 zt cph
    let xnt := (xnm * cel + ynm * sel) * zt - znm * cph
    let ynt := -xnm * sel + ynm * cel
    let daz := if xnt ≠ 0 ∨ ynt ≠ 0 then atan2 (-ynt) (-xnt) else 0
    some { elong := elong, phi := phi, daz := daz }

end Pal
