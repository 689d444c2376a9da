import Verif.Model.Coord

/-!
# Model of the mean/apparent place functions, the Earth ephemeris wrappers, the observatory position and the FK4/FK5 conversions

The 21-element parameter array of /repo/palMappa.c is a structure here, one field per slice of the array.  Division by zero and the square root of a negative number (which
give inf or NaN in C) are not distinguished in this file unless a definition says so: theorems carry hypotheses that exclude them where they matter.
-/

namespace Pal
open Real

/-- The Earth ephemeris `eraEpv00`: heliocentric position, heliocentric velocity, barycentric position, barycentric velocity (/repo/palEvp.c:91, /repo/palEpv.c). -/
structure Epv where
  ph : Vec3
  vh : Vec3
  pb : Vec3
  vb : Vec3

/-- PAL__SPD, /repo/palmac.h:102. -/
def spd : ℝ := 86400
/-- PAL__CR, /repo/palmac.h:99. -/
noncomputable def palCR : ℝ := 499.004782

/-- `eraEpj2jd` as used in /repo/palEvp.c:97: the two-part date (2400000.5, MJD). -/
noncomputable def epj2jdR (epj : ℝ) : ℝ × ℝ := (rMJD0, 51544.5 + (epj - 2000) * 365.25)

/-- `palEvp`, /repo/palEvp.c:81-110 (results in the order of the Epv fields, velocities per second). `eraRxpv` applies the matrix to position and velocity. -/
noncomputable def palEvp (T : Theory) (epv00 : ℝ → ℝ → Epv) (date deqx : ℝ) : Epv :=
  let e := epv00 2400000.5 date
  let e : Epv :=
    if deqx > 0 then
      let d := epj2jdR deqx
      let r := T.pmat06 d.1 d.2
      { ph := eraRxp r e.ph, vh := eraRxp r e.vh, pb := eraRxp r e.pb, vb := eraRxp r e.vb }
    else e
  { ph := e.ph, vh := fun i => e.vh i / spd, pb := e.pb, vb := fun i => e.vb i / spd }

/-- `palEpv`, /repo/palEpv.c:79-96. -/
noncomputable def palEpv (epv00 : ℝ → ℝ → Epv) (date : ℝ) : Epv := epv00 rMJD0 date

/-- The parameter array amprms[21], /repo/palMappa.c:31-44: [0], [1-3], [4-6], [7], [8-10], [11], [12-20]. -/
structure Amprms where
  pmt : ℝ
  eb : Vec3
  ehn : Vec3
  gr2e : ℝ
  abv : Vec3
  ab1 : ℝ
  mat : Mat3

/-- `palMappa`, /repo/palMappa.c:94-129. -/
noncomputable def palMappa (T : Theory) (epv00 : ℝ → ℝ → Epv) (eq date : ℝ) : Amprms :=
  let gr2 : ℝ := 2 * 9.87063e-9
  let ev := palEvp T epv00 date eq
  let eh := eraPn ev.ph
  let abv : Vec3 := fun i => ev.vb i * palCR
  let vm := (eraPn abv).1
  { pmt := palEpjR date - eq
    eb := ev.pb
    ehn := eh.2
    gr2e := gr2 / eh.1
    abv := abv
    ab1 := √(1 - vm * vm)
    mat := palPrenut T eq date }

/-- The end of palMapqk and palMapqkz, /repo/palMapqk.c:165-170 and /repo/palMapqkz.c:144-149. -/
noncomputable def mapFinish (m : Mat3) (p2 : Vec3) : ℝ × ℝ :=
  let s := eraC2s (eraRxp m p2)
  (eraAnp s.1, s.2)

/-- `palMapqk`, /repo/palMapqk.c:111-172. -/
noncomputable def palMapqk (rm dm pr pd px rv : ℝ) (am : Amprms) : ℝ × ℝ :=
  let vf : ℝ := 0.210945028
  let q := eraS2c rm dm
  let pxr := px * das2r
  let w := vf * rv * pxr
  let em : Vec3 := ![-pr * q 1 - pd * cos rm * sin dm + w * q 0, pr * q 0 - pd * sin rm * sin dm + w * q 1, pd * cos dm + w * q 2]
  let p : Vec3 := fun i => q i + am.pmt * em i - pxr * am.eb i
  let pn := (eraPn p).2
  let pde := eraPdp pn am.ehn
  let pdep1 := pde + 1
  let w := am.gr2e / (if pdep1 > 1 / 10 ^ 5 then pdep1 else 1 / 10 ^ 5)
  let p1 : Vec3 := fun i => pn i + w * (am.ehn i - pde * pn i)
  let p1dv := eraPdp p am.abv
  let w := 1 + p1dv / (am.ab1 + 1)
  let p2 : Vec3 := fun i => am.ab1 * p1 i + w * am.abv i
  mapFinish am.mat p2

/-- `palMapqkz`, /repo/palMapqkz.c:110-150. -/
noncomputable def palMapqkz (rm dm : ℝ) (am : Amprms) : ℝ × ℝ :=
  let p := eraS2c rm dm
  let pde := eraPdp p am.ehn
  let pdep1 := pde + 1
  let w := am.gr2e / (if pdep1 > 1 / 10 ^ 5 then pdep1 else 1 / 10 ^ 5)
  let p1 : Vec3 := fun i => p i + w * (am.ehn i - pde * p i)
  let p1dv := eraPdp p1 am.abv
  let w := 1 + p1dv / (am.ab1 + 1)
  let p2 : Vec3 := fun i => am.ab1 * p1 i + w * am.abv i
  mapFinish am.mat p2

/-- One pass of the aberration loop of palAmpqk, /repo/palAmpqk.c:124-135. -/
noncomputable def ampAberr (am : Amprms) (p2 p1 : Vec3) : Vec3 :=
  let p1dv := eraPdp p1 am.abv
  let w := 1 + p1dv / (am.ab1 + 1)
  (eraPn (fun i => ((1 + p1dv) * p2 i - w * am.abv i) / am.ab1)).2

/-- One pass of the light deflection loop of palAmpqk, /repo/palAmpqk.c:141-152. -/
noncomputable def ampDefl (am : Amprms) (p1 p : Vec3) : Vec3 :=
  let pde := eraPdp p am.ehn
  let pdep1 := 1 + pde
  let w := pdep1 - am.gr2e * pde
  (eraPn (fun i => (pdep1 * p1 i - am.gr2e * am.ehn i) / w)).2

/-- `palAmpqk`, /repo/palAmpqk.c:96-159: two passes for aberration, five for light deflection. -/
noncomputable def palAmpqk (ra da : ℝ) (am : Amprms) : ℝ × ℝ :=
  let p3 := eraS2c ra da
  let p2 := eraTrxp am.mat p3
  let p1 := (ampAberr am p2)^[2] p2
  let p := (ampDefl am p1)^[5] p1
  let s := eraC2s p
  (eraAnp s.1, s.2)

/-- `palMap`, /repo/palMap.c:116-128. -/
noncomputable def palMap (T : Theory) (epv00 : ℝ → ℝ → Epv) (rm dm pr pd px rv eq date : ℝ) : ℝ × ℝ :=
  palMapqk rm dm pr pd px rv (palMappa T epv00 eq date)

/-- `palAmp`, /repo/palAmp.c:79-84. -/
noncomputable def palAmp (T : Theory) (epv00 : ℝ → ℝ → Epv) (ra da date eq : ℝ) : ℝ × ℝ :=
  palAmpqk ra da (palMappa T epv00 eq date)

/-- `eraGd2gc` for the WGS84 ellipsoid (as `eraGd2gce` computes it), used in /repo/palGeoc.c and /repo/palPvobs.c:82. The error return of ERFA cannot occur for this ellipsoid. -/
noncomputable def gd2gcWGS84 (elong phi height : ℝ) : Vec3 :=
  let a : ℝ := 6378137
  let f : ℝ := 1 / 298.257223563
  let sp := sin phi
  let cp := cos phi
  let w := (1 - f) * (1 - f)
  let d := cp * cp + w * sp * sp
  let ac := a / √d
  let as := w * ac
  let r := (ac + height) * cp
  ![r * cos elong, r * sin elong, (as + height) * sp]

/-- `palGeoc`, /repo/palGeoc.c:75-83 (with its own value of the astronomical unit): distance from the axis, distance from the equator. -/
noncomputable def palGeoc (p h : ℝ) : ℝ × ℝ :=
  let elong : ℝ := 0
  let au : ℝ := 1.49597870e11
  let xyz := gd2gcWGS84 elong p h
  (xyz 0 / (au * cos elong), xyz 2 / au)

/-- PAL__SR, /repo/palmac.h:114. -/
noncomputable def palSR : ℝ := 7.2921150e-5

/-- ERFA_DAU, the astronomical unit in metres, /repo/palPvobs.c:85. -/
noncomputable def erfaDAU : ℝ := 149597870.7e3

/-- `palPvobs`, /repo/palPvobs.c:77-106: position and velocity. -/
noncomputable def palPvobs (p h stl : ℝ) : Vec3 × Vec3 :=
  let xyz := gd2gcWGS84 0 p h
  let r := xyz 0 / erfaDAU
  let z := xyz 2 / erfaDAU
  let s := sin stl
  let c := cos stl
  let v := palSR * r
  (![r * c, r * s, z], ![-v * s, v * c, 0])

/-- PAL__PMF, /repo/palmac.h:110. -/
noncomputable def palPMF : ℝ := 100 * 60 * 60 * 360 / (2 * π)
/-- PAL__VF, /repo/palmac.h:106. -/
noncomputable def palVF : ℝ := 21.095

/-- The constant vectors of /repo/palFk524.c:148-149 and /repo/palFk45z.c:137-140. -/
noncomputable def fkA : Vec3 := ![-1.62557e-6, -0.31919e-6, -0.13843e-6]
/-- See `fkA` (/repo/palFk524.c:148-149). -/
noncomputable def fkAd : Vec3 := ![1.245e-3, -1.580e-3, -0.659e-3]

/-- Position rows and position columns of the matrix in /repo/palFk524.c:150-162. -/
noncomputable def emiPP : Mat3 := !![0.9999256795, 0.0111814828, 0.0048590039; -0.0111814828, 0.9999374849, -0.0000271771; -0.0048590040, -0.0000271557, 0.9999881946]
/-- Position rows, velocity columns (/repo/palFk524.c:150-162). -/
noncomputable def emiPV : Mat3 := !![-0.00000242389840, -0.00000002710544, -0.00000001177742; 0.00000002710544, -0.00000242392702, 0.00000000006585;
  0.00000001177742, 0.00000000006585, -0.00000242404995]
/-- Velocity rows, position columns (/repo/palFk524.c:150-162). -/
noncomputable def emiVP : Mat3 := !![-0.000551, 0.238509, -0.435614; -0.238560, -0.002667, 0.012254; 0.435730, -0.008541, 0.002117]
/-- Velocity rows, velocity columns (/repo/palFk524.c:150-162). -/
noncomputable def emiVV : Mat3 := !![0.99990432, 0.01118145, 0.00485852; -0.01118145, 0.99991613, -0.00002717; -0.00485852, -0.00002716, 0.99996684]

/-- A star: position, proper motions, parallax, radial velocity (arguments of /repo/palFk524.c:132-134). -/
structure Star where
  r : ℝ
  d : ℝ
  dr : ℝ
  dd : ℝ
  px : ℝ
  rv : ℝ

/-- `palFk524`, /repo/palFk524.c:132-259, up to the position and velocity vectors after the E-terms (lines 164-224): x,y,z, xd,yd,zd and rxyz. -/
noncomputable def fk524Vec (s : Star) : Vec3 × Vec3 × ℝ :=
  let ur := s.dr * palPMF
  let ud := s.dd * palPMF
  let sr := sin s.r
  let cr := cos s.r
  let sd := sin s.d
  let cd := cos s.d
  let x := cr * cd
  let y := sr * cd
  let z := sd
  let w := palVF * s.rv * s.px
  let p1 : Vec3 := ![x, y, z]
  let q1 : Vec3 := ![-ur * y - cr * sd * ud + w * x, ur * x - sr * sd * ud + w * y, cd * ud + w * z]
  let p2 : Vec3 := fun i => eraRxp emiPP p1 i + eraRxp emiPV q1 i
  let q2 : Vec3 := fun i => eraRxp emiVP p1 i + eraRxp emiVV q1 i
  let rxyz := √(p2 0 * p2 0 + p2 1 * p2 1 + p2 2 * p2 2)
  let w := p2 0 * fkA 0 + p2 1 * fkA 1 + p2 2 * fkA 2
  let t : Vec3 := fun i => p2 i + (fkA i * rxyz - w * p2 i)
  let rxyz := √(t 0 * t 0 + t 1 * t 1 + t 2 * t 2)
  let w := p2 0 * fkA 0 + p2 1 * fkA 1 + p2 2 * fkA 2
  let wd := p2 0 * fkAd 0 + p2 1 * fkAd 1 + p2 2 * fkAd 2
  let p : Vec3 := fun i => p2 i + (fkA i * rxyz - w * p2 i)
  let v : Vec3 := fun i => q2 i + fkAd i * rxyz - wd * p i
  (p, v, rxyz)

/-- `palFk524`, /repo/palFk524.c:132-259. -/
noncomputable def palFk524 (s : Star) : Star :=
  let tiny : ℝ := 1 / 10 ^ 30
  let ur := s.dr * palPMF
  let ud := s.dd * palPMF
  let pv := fk524Vec s
  let x := pv.1 0
  let y := pv.1 1
  let z := pv.1 2
  let xd := pv.2.1 0
  let yd := pv.2.1 1
  let zd := pv.2.1 2
  let rxyz := pv.2.2
  let rxysq := x * x + y * y
  let rxy := √rxysq
  let r := if x = 0 ∧ y = 0 then 0 else (if atan2 y x < 0 then atan2 y x + 2 * π else atan2 y x)
  let d := atan2 z rxy
  let u : ℝ × ℝ := if rxy > tiny then ((x * yd - y * xd) / rxysq, (zd * rxysq - z * (x * xd + y * yd)) / ((rxysq + z * z) * rxy)) else (ur, ud)
  let q : ℝ × ℝ := if s.px > tiny then (s.px / rxyz, (x * xd + y * yd + z * zd) / (s.px * palVF * rxyz)) else (s.px, s.rv)
  { r := r, d := d, dr := u.1 / palPMF, dd := u.2 / palPMF, px := q.1, rv := q.2 }

/-- `palFk54z`, /repo/palFk54z.c:97-112: position and proper motions. -/
noncomputable def palFk54z (r2000 d2000 bepoch : ℝ) : (ℝ × ℝ) × (ℝ × ℝ) :=
  let s := palFk524 { r := r2000, d := d2000, dr := 0, dd := 0, px := 0, rv := 0 }
  let y := bepoch - 1950
  ((s.r + s.dr * y, s.d + s.dd * y), (s.dr, s.dd))

/-- The position rows of the matrix in /repo/palFk45z.c:143-148. -/
noncomputable def emP : Mat3 := !![0.9999256782, -0.0111820611, -0.0048579477; 0.0111820610, 0.9999374784, -0.0000271765; 0.0048579479, -0.0000271474, 0.9999881997]
/-- The velocity rows of the matrix in /repo/palFk45z.c:143-148. -/
noncomputable def emV : Mat3 := !![-0.000551, -0.238565, 0.435739; 0.238514, -0.002667, -0.008541; -0.435623, 0.012254, 0.002117]

/-- `palEpb2d` over ℝ (`eraEpb2jd`), /repo/palOne2One.c:1129-1133. -/
noncomputable def palEpb2dR (epb : ℝ) : ℝ := 15019.81352 + (epb - 1900) * 365.242198781

/-- `palFk45z`, /repo/palFk45z.c:124-184. -/
noncomputable def palFk45z (r1950 d1950 bepoch : ℝ) : ℝ × ℝ :=
  let r0 := eraS2c r1950 d1950
  let w := (bepoch - 1950) / palPMF
  let a1 : Vec3 := fun i => fkA i + w * fkAd i
  let w := r0 0 * a1 0 + r0 1 * a1 1 + r0 2 * a1 2
  let v1 : Vec3 := fun i => r0 i - a1 i + w * r0 i
  let pos := eraRxp emP v1
  let vel := eraRxp emV v1
  let w := (palEpjR (palEpb2dR bepoch) - 2000) / palPMF
  let v2 : Vec3 := fun i => pos i + w * vel i
  let s := eraC2s v2
  (eraAnp s.1, s.2)

end Pal
