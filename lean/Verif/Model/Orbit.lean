import Verif.Model.Map
import Mathlib.Algebra.Order.Floor.Ring

/-!
# Model of the orbit functions palUe2pv, palPv2ue, palEl2ue, palPv2el, palUe2el, palPlanel, palPlante, palPlantu, palPertel, palPertue, palPlanet and palRdplan

The 13-element array of universal elements is a structure, and so is a 6-element state vector.  Functions that change their arguments in place take the old values and
return the new ones, so "left unchanged" is visible in the result.  `none` stands for a division by zero, which makes C continue with infinities or NaNs, or for a
read of uninitialised memory: nothing is claimed about such calls, except where a theorem shows that they can or cannot occur.
-/

namespace Pal
open Real

/-- PAL__GCON, /repo/palmac.h:117. -/
noncomputable def gcon : ℝ := 0.01720209895

/-- The universal elements u[13], /repo/palUe2pv.c:28-42: combined mass, alpha, epoch, position, velocity, distance, radial velocity times distance, date of the last
prediction, universal eccentric anomaly at that date. -/
structure Univ where
  cm : ℝ
  alpha : ℝ
  t0 : ℝ
  p0 : Vec3
  v0 : Vec3
  r0 : ℝ
  sigma : ℝ
  t : ℝ
  psi : ℝ

/-- A state vector pv[6]: position (AU) and velocity (AU/s) (/repo/palUe2pv.c:32-33). -/
structure PV where
  p : Vec3
  v : Vec3

/-- CD2S, canonical days to seconds, /repo/palUe2pv.c:127. -/
noncomputable def cd2s : ℝ := gcon / spd

/-- The loop that forms half angles until BETA is small enough, /repo/palUe2pv.c:172-177: number of halvings and the last PSJ, PSJ2, BETA. -/
noncomputable def ueHalve (n : ℕ) (psj psj2 beta : ℝ) : ℕ × ℝ × ℝ × ℝ :=
  if |beta| > 7 / 10 then ueHalve (n + 1) (psj / 2) (psj2 / 4) (beta / 4) else (n, psj, psj2, beta)
termination_by ⌊|beta| * 2⌋₊
decreasing_by
  rename_i h
  have h4 : |beta / 4| * 2 = |beta| * 2 / 4 := by rw [abs_div, abs_of_pos (by norm_num : (0 : ℝ) < 4)]; ring
  rw [h4]
  have h1 : (1 : ℝ) ≤ |beta| * 2 := by linarith
  generalize |beta| * 2 = x at h1
  have hn : 1 ≤ ⌊x⌋₊ := Nat.le_floor (by simpa using h1)
  have hn' : (1 : ℝ) ≤ (⌊x⌋₊ : ℝ) := by exact_mod_cast hn
  have hx := Nat.lt_floor_add_one x
  rw [Nat.floor_lt (by linarith)]
  linarith

/-- The universal functions S0, S1, S2, S3 and the tolerance that goes with them (/repo/palUe2pv.c:167-206). -/
structure UeFun where
  s0 : ℝ
  s1 : ℝ
  s2 : ℝ
  s3 : ℝ
  tol : ℝ

/-- The nested series, /repo/palUe2pv.c:180-194 (with TOL = TEST of line 197). -/
noncomputable def ueSeries (alpha psj psj2 beta : ℝ) : UeFun :=
  let s3 := psj * psj2 * ((((((beta / 210 + 1) * beta / 156 + 1) * beta / 110 + 1) * beta / 72 + 1) * beta / 42 + 1) * beta / 20 + 1) / 6
  let s2 := psj2 * ((((((beta / 182 + 1) * beta / 132 + 1) * beta / 90 + 1) * beta / 56 + 1) * beta / 30 + 1) * beta / 12 + 1) / 2
  { s0 := 1 + alpha * s2, s1 := psj + alpha * s3, s2 := s2, s3 := s3, tol := 1 / 10 ^ 13 }

/-- The loop that undoes the angle-halving, /repo/palUe2pv.c:198-206. -/
noncomputable def ueUndo : ℕ → ℝ → UeFun → UeFun
  | 0, _, f => f
  | n + 1, psj, f =>
    ueUndo n (psj + psj)
      { s0 := 2 * f.s0 * f.s0 - 1, s1 := 2 * f.s0 * f.s1, s2 := 2 * f.s1 * f.s1, s3 := 2 * (f.s0 * f.s3 + psj * f.s2), tol := f.tol + f.tol }

/-- The universal functions at PSI, /repo/palUe2pv.c:167-206. -/
noncomputable def ueFun (alpha psi : ℝ) : UeFun :=
  let h := ueHalve 0 psi (psi * psi) (alpha * (psi * psi))
  ueUndo h.1 h.2.1 (ueSeries alpha h.2.1 h.2.2.1 h.2.2.2)

/-- FF, the amount by which PSI fails to solve the universal Kepler equation, /repo/palUe2pv.c:209. -/
noncomputable def ueFF (u : Univ) (dt : ℝ) (s : UeFun) : ℝ := u.r0 * s.s1 + u.sigma * s.s2 + u.cm * s.s3 - dt

/-- R, the heliocentric distance according to the universal functions, /repo/palUe2pv.c:210. -/
noncomputable def ueR (u : Univ) (s : UeFun) : ℝ := u.r0 * s.s0 + u.sigma * s.s1 + u.cm * s.s2

/-- How the iteration of palUe2pv ends: a failure status, or the new PSI and the functions and R of the last pass (/repo/palUe2pv.c:161-242). -/
inductive UeEnd where
  | fail (j : ℤ)
  | done (psi : ℝ) (s : UeFun) (r : ℝ)

/-- The iteration, /repo/palUe2pv.c:161-242.  The test `fabs(W) >= TOL` at the head of the C loop (true the first time) is made here after each pass. -/
noncomputable def ueLoop (u : Univ) (dt : ℝ) (nit : ℕ) (psi plast flast : ℝ) : UeEnd :=
  let s := ueFun u.alpha psi
  let ff := ueFF u dt s
  let r := ueR u s
  let flast := if nit = 1 then ff else flast
  if ¬ ff * flast < 0 ∧ r = 0 then .fail (-1)
  else
    let w := if ff * flast < 0 then ff * (plast - psi) / (flast - ff) else ff / r
    if nit > 25 then .fail (-2)
    else if |w| ≥ s.tol then ueLoop u dt (nit + 1) (psi - w) psi ff
    else .done (psi - w) s r
termination_by 27 - nit

/-- `palUe2pv`, /repo/palUe2pv.c:124-263: new elements, state vector, status. -/
noncomputable def palUe2pv (date : ℝ) (u : Univ) (pv : PV) : Option (Univ × PV × ℤ) :=
  if u.r0 = 0 then none
  else
    let psi := u.psi + (date - u.t) * gcon / u.r0
    let dt := (date - u.t0) * gcon
    match ueLoop u dt 1 psi 0 0 with
    | .fail j => some (u, pv, j)
    | .done psi s r =>
      if r = 0 then none
      else
        let w := u.cm * s.s2
        let f := 1 - w / u.r0
        let g := dt - u.cm * s.s3
        let fd := -u.cm * s.s1 / (u.r0 * r)
        let gd := 1 - w / r
        some ({ u with t := date, psi := psi },
          { p := fun i => u.p0 i * f + u.v0 i * g, v := fun i => cd2s * (u.p0 i * fd + u.v0 i * gd) }, 0)

/-- `palPv2ue`, /repo/palPv2ue.c:114-182. -/
noncomputable def palPv2ue (pv : PV) (date pmass : ℝ) (u : Univ) : Univ × ℤ :=
  if pmass < 0 then (u, -1)
  else
    let cm := 1 + pmass
    let x := pv.p 0
    let y := pv.p 1
    let z := pv.p 2
    let xd := pv.v 0 / cd2s
    let yd := pv.v 1 / cd2s
    let zd := pv.v 2 / cd2s
    let r := √(x * x + y * y + z * z)
    let v2 := xd * xd + yd * yd + zd * zd
    let v := √v2
    if r < 1 / 10 ^ 3 then (u, -2)
    else if v < 1 / 10 ^ 3 then (u, -3)
    else
      ({ cm := cm, alpha := v2 - 2 * cm / r, t0 := date, p0 := ![x, y, z], v0 := ![xd, yd, zd], r0 := r, sigma := x * xd + y * yd + z * zd, t := date, psi := 0 }, 0)

/-- SE and CE, sine and cosine of the J2000 mean obliquity, /repo/palEl2ue.c:183-184. -/
noncomputable def obSE : ℝ := 0.3977771559319137
/-- As above (/repo/palEl2ue.c:183-184). -/
noncomputable def obCE : ℝ := 0.9174820620691818

/-- The rotation from the axes of the orbit to the J2000 equator, applied to the vector (x, y, 0), /repo/palEl2ue.c:281-300. -/
noncomputable def orbitToEqu (argph orbinc anode x y : ℝ) : Vec3 :=
  let x1 := x * cos argph - y * sin argph
  let y1 := x * sin argph + y * cos argph
  let z1 := y1 * sin orbinc
  let y2 := y1 * cos orbinc
  let px := x1 * cos anode - y2 * sin anode
  let y3 := x1 * sin anode + y2 * cos anode
  ![px, y3 * obCE - z1 * obSE, y3 * obSE + z1 * obCE]

/-- The elements in the standard form of /repo/palEl2ue.c:207-240: epoch of perihelion, argument of perihelion, perihelion distance, combined mass. -/
noncomputable def elStd (jform : ℤ) (epoch anode perih aorq e aorl dm : ℝ) : ℝ × ℝ × ℝ × ℝ :=
  if jform = 1 then
    let w := dm / gcon
    (epoch - (aorl - perih) / dm, perih - anode, aorq * (1 - e), w * w * aorq * aorq * aorq)
  else if jform = 2 then (epoch - aorl * √(aorq * aorq * aorq) / gcon, perih, aorq * (1 - e), 1)
  else (epoch, perih, aorq, 1)

/-- The local element set UL of /repo/palEl2ue.c:242-333: reference state at perihelion, first approximation to PSI. -/
noncomputable def elPerihelion (date pht argph q cm orbinc anode e : ℝ) : Univ :=
  let alpha := cm * (e - 1) / q
  let phs := √(alpha + 2 * cm / q)
  let dt := (date - pht) * gcon
  let fc := dt / q
  let w := (3 * dt + √(9 * dt * dt + 8 * q * q * q)) ^ ((1 : ℝ) / 3)
  let fp := w - 2 * q / w
  { cm := cm, alpha := alpha, t0 := pht
    p0 := orbitToEqu argph orbinc anode q 0
    v0 := orbitToEqu argph orbinc anode 0 phs
    r0 := q, sigma := 0, t := date, psi := (1 - e) * fc + e * fp }

/-- `palEl2ue`, /repo/palEl2ue.c:178-351.  (The scratch state vector PV is not initialised before palUe2pv, which never reads it; zeros stand for it.) -/
noncomputable def palEl2ue (date : ℝ) (jform : ℤ) (epoch orbinc anode perih aorq e aorl dm : ℝ) (u : Univ) : Option (Univ × ℤ) :=
  if jform < 1 ∨ jform > 3 then some (u, -1)
  else if e < 0 ∨ e > 10 ∨ (e ≥ 1 ∧ jform ≠ 3) then some (u, -2)
  else if aorq ≤ 0 then some (u, -3)
  else if jform = 1 ∧ dm ≤ 0 then some (u, -4)
  else
    let std := elStd jform epoch anode perih aorq e aorl dm
    let cm := std.2.2.2
    let ul := elPerihelion date std.1 std.2.1 std.2.2.1 cm orbinc anode e
    match palUe2pv date ul ⟨fun _ => 0, fun _ => 0⟩ with
    | none => none
    | some (_, pv, j) =>
      if j ≠ 0 then some (u, -5)
      else
        let o := palPv2ue pv date (cm - 1) u
        if o.2 ≠ 0 then some (o.1, -5) else some (o.1, 0)

/-- A set of conventional elements, in the order of the arguments of palPv2el (/repo/palPv2el.c:201-205). -/
structure Elems where
  jform : ℤ
  epoch : ℝ
  orbinc : ℝ
  anode : ℝ
  perih : ℝ
  aorq : ℝ
  e : ℝ
  aorl : ℝ
  dm : ℝ

/-- The orbit quantities of /repo/palPv2el.c:230-320 that do not depend on the form asked for: mu, h (ecliptic), h², 1/a, distance, inclination, node, eccentricity
(with the parabola captured), true anomaly, argument of perihelion. -/
structure OrbitQ where
  gmu : ℝ
  h2 : ℝ
  ar : ℝ
  oi : ℝ
  bigom : ℝ
  ecc : ℝ
  at_ : ℝ
  om : ℝ

/-- Rotation of a vector from the J2000 equator to the ecliptic, /repo/palPv2el.c:235-242. -/
noncomputable def equToEcl (p : Vec3) : Vec3 := ![p 0, p 1 * obCE + p 2 * obSE, -p 1 * obSE + p 2 * obCE]

/-- /repo/palPv2el.c:255-316, from the ecliptic position and velocity (AU, AU/day). -/
noncomputable def orbitQ (p v : Vec3) (pmass : ℝ) : OrbitQ :=
  let x := p 0
  let y := p 1
  let z := p 2
  let xd := v 0
  let yd := v 1
  let zd := v 2
  let r := √(x * x + y * y + z * z)
  let v2 := xd * xd + yd * yd + zd * zd
  let rdv := x * xd + y * yd + z * zd
  let gmu := (1 + pmass) * gcon * gcon
  let hx := y * zd - z * yd
  let hy := z * xd - x * zd
  let hz := x * yd - y * xd
  let hx2py2 := hx * hx + hy * hy
  let h2 := hx2py2 + hz * hz
  let h := √h2
  let oi := atan2 (√hx2py2) hz
  let bigom := if hx ≠ 0 ∨ hy ≠ 0 then atan2 hx (-hy) else 0
  let ar := 2 / r - v2 / gmu
  let ecc := √(max (1 - ar * h2 / gmu) 0)
  let s := h * rdv
  let c := h2 - r * gmu
  let ta := if s ≠ 0 ∨ c ≠ 0 then atan2 s c else 0
  let s := sin bigom
  let c := cos bigom
  let uu := atan2 ((-x * s + y * c) * cos oi + z * sin oi) (x * c + y * s)
  { gmu := gmu, h2 := h2, ar := ar, oi := oi, bigom := bigom, ecc := if |ecc - 1| < 1 / 10 ^ 8 then 1 else ecc, at_ := ta, om := uu - ta }

/-- Mean anomaly and daily motion, zero unless the orbit is an ellipse, /repo/palPv2el.c:334-352. -/
noncomputable def orbitMean (q : OrbitQ) : ℝ × ℝ :=
  if q.ecc < 1 then
    let ae := 2 * atan2 (√(-(q.ecc - 1)) * sin (q.at_ / 2)) (√(q.ecc + 1) * cos (q.at_ / 2))
    (ae - q.ecc * sin ae, √(q.gmu * q.ar * q.ar * q.ar))
  else (0, 0)

/-- Epoch of perihelion, /repo/palPv2el.c:371-392. -/
noncomputable def orbitTp (q : OrbitQ) (date : ℝ) : ℝ :=
  if q.ecc < 1 then date - (orbitMean q).1 / (orbitMean q).2
  else
    let that := sin (q.at_ / 2) / cos (q.at_ / 2)
    if q.ecc = 1 then date - that * (1 + that * that / 3) * √q.h2 * q.h2 / (2 * q.gmu * q.gmu)
    else
      let thhf := √((q.ecc - 1) / (q.ecc + 1)) * that
      let f := log (1 + thhf) - log (1 - thhf)
      date - (q.ecc * sinh f - f) / √(-(q.gmu * q.ar * q.ar * q.ar))

/-- `palPv2el`, /repo/palPv2el.c:201-405: new elements (aorl and dm keep their old values where the C code does not set them) and status.  `none`: division by zero,
either 1/AR for a parabola delivered as jform 1 or 2, or the tangent of half a true anomaly of exactly π. -/
noncomputable def palPv2el (pv : PV) (date pmass : ℝ) (jformr : ℤ) (el : Elems) : Option (Elems × ℤ) :=
  if pmass < 0 then some (el, -1)
  else if jformr < 1 ∨ jformr > 3 then some (el, -2)
  else
    let p := equToEcl pv.p
    let v : Vec3 := fun i => spd * equToEcl pv.v i
    let r := √(p 0 * p 0 + p 1 * p 1 + p 2 * p 2)
    let vm := √(v 0 * v 0 + v 1 * v 1 + v 2 * v 2)
    if r < 1 / 10 ^ 3 ∨ vm < 1 / 10 ^ 8 then some (el, -3)
    else
      let q := orbitQ p v pmass
      let jf := if q.ecc > 1 then 3 else jformr
      if jf ≠ 3 ∧ q.ar = 0 then none
      else if jf = 3 ∧ ¬ q.ecc < 1 ∧ cos (q.at_ / 2) = 0 then none
      else
        let mn := orbitMean q
        let pl := q.bigom + q.om
        some ({ jform := jf
                epoch := if jf ≠ 3 then date else orbitTp q date
                orbinc := q.oi
                anode := eraAnp q.bigom
                perih := if jf = 1 then eraAnp pl else eraAnp q.om
                aorq := if jf ≠ 3 then 1 / q.ar else q.h2 / (q.gmu * (q.ecc + 1))
                e := q.ecc
                aorl := if jf = 1 then eraAnp (pl + mn.1) else if jf = 2 then eraAnp mn.1 else el.aorl
                dm := if jf = 1 then mn.2 else el.dm }, 0)

/-- `palUe2el`, /repo/palUe2el.c:212-234. -/
noncomputable def palUe2el (u : Univ) (jformr : ℤ) (el : Elems) : Option (Elems × ℤ) :=
  palPv2el { p := u.p0, v := fun i => u.v0 i * cd2s } u.t0 (u.cm - 1) jformr el

/-- `palPlanel`, /repo/palPlanel.c:200-220.  (The scratch array u is not initialised before palEl2ue, which never reads it; `u` stands for whatever it holds.) -/
noncomputable def palPlanel (date : ℝ) (jform : ℤ) (epoch orbinc anode perih aorq e aorl dm : ℝ) (u : Univ) (pv : PV) : Option (PV × ℤ) :=
  match palEl2ue date jform epoch orbinc anode perih aorq e aorl dm u with
  | none => none
  | some (u, j) =>
    if j = 0 then
      match palUe2pv date u pv with
      | none => none
      | some (_, pv, j) => some (pv, if j ≠ 0 then -5 else j)
    else some (pv, j)

/-- `palPlanet`, /repo/palPlanet.c:82-99, for the ephemeris `eraPlan94` (date in two parts, planet number; velocity per day; status). -/
noncomputable def palPlanet (plan94 : ℝ → ℝ → ℤ → PV × ℤ) (date : ℝ) (np : ℤ) : PV × ℤ :=
  let o := plan94 rMJD0 date np
  ({ p := o.1.p, v := fun i => o.1.v i / spd }, if o.2 = 2 then -2 else o.2)

/-- `palPlantu`, /repo/palPlantu.c:126-188: RA, Dec, distance and status.  `gst` stands for `palGmst( date - palDt( palEpj(date) ) / PAL__SPD )` and `junk` for what
the uninitialised array vsp happens to hold: the C code goes on to use it after palUe2pv has failed without setting it. -/
noncomputable def palPlantu (T : Theory) (epv00 : ℝ → ℝ → Epv) (gst : ℝ → ℝ) (date elong phi : ℝ) (u : Univ) (junk : PV) : Option (ℝ × ℝ × ℝ × ℤ) :=
  match palUe2pv date u junk with
  | none => none
  | some (_, vsp, j) =>
    let ep := palEpv epv00 date
    let vsg : PV := { p := ep.ph, v := fun i => ep.vh i / spd }
    let rmat := palPrenut T 2000 date
    let gp := eraRxp rmat (fun i => vsp.p i - vsg.p i)
    let gv := eraRxp rmat (fun i => vsp.v i - vsg.v i)
    let vgo := palPvobs phi 0 (gst date + elong)
    let p : Vec3 := fun i => gp i - vgo.1 i
    let v : Vec3 := fun i => gv i - vgo.2 i
    let d := √(p 0 * p 0 + p 1 * p 1 + p 2 * p 2)
    let tl := palCR * d
    let c := eraC2s (fun i => p i - tl * v i)
    some (eraAnp c.1, c.2, d, j)

/-- `palPlante`, /repo/palPlante.c:269-283: the new RA, Dec, distance (old ones `old` if palEl2ue rejects the elements) and status. -/
noncomputable def palPlante (T : Theory) (epv00 : ℝ → ℝ → Epv) (gst : ℝ → ℝ) (date elong phi : ℝ) (jform : ℤ) (epoch orbinc anode perih aorq e aorl dm : ℝ)
    (u : Univ) (junk : PV) (old : ℝ × ℝ × ℝ) : Option (ℝ × ℝ × ℝ × ℤ) :=
  match palEl2ue date jform epoch orbinc anode perih aorq e aorl dm u with
  | none => none
  | some (u, j) => if j = 0 then palPlantu T epv00 gst date elong phi u junk else some (old.1, old.2.1, old.2.2, j)

/-- EQRAU, /repo/palRdplan.c:108-118: equatorial radii (km) of the Sun, Mercury, Venus, the Moon, Mars … Neptune. -/
noncomputable def eqrau (np : ℤ) : ℝ :=
  if np = 0 then 696000 else if np = 1 then 2439.7 else if np = 2 then 6051.9 else if np = 3 then 1738 else if np = 4 then 3397
  else if np = 5 then 71492 else if np = 6 then 60268 else if np = 7 then 25559 else 24764

/-- The geocentric state of the body, true equator and equinox of date, /repo/palRdplan.c:135-197. `dmoon` stands for palDmoon (mean equator and equinox of date). -/
noncomputable def rdplanGeo (T : Theory) (plan94 : ℝ → ℝ → ℤ → PV × ℤ) (dmoon : ℝ → PV) (date : ℝ) (np : ℤ) : PV :=
  let m := dmoon date
  let vgm : PV := { p := eraRxp (palNut T date) m.p, v := eraRxp (palNut T date) m.v }
  if np = 3 then vgm
  else
    let rmat := palPrenut T 2000 date
    let emb := (palPlanet plan94 date 3).1
    let vsg : PV := { p := fun i => eraRxp rmat emb.p i - 0.012150581 * vgm.p i, v := fun i => eraRxp rmat emb.v i - 0.012150581 * vgm.v i }
    if np = 0 then { p := fun i => -vsg.p i, v := fun i => -vsg.v i }
    else
      let pl := (palPlanet plan94 date np).1
      { p := fun i => eraRxp rmat pl.p i - vsg.p i, v := fun i => eraRxp rmat pl.v i - vsg.v i }

/-- `palRdplan`, /repo/palRdplan.c:101-224: RA, Dec, apparent diameter.  `none`: the distance is zero or less than the radius of the body, so that the argument of asin
exceeds one. -/
noncomputable def palRdplan (T : Theory) (plan94 : ℝ → ℝ → ℤ → PV × ℤ) (dmoon : ℝ → PV) (gst : ℝ → ℝ) (date : ℝ) (np : ℤ) (elong phi : ℝ) : Option (ℝ × ℝ × ℝ) :=
  let np := if np < 0 ∨ np > 8 then 0 else np
  let g := rdplanGeo T plan94 dmoon date np
  let vgo := palPvobs phi 0 (gst date + elong)
  let p : Vec3 := fun i => g.p i - vgo.1 i
  let v : Vec3 := fun i => g.v i - vgo.2 i
  let r := √(p 0 * p 0 + p 1 * p 1 + p 2 * p 2)
  let tl := palCR * r
  let c := eraC2s (fun i => p i - tl * v i)
  if r * 1.49597870e8 < eqrau np then none
  else some (eraAnp c.1, c.2, 2 * arcsin (eqrau np / (r * 1.49597870e8)))

end Pal
