import Verif.Model.Map

/-!
# Model of the refraction functions and of the apparent/observed place functions

Over the real numbers.  C `pow` with a positive base is the real power.  The adaptive quadrature of palRefro is modelled as a least fixed point with values in
`Option`: `none` means that the C loop does not terminate (it is proved that this never happens).  A division by zero is not a distinct outcome here; the
denominators that can vanish are the subject of separate theorems.
-/

namespace Pal
open Real

/-- The parameters of the troposphere passed to pal1Atmt, /repo/pal1Atmt.c:103-106. -/
structure AtmT where
  r0 : ℝ
  t0 : ℝ
  alpha : ℝ
  gamm2 : ℝ
  delm2 : ℝ
  c1 : ℝ
  c2 : ℝ
  c3 : ℝ
  c4 : ℝ
  c5 : ℝ
  c6 : ℝ

/-- `pal1Atmt`, /repo/pal1Atmt.c:103-119: temperature, refractive index, r times its rate of change. -/
noncomputable def pal1Atmt (A : AtmT) (r : ℝ) : ℝ × ℝ × ℝ :=
  let t := max (min (A.t0 - A.alpha * (r - A.r0)) 320) 100
  let tt0 := t / A.t0
  let tt0gm2 := tt0 ^ A.gamm2
  let tt0dm2 := tt0 ^ A.delm2
  (t, 1 + (A.c1 * tt0gm2 - (A.c2 - A.c5 / t) * tt0dm2) * tt0, r * (-A.c3 * tt0gm2 + (A.c4 - A.c6 / tt0) * tt0dm2))

/-- `pal1Atms`, /repo/pal1Atms.c:83-94: refractive index, r times its rate of change. -/
noncomputable def pal1Atms (rt tt dnt gamal r : ℝ) : ℝ × ℝ :=
  let b := gamal / tt
  let w := (dnt - 1) * exp (-b * (r - rt))
  (1 + w, -r * b * w)

/-- The saturation vapour pressure, /repo/palRefro.c:258-260. -/
noncomputable def refroPsat (tdkok pmbok : ℝ) : ℝ :=
  let tdc := tdkok - 273.15
  (10 : ℝ) ^ ((0.7859 + 0.03477 * tdc) / (1 + 0.00412 * tdc)) * (1 + pmbok * (4.5e-6 + 6.0e-10 * tdc * tdc))

/-- The denominator of the water vapour pressure, /repo/palRefro.c:262. -/
noncomputable def refroPwoDen (tdkok pmbok rhok : ℝ) : ℝ := 1 - (1 - rhok) * refroPsat tdkok pmbok / pmbok

/-- The water vapour pressure at the observer, /repo/palRefro.c:261-265. -/
noncomputable def refroPwo (tdkok pmbok rhok : ℝ) : ℝ :=
  if pmbok > 0 then rhok * refroPsat tdkok pmbok / refroPwoDen tdkok pmbok rhok else 0

/-- The factor of the refractivity, /repo/palRefro.c:249-253. -/
noncomputable def refroA (wlok : ℝ) : ℝ :=
  let wlsq := wlok * wlok
  if wlok < 100 then (287.6155 + (1.62887 + 0.01360 / wlsq) / wlsq) * 273.15e-6 / 1013.25 else 77.6890e-6

/-- `gamal`, /repo/palRefro.c:248 and 254. -/
noncomputable def refroGamal (hmok phi : ℝ) : ℝ :=
  let gb := 9.784 * (1 - 0.0026 * cos (phi + phi) - 0.00000028 * hmok)
  gb * 28.9644 / 8314.32

/-- The troposphere parameters, /repo/palRefro.c:244-281. -/
noncomputable def refroAtm (hmok tdkok pmbok rhok wlok phi alpha : ℝ) : AtmT :=
  let a := refroA wlok
  let gamma := refroGamal hmok phi / alpha
  let delm2 : ℝ := 18.36 - 2
  let pwo := refroPwo tdkok pmbok rhok
  let w := pwo * (1 - 18.0152 / 28.9644) * gamma / (18.36 - gamma)
  let c1 := a * (pmbok + w) / tdkok
  let c2 := if wlok < 100 then (a * w + 11.2684e-6 * pwo) / tdkok else (a * w + 6.3938e-6 * pwo) / tdkok
  let c5 := if wlok < 100 then 0 else 375463e-6 * pwo / tdkok
  { r0 := 6378120 + hmok
    t0 := tdkok
    alpha := alpha
    gamm2 := gamma - 2
    delm2 := delm2
    c1 := c1
    c2 := c2
    c3 := (gamma - 1) * alpha * c1 / tdkok
    c4 := (18.36 - 1) * alpha * c2 / tdkok
    c5 := c5
    c6 := if wlok < 100 then 0 else c5 * delm2 * alpha / (tdkok * tdkok) }

/-- The refraction integrand, the macro refi, /repo/palRefro.c:226. -/
noncomputable def refi (dn rdndr : ℝ) : ℝ := rdndr / (dn + rdndr)

/-- The search for the distance from the Earth's centre, /repo/palRefro.c:367-383: at most `fuel` more Newton steps from `rg`, stopping when the last step was not
more than one metre. `atm` gives refractive index and r times its derivative. -/
noncomputable def refroNewton (atm : ℝ → ℝ × ℝ) (w : ℝ) : ℕ → ℝ → ℝ → ℝ
  | 0, rg, _ => rg
  | j + 1, rg, dr =>
    if |dr| > 1 then
      let dr' := (rg * (atm rg).1 - w) / ((atm rg).1 + (atm rg).2)
      refroNewton atm w j (rg - dr') dr'
    else rg

/-- One point of the quadrature, /repo/palRefro.c:362-393: the updated distance and the integrand at the zenith distance z. -/
noncomputable def refroNode (atm : ℝ → ℝ × ℝ) (sk0 : ℝ) (z r : ℝ) : ℝ × ℝ :=
  let sz := sin z
  let r' := if sz > 1e-20 then refroNewton atm (sk0 / sz) 4 r 1e6 else r
  (r', refi (atm r').1 (atm r').2)

/-- One pass, /repo/palRefro.c:360-400: `cnt` points starting with number i in steps of n, accumulating odd values (or all values of later passes) in fo and even
values of the first pass in fe.  `node z r` is the point evaluation. -/
noncomputable def refroPass (node : ℝ → ℝ → ℝ × ℝ) (z0 h : ℝ) (n : ℕ) : ℕ → ℕ → ℝ → ℝ → ℝ → ℝ × ℝ
  | 0, _, _, fo, fe => (fo, fe)
  | cnt + 1, i, r, fo, fe =>
    let q := node (z0 + h * i) r
    if n = 1 ∧ i % 2 = 0 then refroPass node z0 h n cnt (i + n) q.1 fo (fe + q.2)
    else refroPass node z0 h n cnt (i + n) q.1 (fo + q.2) fe

/-- The number of iterations of `for (i=1; i<is; i+=n)` for n ∈ {1,2}, /repo/palRefro.c:360. -/
def passCount (is n : ℕ) : ℕ := (is - 1 + n - 1) / n

/-- The adaptive Simpson loop of one segment, /repo/palRefro.c:347-430.  Result: the integral and the final number of strips. -/
noncomputable def refroLoop (node : ℝ → ℝ → ℝ × ℝ) (z0 zrange fb ff rstart tol : ℝ) (is n : ℕ) (refold fo fe : ℝ) : Option (ℝ × ℕ) :=
  let h := zrange / is
  let s := refroPass node z0 h n (passCount is n) 1 rstart fo fe
  let refp := h * (fb + 4 * s.1 + 2 * s.2 + ff) / 3
  if |refp - refold| > tol ∧ is < 16384 then refroLoop node z0 zrange fb ff rstart tol (is + is) 2 refp 0 (s.2 + s.1)
  else some (refp, is)
partial_fixpoint

/-- One segment: 8 strips at first, every point, previous value 1, /repo/palRefro.c:319-346. -/
noncomputable def refroSegment (node : ℝ → ℝ → ℝ × ℝ) (z0 zrange fb ff rstart tol : ℝ) : Option (ℝ × ℕ) :=
  refroLoop node z0 zrange fb ff rstart tol 8 1 1 0 0

/-- The zenith distance from its sine, /repo/palRefro.c:295, 301, 308. -/
noncomputable def refroZd (sine : ℝ) : ℝ := atan2 sine (√(max (1 - sine * sine) 0))

/-- What /repo/palRefro.c:283-309 prepares for the two integrations. -/
structure RefroRay where
  sk0 : ℝ
  zt : ℝ
  zts : ℝ
  zs : ℝ
  f0 : ℝ
  ft : ℝ
  fts : ℝ
  fs : ℝ
  rt : ℝ
  tt : ℝ
  dnt : ℝ

/-- /repo/palRefro.c:283-309. -/
noncomputable def refroRay (A : AtmT) (gamal hmok zobs2 : ℝ) : RefroRay :=
  let o := pal1Atmt A A.r0
  let sk0 := o.2.1 * A.r0 * sin zobs2
  let rt := 6378120 + max 11000 hmok
  let t := pal1Atmt A rt
  let tt := t.1
  let dnt := t.2.1
  let ts := pal1Atms rt tt dnt gamal rt
  let rs : ℝ := 6378120 + 80000
  let s := pal1Atms rt tt dnt gamal rs
  { sk0 := sk0
    zt := refroZd (sk0 / (rt * dnt))
    zts := refroZd (sk0 / (rt * ts.1))
    zs := refroZd (sk0 / (rs * s.1))
    f0 := refi o.2.1 o.2.2
    ft := refi dnt t.2.2
    fts := refi ts.1 ts.2
    fs := refi s.1 s.2
    rt := rt
    tt := tt
    dnt := dnt }

/-- palRefro for arguments already in range, /repo/palRefro.c:244-434 (sign not yet applied). -/
noncomputable def refroCore (zobs2 hmok tdkok pmbok rhok wlok phi alpha tol : ℝ) : Option ℝ :=
  let A := refroAtm hmok tdkok pmbok rhok wlok phi alpha
  let gamal := refroGamal hmok phi
  let q := refroRay A gamal hmok zobs2
  let trop : ℝ → ℝ × ℝ := fun r => (pal1Atmt A r).2
  let strat : ℝ → ℝ × ℝ := fun r => pal1Atms q.rt q.tt q.dnt gamal r
  match refroSegment (refroNode trop q.sk0) zobs2 (q.zt - zobs2) q.f0 q.ft A.r0 tol with
  | none => none
  | some a =>
    match refroSegment (refroNode strat q.sk0) q.zts (q.zs - q.zts) q.fts q.fs q.rt tol with
    | none => none
    | some b => some (a.1 + b.1)

/-- `palRefro`, /repo/palRefro.c:185-437. -/
noncomputable def palRefro (zobs hm tdk pmb rh wl phi tlr eps : ℝ) : Option ℝ :=
  let zobs1 := palDrange zobs
  let zobs2 := min |zobs1| 1.623156204
  let hmok := min (max hm (-1e3)) 80000
  let tdkok := min (max tdk 100) 500
  let pmbok := min (max pmb 0) 10000
  let rhok := min (max rh 0) 1
  let wlok := max wl 0.1
  let alpha := min (max |tlr| 0.001) 0.01
  let tol := min (max |eps| 1e-12) 0.1 / 2
  (refroCore zobs2 hmok tdkok pmbok rhok wlok phi alpha tol).map fun ref => if zobs1 < 0 then -ref else ref

/-- `palRefco`, /repo/palRefco.c:102-120. -/
noncomputable def palRefco (hm tdk pmb rh wl phi tlr eps : ℝ) : Option (ℝ × ℝ) :=
  match palRefro 0.7853981633974483 hm tdk pmb rh wl phi tlr eps, palRefro 1.325817663668033 hm tdk pmb rh wl phi tlr eps with
  | some r1, some r2 => some ((64 * r1 - r2) / 60, (r2 - 4 * r1) / 60)
  | _, _ => none

/-- The high zenith distance formula (degrees of elevation), /repo/palRefz.c:146-154 and 183-185. -/
noncomputable def refzHigh (e : ℝ) : ℝ := (0.55445 + -0.01133 * e + 0.00202 * (e * e)) / (1 + 0.28385 * e + 0.02390 * (e * e))

/-- One Newton correction of palRefz, /repo/palRefz.c:162-170 and 172-179: (zl - zu1 + A tan + B tan³)/(1 + (A + 3B tan²)/cos²). -/
noncomputable def refzStep (zu1 refa refb zl : ℝ) : ℝ :=
  let s := sin zl
  let c := cos zl
  let t := s / c
  let tsq := t * t
  let tcu := t * tsq
  (zl - zu1 + refa * t + refb * tcu) / (1 + (refa + 3 * refb * tsq) / (c * c))

/-- `palRefz`, /repo/palRefz.c:136-191.  In the first Newton step zl = zu1, so the C code leaves the term zl - zu1 out; it is zero. -/
noncomputable def palRefz (zu refa refb : ℝ) : ℝ :=
  let z83 := 83 * (π / 180)
  let ref83 := refzHigh 7
  let zu1 := min zu z83
  let zl := zu1 - refzStep zu1 refa refb zu1
  let ref := zu1 - zl + refzStep zu1 refa refb zl
  let ref :=
    if zu > zu1 then
      let e := 90 - min 93 (zu * (180 / π))
      ref / ref83 * (0.55445 + -0.01133 * e + 0.00202 * (e * e)) / (1 + 0.28385 * e + 0.02390 * (e * e))
    else ref
  zu - ref

/-- `palRefv`, /repo/palRefv.c:129-155. -/
noncomputable def palRefv (vu : Vec3) (refa refb : ℝ) : Vec3 :=
  let x := vu 0
  let y := vu 1
  let z1 := vu 2
  let z := max z1 0.05
  let zsq := z * z
  let rsq := x * x + y * y
  let r := √rsq
  let wb := refb * rsq / zsq
  let wt := (refa + wb) / (1 + (refa + 3 * wb) * (zsq + rsq) / zsq)
  let d := wt * r / z
  let cd := 1 - d * d / 2
  let f := cd * (1 - wt)
  ![x * f, y * f, cd * (z + d * r) + (z1 - z)]

/-- The refractivity at the observer as palAtmdsp computes it, /repo/palAtmdsp.c:144-164. -/
noncomputable def atmdspDn (tdk pmb rh wl : ℝ) : ℝ :=
  let tdkok := min (max tdk 100) 500
  let pmbok := min (max pmb 0) 10000
  let rhok := min (max rh 0) 1
  let psat := (10 : ℝ) ^ (-8.7115 + 0.03477 * tdkok)
  let pwo := rhok * psat
  let w1 := 11.2684e-6 * pwo
  let wlok := max wl 0.1
  let wlsq := wlok * wlok
  let w2 := 77.5317e-6 + (0.43909e-6 + 0.00367e-6 / wlsq) / wlsq
  (w2 * pmbok - w1) / tdkok

/-- `palAtmdsp`, /repo/palAtmdsp.c:129-180. -/
noncomputable def palAtmdsp (tdk pmb rh wl1 a1 b1 wl2 : ℝ) : ℝ × ℝ :=
  if wl1 > 100 ∨ wl2 > 100 then (a1, b1)
  else
    let dn1 := atmdspDn tdk pmb rh wl1
    let dn2 := atmdspDn tdk pmb rh wl2
    if dn1 ≠ 0 then
      let f := dn2 / dn1
      let b2 := b1 * f
      (a1 * f, if dn1 ≠ a1 then b2 * (1 + dn1 * (dn1 - dn2) / (2 * (dn1 - a1))) else b2)
    else (a1, b1)

end Pal
