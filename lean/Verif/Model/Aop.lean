import Verif.Model.Refr
import Verif.Model.Map

/-!
# Model of the apparent/observed place functions palAop, palOap, palAoppa, palAoppat, palAopqk and palOapqk

The 14-element parameter array is a structure.  The equation of the equinoxes is a parameter here; `pal__Eqeqx` with the 194-term series `pal__Nutc` is modelled in Model/Nutc.lean.
`none` stands for "no result"; it can only come from palRefro, which always delivers one (C52).
-/

namespace Pal
open Real

/-- The parameter array aoprms[14], /repo/palAopqk.c:27-40: elements [0] … [13] in this order. -/
structure Aoprms where
  phi : ℝ
  sphi : ℝ
  cphi : ℝ
  diurab : ℝ
  hm : ℝ
  tdk : ℝ
  pmb : ℝ
  rh : ℝ
  wl : ℝ
  tlr : ℝ
  refa : ℝ
  refb : ℝ
  plon : ℝ
  st : ℝ

/-- `PAL__DS2R`, /repo/palmac.h:93. -/
noncomputable def ds2r : ℝ := 2 * π / 86400

/-- `pal__Gmst`, /repo/palAoppat.c:89-103. -/
noncomputable def aopGmst (ut1 : ℝ) : ℝ :=
  let tu := (ut1 - 51544.5) / 36525
  palDranrm (fmod ut1 1 * (2 * π) + (24110.54841 + (8640184.812866 + (0.093104 - 6.2e-6 * tu) * tu) * tu) * ds2r)

/-- `palAoppat`, /repo/palAoppat.c:78-80. -/
noncomputable def palAoppat (date : ℝ) (p : Aoprms) : Aoprms := { p with st := aopGmst date + p.plon }

/-- `pal__Geoc`, /repo/palAoppa.c:228-250: distance from the axis and from the equator (AU). -/
noncomputable def aopGeoc (p h : ℝ) : ℝ × ℝ :=
  let a0 : ℝ := 6378140
  let f : ℝ := 1 / 298.257
  let au : ℝ := 1.49597870e11
  let b := (1 - f) ^ 2
  let sp := sin p
  let cp := cos p
  let c := 1 / √(cp * cp + b * sp * sp)
  let s := b * c
  ((a0 * c + h) * cp / au, (a0 * s + h) * sp / au)

/-- The site corrected for polar motion, /repo/palAoppa.c:184-196: longitude and latitude. -/
noncomputable def aopSite (elongm phim xp yp : ℝ) : ℝ × ℝ :=
  let cphim := cos phim
  let xt := cos elongm * cphim
  let yt := sin elongm * cphim
  let zt := sin phim
  let xc := xt - xp * zt
  let yc := yt + yp * zt
  let zc := xp * xt - yp * yt + zt
  (if xc = 0 ∧ yc = 0 then 0 else atan2 yc xc, atan2 zc (√(xc * xc + yc * yc)))

/-- `palAoppa`, /repo/palAoppa.c:172-222. -/
noncomputable def palAoppa (eqeqx : ℝ → ℝ) (date dut elongm phim hm xp yp tdk pmb rh wl tlr : ℝ) : Option Aoprms :=
  let cLight : ℝ := 173.14463331
  let solsid : ℝ := 1.0027379093
  let site := aopSite elongm phim xp yp
  let elong := site.1
  let phi := site.2
  let uau := (aopGeoc phi hm).1
  match palRefco hm tdk pmb rh wl phi tlr 1e-10 with
  | none => none
  | some (a, b) =>
    some (palAoppat date
      { phi := phi, sphi := sin phi, cphi := cos phi, diurab := 2 * π * uau * solsid / cLight, hm := hm, tdk := tdk, pmb := pmb, rh := rh, wl := wl, tlr := tlr,
        refa := a, refb := b, plon := elong + eqeqx date + dut * solsid * ds2r, st := 0 })

/-- `zbreak`, /repo/palAopqk.c:186 and /repo/palOapqk.c:156. -/
noncomputable def zbreak : ℝ := 0.242535625

/-- The call of palRefro made in /repo/palAopqk.c:249-251 and /repo/palOapqk.c:236-237. -/
noncomputable def aopRefro (p : Aoprms) (z : ℝ) : Option ℝ := palRefro z p.hm p.tdk p.pmb p.rh p.wl p.phi p.tlr 1e-8

/-- The loop of /repo/palAopqk.c:243-261, with the number of iterations still allowed (10 at the start, when dzd = 10 lets the first pass happen): solve z + refraction(z) = zdt
by fixed-point iteration. -/
noncomputable def aopLoop (ref : ℝ → Option ℝ) (zdt : ℝ) : ℕ → ℝ → Option ℝ
  | 0, z => some z
  | n + 1, z =>
    match ref z with
    | none => none
    | some dref =>
      let dzd := z + dref - zdt
      let z := z - dzd
      if |dzd| > 1 / 10 ^ 10 then aopLoop ref zdt n z else some z

/-- The topocentric azimuth and zenith distance before refraction, /repo/palAopqk.c:194-227. -/
noncomputable def aopTopo (rap dap : ℝ) (p : Aoprms) : ℝ × ℝ :=
  let v := palDcs2c (rap - p.st) dap
  let xhd := v 0
  let yhd := v 1
  let zhd := v 2
  let f := 1 - p.diurab * yhd
  let xhdt := f * xhd
  let yhdt := f * (yhd + p.diurab)
  let zhdt := f * zhd
  let xaet := p.sphi * xhdt - p.cphi * zhdt
  let yaet := yhdt
  let zaet := p.cphi * xhdt + p.sphi * zhdt
  (if xaet = 0 ∧ yaet = 0 then 0 else atan2 yaet (-xaet), atan2 (√(xaet * xaet + yaet * yaet)) zaet)

/-- The observed zenith distance belonging to a topocentric one, /repo/palAopqk.c:229-262. -/
noncomputable def aopRefract (p : Aoprms) (zdt : ℝ) : Option ℝ :=
  let zdobs := palRefz zdt p.refa p.refb
  if cos zdobs < zbreak then aopLoop (aopRefro p) zdt 10 zdobs else some zdobs

/-- Results of palAopqk, /repo/palAopqk.c:281-286. -/
structure Observed where
  aob : ℝ
  zob : ℝ
  hob : ℝ
  dob : ℝ
  rob : ℝ

/-- `palAopqk`, /repo/palAopqk.c:179-288. -/
noncomputable def palAopqk (rap dap : ℝ) (p : Aoprms) : Option Observed :=
  let t := aopTopo rap dap p
  let azobs := t.1
  match aopRefract p t.2 with
  | none => none
  | some zdobs =>
    let ce := sin zdobs
    let xaeo := -cos azobs * ce
    let yaeo := sin azobs * ce
    let zaeo := cos zdobs
    let v : Vec3 := ![p.sphi * xaeo + p.cphi * zaeo, yaeo, -p.cphi * xaeo + p.sphi * zaeo]
    let s := palDcc2s v
    some { aob := azobs, zob := zdobs, hob := -s.1, dob := s.2, rob := palDranrm (p.st + s.1) }

/-- Kinds of coordinates of palOapqk (/repo/palOapqk.c:163-184). -/
inductive ObType where
  | r | h | a
  deriving DecidableEq

/-- Standardisation of the type, /repo/palOapqk.c:163-184; only the first character counts, `none` is the empty string. -/
def obType (c : Option Char) : ObType :=
  if c = some 'r' ∨ c = some 'R' then .r else if c = some 'h' ∨ c = some 'H' then .h else .a

/-- The observed direction in the frame (south, east, up), /repo/palOapqk.c:186-209. -/
noncomputable def oapVector (ty : ObType) (ob1 ob2 : ℝ) (p : Aoprms) : Vec3 :=
  match ty with
  | .a => ![-cos ob1 * sin ob2, sin ob1 * sin ob2, cos ob2]
  | ty =>
    let c1 := if ty = .r then p.st - ob1 else ob1
    let v := palDcs2c (-c1) ob2
    ![p.sphi * v 0 - p.cphi * v 2, v 1, p.cphi * v 0 + p.sphi * v 2]

/-- The refraction to remove, /repo/palOapqk.c:226-238, from the sine and cosine of the observed zenith distance and the zenith distance itself. -/
noncomputable def oapRefr (p : Aoprms) (sz zaeo zdo : ℝ) : Option ℝ :=
  if zaeo ≥ zbreak then
    let tz := sz / zaeo
    some ((p.refa + p.refb * tz * tz) * tz)
  else aopRefro p zdo

/-- `palOapqk`, /repo/palOapqk.c:150-266. -/
noncomputable def palOapqk (type : List Char) (ob1 ob2 : ℝ) (p : Aoprms) : Option (ℝ × ℝ) :=
  let o := oapVector (obType type.head?) ob1 ob2 p
  let xaeo := o 0
  let yaeo := o 1
  let zaeo := o 2
  let az := if xaeo ≠ 0 ∨ yaeo ≠ 0 then atan2 yaeo xaeo else 0
  let sz := √(xaeo * xaeo + yaeo * yaeo)
  let zdo := atan2 sz zaeo
  match oapRefr p sz zaeo zdo with
  | none => none
  | some dref =>
    let zdt := zdo + dref
    let ce := sin zdt
    let xaet := cos az * ce
    let yaet := sin az * ce
    let zaet := cos zdt
    let xmhda := p.sphi * xaet + p.cphi * zaet
    let ymhda := yaet
    let zmhda := -p.cphi * xaet + p.sphi * zaet
    let diurab := -p.diurab
    let f := 1 - diurab * ymhda
    let v : Vec3 := ![f * xmhda, f * (ymhda + diurab), f * zmhda]
    let s := palDcc2s v
    some (palDranrm (p.st + s.1), s.2)

/-- `palAop`, /repo/palAop.c:225-238. -/
noncomputable def palAop (eqeqx : ℝ → ℝ) (rap dap date dut elongm phim hm xp yp tdk pmb rh wl tlr : ℝ) : Option Observed :=
  match palAoppa eqeqx date dut elongm phim hm xp yp tdk pmb rh wl tlr with
  | none => none
  | some p => palAopqk rap dap p

/-- `palOap`, /repo/palOap.c:222-234. -/
noncomputable def palOap (eqeqx : ℝ → ℝ) (type : List Char) (ob1 ob2 date dut elongm phim hm xp yp tdk pmb rh wl tlr : ℝ) : Option (ℝ × ℝ) :=
  match palAoppa eqeqx date dut elongm phim hm xp yp tdk pmb rh wl tlr with
  | none => none
  | some p => palOapqk type ob1 ob2 p

end Pal
