import Verif.Model.CLib
import Mathlib.Data.Rat.Floor
import Mathlib.Algebra.Order.Floor.Ring

/-!
# Model of the calendar, epoch and time-scale functions

Doubles are modelled by exact rationals.  C's integer division truncates towards zero (`Int.tdiv`, `Int.tmod`).
ERFA is not in /repo: `eraCal2jd`, `eraJd2cal`, `eraEpj`, ... follow ERFA's published source.
-/

namespace Pal

/-- `PAL__MJD0`, /repo/palmac.h:96. -/
def MJD0 : ℚ := 2400000.5

/-- The month-length table of `eraCal2jd` (called at /repo/palOne2One.c:156). -/
def mtab (im : ℤ) : ℤ :=
  if im = 2 then 28 else if im = 4 ∨ im = 6 ∨ im = 9 ∨ im = 11 then 30 else 31

/-- Leap-day correction `ly` of `eraCal2jd` (called at /repo/palOne2One.c:156). -/
def eraLy (iy im : ℤ) : ℤ :=
  if im = 2 ∧ iy.tmod 4 = 0 ∧ (iy.tmod 100 ≠ 0 ∨ iy.tmod 400 = 0) then 1 else 0

/-- Integer MJD formula of `eraCal2jd` (called at /repo/palOne2One.c:156). -/
def eraMjdOf (iy im id : ℤ) : ℤ :=
  let my := (im - 14).tdiv 12
  let iypmy := iy + my
  (1461 * (iypmy + 4800)).tdiv 4 + (367 * (im - 2 - 12 * my)).tdiv 12
    - (3 * ((iypmy + 4900).tdiv 100)).tdiv 4 + id - 2432076

/-- `eraCal2jd` (ERFA, called at /repo/palOne2One.c:156 and /repo/palCaldj.c:98): status and MJD; the MJD keeps its old value `djm`
for status -1 and -2. -/
def eraCal2jd (iy im id : ℤ) (djm : ℚ) : ℤ × ℚ :=
  if iy < -4799 then (-1, djm)
  else if im < 1 ∨ 12 < im then (-2, djm)
  else (if id < 1 ∨ mtab im + eraLy iy im < id then -3 else 0, (eraMjdOf iy im id : ℚ))

/-- `palCldj`, /repo/palOne2One.c:154-157. -/
def palCldj (iy im id : ℤ) (djm : ℚ) : ℤ × ℚ := eraCal2jd iy im id djm

/-- `palCaldj`, /repo/palCaldj.c:87-99. -/
def palCaldj (iy im id : ℤ) (djm : ℚ) : ℤ × ℚ :=
  let adj : ℤ := if 0 ≤ iy ∧ iy ≤ 49 then 2000 else if 50 ≤ iy ∧ iy ≤ 99 then 1900 else 0
  eraCal2jd (iy + adj) im id djm

/-- Integer part of `eraJd2cal`: Julian day number to year, month, day (called at /repo/palOne2One.c:530). -/
def eraJdnCal (jd : ℤ) : ℤ × ℤ × ℤ :=
  let l := jd + 68569
  let n := (4 * l).tdiv 146097
  let l := l - (146097 * n + 3).tdiv 4
  let i := (4000 * (l + 1)).tdiv 1461001
  let l := l - (1461 * i).tdiv 4 + 31
  let k := (80 * l).tdiv 2447
  let id := l - (2447 * k).tdiv 80
  let l := k.tdiv 11
  let im := k + 2 - 12 * l
  let iy := 100 * (n - 49) + i + l
  (iy, im, id)

/-- A calendar date and fraction of day (results of /repo/palOne2One.c:530). -/
structure CalDate where
  iy : ℤ
  im : ℤ
  id : ℤ
  fd : ℚ
  deriving DecidableEq

/-- `eraJd2cal` (ERFA, called at /repo/palOne2One.c:530, /repo/palDjcal.c:84, /repo/palDat.c:90).  Simplification: ERFA's compensated
summation only counters rounding, in exact arithmetic it delivers ⌊JD+½⌋ and the fraction of JD+½.  With status -1 the outputs are unchanged. -/
def eraJd2cal (dj1 dj2 : ℚ) (old : CalDate) : ℤ × CalDate :=
  let dj := dj1 + dj2
  if dj < -68569.5 ∨ 1000000000 < dj then (-1, old)
  else
    let jd := ⌊dj + 1 / 2⌋
    let c := eraJdnCal jd
    (0, ⟨c.1, c.2.1, c.2.2, dj + 1 / 2 - jd⟩)

/-- `palDjcl`, /repo/palOne2One.c:529-531. -/
def palDjcl (djm : ℚ) (old : CalDate) : ℤ × CalDate := eraJd2cal MJD0 djm old

/-- `DNINT`, /repo/palmac.h:123. -/
def dnint (x : ℚ) : ℤ := if x < 0 then ⌈x - 1 / 2⌉ else ⌊x + 1 / 2⌋

/-- `palDjcal`, /repo/palDjcal.c:80-97: status and the four elements of `iymdf`.  `none`: the rounded fraction does not fit an int,
which is undefined behaviour. -/
def palDjcal (ndp : ℤ) (djm : ℚ) (old : ℤ × ℤ × ℤ × ℤ) : Option (ℤ × (ℤ × ℤ × ℤ × ℤ)) :=
  let r := eraJd2cal MJD0 djm ⟨old.1, old.2.1, old.2.2.1, 0⟩
  let v := dnint (r.2.fd * (10 : ℚ) ^ ndp)
  if v < -2147483648 ∨ 2147483647 < v then none
  else some (r.1, (r.2.iy, r.2.im, r.2.id, v))

/-- `eraEpj` (ERFA, called at /repo/palOne2One.c:1170, /repo/palEpco.c:99). -/
def eraEpj (dj1 dj2 : ℚ) : ℚ := 2000 + ((dj1 - 2451545) + dj2) / 365.25

/-- `eraEpj2jd`: second part (the first is 2400000.5) (called at /repo/palOne2One.c:1207). -/
def eraEpj2jd (epj : ℚ) : ℚ × ℚ := (2400000.5, 51544.5 + (epj - 2000) * 365.25)

/-- `eraEpb` (ERFA, called at /repo/palOne2One.c:1092, /repo/palEpco.c:96). -/
def eraEpb (dj1 dj2 : ℚ) : ℚ := 1900 + ((dj1 - 2451545) + (dj2 + 36524.68648)) / 365.242198781

/-- `eraEpb2jd` (called at /repo/palOne2One.c:1131). -/
def eraEpb2jd (epb : ℚ) : ℚ × ℚ := (2400000.5, 15019.81352 + (epb - 1900) * 365.242198781)

/-- `palEpb`, /repo/palOne2One.c:1091-1093. -/
def palEpb (date : ℚ) : ℚ := eraEpb MJD0 date

/-- `palEpb2d`, /repo/palOne2One.c:1129-1133. -/
def palEpb2d (epb : ℚ) : ℚ := (eraEpb2jd epb).2

/-- `palEpj`, /repo/palOne2One.c:1169-1171. -/
def palEpj (date : ℚ) : ℚ := eraEpj MJD0 date

/-- `palEpj2d`, /repo/palOne2One.c:1205-1209. -/
def palEpj2d (epj : ℚ) : ℚ := (eraEpj2jd epj).2

/-- `palEpco`, /repo/palEpco.c:82-102. -/
def palEpco (k0 k : Char) (e : ℚ) : ℚ :=
  let k0 := toUpperC k0
  let k := toUpperC k
  if k = k0 then e
  else if k0 = 'B' then
    let d := eraEpj2jd e
    eraEpb d.1 d.2
  else
    let d := eraEpb2jd e
    eraEpj d.1 d.2

/-- `palDt`, /repo/palDt.c:97-125. -/
def palDt (epoch : ℚ) : ℚ :=
  let t := (epoch - 1800) / 100
  if 1708.185161980887 ≤ epoch then
    let w := t - 0.19
    5.156 + 13.3066 * w * w
  else if 979.0258204760233 ≤ epoch then
    25.5 * t * t
  else
    1360 + (320 + 44.3 * t) * t

/-- `palDat`, /repo/palDat.c:82-95.  `eraDat` is the leap-second table of ERFA (a parameter: year, month, day, fraction to TAI-UTC; its
status is ignored by the code).  `none`: the date conversion failed, so `eraDat` is called with uninitialised arguments. -/
def palDat (eraDat : ℤ → ℤ → ℤ → ℚ → ℚ) (dju : ℚ) : Option ℚ :=
  let r := eraJd2cal MJD0 dju ⟨0, 0, 0, 0⟩
  if r.1 = 0 then some (eraDat r.2.iy r.2.im r.2.id r.2.fd) else none

/-- `palDtt`, /repo/palDtt.c:75-77. -/
def palDtt (eraDat : ℤ → ℤ → ℤ → ℚ → ℚ) (utc : ℚ) : Option ℚ := (palDat eraDat utc).map (32.184 + ·)

end Pal
