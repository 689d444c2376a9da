import Verif.Model.FlPcd
import Verif.Model.Dat

/-!
# Julian date to calendar date, and the leap-second table, in double precision

`eraJd2cal` and `eraDat` follow ERFA's published source (ERFA is not in /repo), with the compensated summation of `eraJd2cal` written out and every operation rounded.
-/

namespace Pal

/-- `ERFA_DNINT` (ERFA, used by `eraJd2cal`, called at /repo/palOne2One.c:530). -/
noncomputable def flDnint (fl : ℝ → ℝ) (a : ℝ) : ℤ :=
  if |a| < 0.5 then 0 else if a < 0 then ⌈fl (a - 0.5)⌉ else ⌊fl (a + 0.5)⌋

/-- The running state of the summation in `eraJd2cal`: day number, sum and compensation (called at /repo/palOne2One.c:530). -/
structure JdSum where
  jd : ℤ
  s : ℝ
  cs : ℝ

/-- One turn of the loop of `eraJd2cal` (called at /repo/palOne2One.c:530). -/
noncomputable def flJdStep (fl : ℝ → ℝ) (u : JdSum) (x : ℝ) : JdSum :=
  let t := fl (u.s + x)
  let cs := fl (u.cs + if |u.s| ≥ |x| then fl (fl (u.s - t) + x) else fl (fl (x - t) + u.s))
  if t ≥ 1 then ⟨u.jd + 1, fl (t - 1), cs⟩ else ⟨u.jd, t, cs⟩

/-- "Deal with negative f" of `eraJd2cal` (called at /repo/palOne2One.c:530). -/
noncomputable def flJdNeg (fl : ℝ → ℝ) (f : ℝ) (w : JdSum) : ℝ × JdSum :=
  if f < 0 then
    let s := fl (w.s + 1)
    let cs := fl (w.cs + fl (fl (1 - s) + w.s))
    let f := fl (s + cs)
    (f, ⟨w.jd - 1, s, fl (f - s)⟩)
  else (f, w)

/-- "Deal with f that is 1.0 or more" of `eraJd2cal` (DBL_EPSILON is 2⁻⁵²) (called at /repo/palOne2One.c:530). -/
noncomputable def flJdOne (fl : ℝ → ℝ) (f : ℝ) (w : JdSum) : ℤ × ℝ :=
  if fl (f - 1) ≥ -(1 / 2 ^ 54) then
    let t := fl (w.s - 1)
    let cs := fl (w.cs + fl (fl (w.s - t) - 1))
    let f := fl (t + cs)
    if -(1 / 2 ^ 53) < f then (w.jd + 1, max f 0) else (w.jd, f)
  else (w.jd, f)

/-- Julian day number and fraction from noon-less midnight, as computed by `eraJd2cal` (called at /repo/palOne2One.c:530, /repo/palDjcal.c:84, /repo/palDat.c:90). -/
noncomputable def flJd2day (fl : ℝ → ℝ) (dj1 dj2 : ℝ) : ℤ × ℝ :=
  let d1 := flDnint fl dj1
  let f1 := fl (dj1 - d1)
  let d2 := flDnint fl dj2
  let f2 := fl (dj2 - d2)
  let u := flJdStep fl (flJdStep fl ⟨d1 + d2, 0.5, 0⟩ f1) f2
  let f := fl (u.s + u.cs)
  let v := flJdNeg fl f ⟨u.jd, u.s, fl (f - u.s)⟩
  flJdOne fl v.1 v.2

/-- `eraJd2cal` (called at /repo/palOne2One.c:530, /repo/palDjcal.c:84, /repo/palDat.c:90): year, month, day and fraction; `none` is status -1. -/
noncomputable def flJd2cal (fl : ℝ → ℝ) (dj1 dj2 : ℝ) : Option (ℤ × ℤ × ℤ × ℝ) :=
  let dj := fl (dj1 + dj2)
  if dj < -68569.5 ∨ 1000000000 < dj then none
  else
    let r := flJd2day fl dj1 dj2
    let c := eraJdnCal r.1
    some (c.1, c.2.1, c.2.2, r.2)

/-- `palDjcl`, /repo/palOne2One.c:529-531, with `PAL__MJD0` of /repo/palmac.h:96. -/
noncomputable def flDjcl (fl : ℝ → ℝ) (djm : ℝ) : Option (ℤ × ℤ × ℤ × ℝ) := flJd2cal fl 2400000.5 djm

/-- `DNINT`, /repo/palmac.h:123 (unlike ERFA's macro it has no special case near zero). -/
noncomputable def flPalDnint (fl : ℝ → ℝ) (a : ℝ) : ℤ := if a < 0 then ⌈fl (a - 0.5)⌉ else ⌊fl (a + 0.5)⌋

/-- `palDjcal`, /repo/palDjcal.c:80-97: the four elements of `iymdf`; `none` is status -1.  `pw` is the library's pow. -/
noncomputable def flDjcal (fl : ℝ → ℝ) (pw : ℝ → ℝ → ℝ) (ndp : ℤ) (djm : ℝ) : Option (ℤ × ℤ × ℤ × ℤ) :=
  (flJd2cal fl 2400000.5 djm).map fun c => (c.1, c.2.1, c.2.2.1, flPalDnint fl (fl (c.2.2.2 * pw 10 ndp)))

/-- `eraDat` (ERFA, called at /repo/palDat.c:93); the entries of its tables are rounded to doubles by the compiler. -/
noncomputable def flEraDat (fl : ℝ → ℝ) (iy im id : ℤ) (fd : ℝ) : ℝ :=
  if fd < 0 ∨ 1 < fd then 0
  else
    let r := eraCal2jd iy im id 0
    if r.1 < 0 then 0
    else if iy < 1960 then 0
    else
      match eraDatSearch (12 * iy + im) eraDatChanges.length with
      | none => 0
      | some i =>
        let da := fl ((eraDatChanges.getD i (0, 0, 0)).2.2 : ℝ)
        if i < eraDatDrift.length then
          let d := eraDatDrift.getD i (0, 0)
          fl (da + fl (fl (fl ((r.2 : ℝ) + fd) - fl (d.1 : ℝ)) * fl (d.2 : ℝ)))
        else da

/-- `palDat`, /repo/palDat.c:82-95 (`none`: the date conversion failed and `eraDat` is called with uninitialised arguments). -/
noncomputable def flDat (fl : ℝ → ℝ) (dju : ℝ) : Option ℝ := (flJd2cal fl 2400000.5 dju).map fun c => flEraDat fl c.1 c.2.1 c.2.2.1 c.2.2.2

/-- `palDtt`, /repo/palDtt.c:75-77. -/
noncomputable def flDtt (fl : ℝ → ℝ) (utc : ℝ) : Option ℝ := (flDat fl utc).map fun d => fl (fl 32.184 + d)

end Pal
