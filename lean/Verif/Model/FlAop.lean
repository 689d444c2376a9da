import Verif.Model.FlRefr
import Verif.Model.Aop

/-!
# The quick apparent/observed place functions palAopqk and palOapqk in double precision

The operations of Model/Aop.lean with a rounding after each, in the order of the C code. palRefro, used only near the horizon, is a parameter `refro` here (the zenith distance to the refraction, as the C function delivers it).
`nz1`, `nz2` say that the y component given to the first and second arc tangent is the negative zero if it is zero.
-/

namespace Pal

/-- The topocentric direction in the frame (south, east, up), /repo/palAopqk.c:194-217. -/
noncomputable def flAopAet (fl : ℝ → ℝ) (L : Libm) (rap dap : ℝ) (p : Aoprms) : Vec3 :=
  let v := flS2c fl L (fl (rap - p.st)) dap
  let xhd := v 0
  let yhd := v 1
  let zhd := v 2
  let f := fl (1 - fl (p.diurab * yhd))
  let xhdt := fl (f * xhd)
  let yhdt := fl (f * fl (yhd + p.diurab))
  let zhdt := fl (f * zhd)
  ![fl (fl (p.sphi * xhdt) - fl (p.cphi * zhdt)), yhdt, fl (fl (p.cphi * xhdt) + fl (p.sphi * zhdt))]

/-- Azimuth (from north) and topocentric zenith distance, /repo/palAopqk.c:219-227. -/
noncomputable def flAopTopo (fl : ℝ → ℝ) (L : Libm) (nz : Bool) (rap dap : ℝ) (p : Aoprms) : ℝ × ℝ :=
  let a := flAopAet fl L rap dap p
  (if a 0 = 0 ∧ a 1 = 0 then 0 else flAtan2 L nz (a 1) (-a 0), L.atan2 (fl (√(fl (fl (a 0 * a 0) + fl (a 1 * a 1))))) (a 2))

/-- The loop of /repo/palAopqk.c:243-261, with the number of iterations still allowed. -/
noncomputable def flAopLoop (fl : ℝ → ℝ) (refro : ℝ → ℝ) (zdt : ℝ) : ℕ → ℝ → ℝ
  | 0, z => z
  | n + 1, z =>
    let dzd := fl (fl (z + refro z) - zdt)
    let z := fl (z - dzd)
    if |dzd| > fl (1 / 10 ^ 10) then flAopLoop fl refro zdt n z else z

/-- The observed zenith distance, /repo/palAopqk.c:229-262. -/
noncomputable def flAopRefract (fl : ℝ → ℝ) (L : Libm) (refro : ℝ → ℝ) (p : Aoprms) (zdt : ℝ) : ℝ :=
  let zdobs := flRefz fl L zdt p.refa p.refb
  if L.cos zdobs < fl zbreak then flAopLoop fl refro zdt 10 zdobs else zdobs

/-- From a direction in the frame (south, east, up) to minus hour angle and declination, /repo/palAopqk.c:270-276 and /repo/palOapqk.c:248-251. -/
noncomputable def flAopTurn (fl : ℝ → ℝ) (p : Aoprms) (a : Vec3) : Vec3 :=
  ![fl (fl (p.sphi * a 0) + fl (p.cphi * a 2)), a 1, fl (fl (-p.cphi * a 0) + fl (p.sphi * a 2))]

/-- The observed direction in the frame (south, east, up), /repo/palAopqk.c:264-268. -/
noncomputable def flAopAeo (fl : ℝ → ℝ) (L : Libm) (azobs zdobs : ℝ) : Vec3 :=
  let ce := L.sin zdobs
  ![fl (-L.cos azobs * ce), fl (L.sin azobs * ce), L.cos zdobs]

/-- `palAopqk`, /repo/palAopqk.c:179-288. -/
noncomputable def flAopqk (fl : ℝ → ℝ) (L : Libm) (refro : ℝ → ℝ) (nz1 nz2 : Bool) (rap dap : ℝ) (p : Aoprms) : Observed :=
  let t := flAopTopo fl L nz1 rap dap p
  let azobs := t.1
  let zdobs := flAopRefract fl L refro p t.2
  let s := flC2s fl L nz2 (flAopTurn fl p (flAopAeo fl L azobs zdobs))
  { aob := azobs, zob := zdobs, hob := -s.1, dob := s.2, rob := flDranrm fl (fl (p.st + s.1)) }

/-- The observed direction in the frame (south, east, up), /repo/palOapqk.c:186-209. -/
noncomputable def flOapVector (fl : ℝ → ℝ) (L : Libm) (ty : ObType) (ob1 ob2 : ℝ) (p : Aoprms) : Vec3 :=
  match ty with
  | .a => flAopAeo fl L ob1 ob2
  | ty =>
    let c1 := if ty = .r then fl (p.st - ob1) else ob1
    let v := flS2c fl L (-c1) ob2
    ![fl (fl (p.sphi * v 0) - fl (p.cphi * v 2)), v 1, fl (fl (p.cphi * v 0) + fl (p.sphi * v 2))]

/-- The refraction to remove, /repo/palOapqk.c:226-238. -/
noncomputable def flOapRefr (fl : ℝ → ℝ) (refro : ℝ → ℝ) (p : Aoprms) (sz zaeo zdo : ℝ) : ℝ :=
  if zaeo ≥ fl zbreak then
    let tz := fl (sz / zaeo)
    fl (fl (p.refa + fl (fl (p.refb * tz) * tz)) * tz)
  else refro zdo

/-- `palOapqk`, /repo/palOapqk.c:150-266. -/
noncomputable def flOapqk (fl : ℝ → ℝ) (L : Libm) (refro : ℝ → ℝ) (nz1 nz2 : Bool) (type : List Char) (ob1 ob2 : ℝ) (p : Aoprms) : ℝ × ℝ :=
  let o := flOapVector fl L (obType type.head?) ob1 ob2 p
  let xaeo := o 0
  let yaeo := o 1
  let zaeo := o 2
  let az := if xaeo ≠ 0 ∨ yaeo ≠ 0 then flAtan2 L nz1 yaeo xaeo else 0
  let sz := fl (√(fl (fl (xaeo * xaeo) + fl (yaeo * yaeo))))
  let zdo := L.atan2 sz zaeo
  let zdt := fl (zdo + flOapRefr fl refro p sz zaeo zdo)
  let ce := L.sin zdt
  let m := flAopTurn fl p ![fl (L.cos az * ce), fl (L.sin az * ce), L.cos zdt]
  let diurab := -p.diurab
  let f := fl (1 - fl (diurab * m 1))
  let s := flC2s fl L nz2 ![fl (f * m 0), fl (f * fl (m 1 + diurab)), fl (f * m 2)]
  (flDranrm fl (fl (p.st + s.1)), s.2)

end Pal
