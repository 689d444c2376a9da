import Verif.Model.FlSmall
import Verif.Model.Refr

/-!
# Refraction of a vector and of a zenith distance in double precision

The operations of palRefv and palRefz (Model/Refr.lean) with a rounding after each, in the order of the C code.
-/

namespace Pal

/-- `palRefv`, /repo/palRefv.c:129-155. -/
noncomputable def flRefv (fl : ℝ → ℝ) (vu : Vec3) (refa refb : ℝ) : Vec3 :=
  let x := vu 0
  let y := vu 1
  let z1 := vu 2
  let z := if z1 > fl 0.05 then z1 else fl 0.05
  let zsq := fl (z * z)
  let rsq := fl (fl (x * x) + fl (y * y))
  let r := fl (√rsq)
  let wb := fl (fl (refb * rsq) / zsq)
  let wt := fl (fl (refa + wb) / fl (1 + fl (fl (fl (refa + fl (3 * wb)) * fl (zsq + rsq)) / zsq)))
  let d := fl (fl (wt * r) / z)
  let cd := fl (1 - fl (fl (d * d) / 2))
  let f := fl (cd * fl (1 - wt))
  ![fl (x * f), fl (y * f), fl (fl (cd * fl (z + fl (d * r))) + fl (z1 - z))]

/-- The fraction in the Newton step of palRefz: `num` over one plus the derivative, /repo/palRefz.c:163-170 and 173-179. -/
noncomputable def flRefzDen (fl : ℝ → ℝ) (refa refb c tsq : ℝ) : ℝ := fl (1 + fl (fl (refa + fl (fl (3 * refb) * tsq)) / fl (c * c)))

/-- The refracted zenith distance after the first step of palRefz, /repo/palRefz.c:162-170. -/
noncomputable def flRefzFirst (fl : ℝ → ℝ) (L : Libm) (zu1 refa refb : ℝ) : ℝ :=
  let s := L.sin zu1
  let c := L.cos zu1
  let t := fl (s / c)
  let tsq := fl (t * t)
  let tcu := fl (t * tsq)
  fl (zu1 - fl (fl (fl (refa * t) + fl (refb * tcu)) / flRefzDen fl refa refb c tsq))

/-- The refraction after the second step of palRefz, /repo/palRefz.c:172-179. -/
noncomputable def flRefzSecond (fl : ℝ → ℝ) (L : Libm) (zu1 refa refb zl : ℝ) : ℝ :=
  let s := L.sin zl
  let c := L.cos zl
  let t := fl (s / c)
  let tsq := fl (t * t)
  let tcu := fl (t * tsq)
  fl (fl (zu1 - zl) + fl (fl (fl (fl (zl - zu1) + fl (refa * t)) + fl (refb * tcu)) / flRefzDen fl refa refb c tsq))

/-- PAL__DR2D as stored, /repo/palmac.h:81. -/
noncomputable def flDr2d (fl : ℝ → ℝ) : ℝ := fl 57.295779513082320876798154814105170332405472466564

/-- `REF83` as computed, /repo/palRefz.c:146-154. -/
noncomputable def flRef83 (fl : ℝ → ℝ) : ℝ :=
  fl (fl (fl (fl 0.55445 + fl (-fl 0.01133 * 7)) + fl (fl 0.00202 * 49)) / fl (fl (1 + fl (fl 0.28385 * 7)) + fl (fl 0.02390 * 49)))

/-- `palRefz`, /repo/palRefz.c:136-191. -/
noncomputable def flRefz (fl : ℝ → ℝ) (L : Libm) (zu refa refb : ℝ) : ℝ :=
  let z83 := fl (83 * flDd2r fl)
  let zu1 := if zu < z83 then zu else z83
  let ref := flRefzSecond fl L zu1 refa refb (flRefzFirst fl L zu1 refa refb)
  let ref :=
    if zu > zu1 then
      let zd := fl (zu * flDr2d fl)
      let e := fl (90 - if 93 < zd then 93 else zd)
      let e2 := fl (e * e)
      fl (fl (fl (ref / flRef83 fl) * fl (fl (fl 0.55445 + fl (-fl 0.01133 * e)) + fl (fl 0.00202 * e2))) / fl (fl (1 + fl (fl 0.28385 * e)) + fl (fl 0.02390 * e2)))
    else ref
  fl (zu - ref)

end Pal
