import Verif.Model.FlSphere
import Verif.Model.FlAngle

/-!
# Radial distortion in double precision
-/

namespace Pal

/-- `palPcd`, /repo/palPcd.c:98-104. -/
noncomputable def flPcd (fl : ℝ → ℝ) (disco x y : ℝ) : ℝ × ℝ :=
  let f := fl (1 + fl (disco * fl (fl (x * x) + fl (y * y))))
  (fl (x * f), fl (y * f))

/-- `copysign(pow(fabs(w),THIRD),w)`, /repo/palUnpcd.c:142,144, with `pw` the library's pow and THIRD the constant 1.0/3.0 of line 121 (the sign of a zero is irrelevant). -/
noncomputable def flCbrt (fl : ℝ → ℝ) (pw : ℝ → ℝ → ℝ) (w : ℝ) : ℝ := if w < 0 then -pw |w| (fl (1 / 3)) else pw |w| (fl (1 / 3))

/-- Choice of the solution that moves the point least, /repo/palUnpcd.c:161-168. -/
noncomputable def flPick (fl : ℝ → ℝ) (rp f1 f2 f3 : ℝ) : ℝ :=
  let w1 := |fl (f1 - rp)|
  let w2 := |fl (f2 - rp)|
  let w3 := |fl (f3 - rp)|
  if w1 < w2 then (if w1 < w3 then f1 else f3) else (if w2 < w3 then f2 else f3)

/-- `palUnpcd`, /repo/palUnpcd.c:119-176; `pw` is the library's pow. -/
noncomputable def flUnpcd (fl : ℝ → ℝ) (L : Libm) (pw : ℝ → ℝ → ℝ) (disco x y : ℝ) : ℝ × ℝ :=
  let rp := fl (√(fl (fl (x * x) + fl (y * y))))
  if rp ≠ 0 ∧ disco ≠ 0 then
    let q := fl (1 / fl (3 * disco))
    let r := fl (rp / fl (2 * disco))
    let w := fl (fl (fl (q * q) * q) + fl (r * r))
    let f :=
      if w > 0 then
        let d := fl (√w)
        fl (flCbrt fl pw (fl (r + d)) + flCbrt fl pw (fl (r - d)))
      else
        let w := fl (2 / fl (√(fl (-3 * disco))))
        let c := fl (fl (4 * rp) / fl (fl (fl (disco * w) * w) * w))
        let c2 := fl (c * c)
        let s := fl (√(fl (1 - min c2 1)))
        let t3 := L.atan2 s c
        flPick fl rp (fl (w * L.cos (fl (fl (flPal2PI fl - t3) / 3)))) (fl (w * L.cos (fl (t3 / 3)))) (fl (w * L.cos (fl (fl (flPal2PI fl + t3) / 3))))
    let f := fl (f / rp)
    (fl (x * f), fl (y * f))
  else (x, y)

/-- A pow that is good to one unit in the last place for the exponent used (pow of the C library, called at /repo/palUnpcd.c:142-144). -/
def PowOK (pw : ℝ → ℝ → ℝ) : Prop := ∀ x y : ℝ, 0 ≤ x → |pw x y - x ^ y| ≤ 2.3e-16 * x ^ y

end Pal
