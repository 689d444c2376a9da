import Verif.Model.FlRot

/-!
# palDm2av in double precision
-/

namespace Pal

/-- `eraRm2v`, wrapped by palDm2av, /repo/palOne2One.c:486-488, in double precision. -/
noncomputable def flRm2v (fl : ℝ → ℝ) (L : Libm) (r : Mat3) : Vec3 :=
  let x := fl (r 1 2 - r 2 1)
  let y := fl (r 2 0 - r 0 2)
  let z := fl (r 0 1 - r 1 0)
  let s2 := fl (√(fl (fl (fl (x * x) + fl (y * y)) + fl (z * z))))
  if s2 > 0 then
    let c2 := fl (fl (fl (r 0 0 + r 1 1) + r 2 2) - 1)
    let phi := L.atan2 s2 c2
    let f := fl (phi / s2)
    ![fl (x * f), fl (y * f), fl (z * f)]
  else ![0, 0, 0]

end Pal
