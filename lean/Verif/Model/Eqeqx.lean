import Verif.Model.Prec06
import Verif.Model.Gmst

/-!
# The equation of the equinoxes: palEqeqx

A wrapper of `eraEe06a`, modelled from the published definitions of ERFA's `ee06a.c`, `gst06a.c`, `gst06.c`, `bpn2xy.c`, `s06.c` and `eors.c`.
The nutation series (`eraNut06a`) and the periodic terms of `eraS06` stay parameters.
-/

namespace Pal
open Real

/-- `eraS06`, called through `eraEe06a` by /repo/palOne2One.c:1243: the locator s of the celestial intermediate origin.  `per` is the sum of the periodic terms
(arcseconds, all powers of t together); the polynomial part is ERFA's `sp[]`. -/
noncomputable def eraS06 (per : ℝ → ℝ) (d1 d2 x y : ℝ) : ℝ :=
  let t := cent06 d1 d2
  (94.00e-6 + (3808.65e-6 + (-122.68e-6 + (-72574.11e-6 + (27.98e-6 + 15.62e-6 * t) * t) * t) * t) * t + per t) * das2r - x * y / 2

/-- `eraEors`, called through `eraEe06a` by /repo/palOne2One.c:1243: the equation of the origins. -/
noncomputable def eraEors (r : Mat3) (s : ℝ) : ℝ :=
  let x := r 2 0
  let ax := x / (1 + r 2 2)
  let xs := 1 - ax * x
  let ys := -ax * r 2 1
  let zs := -x
  let p := r 0 0 * xs + r 0 1 * ys + r 0 2 * zs
  let q := r 1 0 * xs + r 1 1 * ys + r 1 2 * zs
  if p ≠ 0 ∨ q ≠ 0 then s - atan2 q p else s

/-- `eraGst06` (with `eraBpn2xy`), called through `eraEe06a` by /repo/palOne2One.c:1243. -/
noncomputable def eraGst06 (per : ℝ → ℝ) (uta utb tta ttb : ℝ) (r : Mat3) : ℝ :=
  let x := r 2 0
  let y := r 2 1
  let s := eraS06 per tta ttb x y
  let era := eraEra00 uta utb
  let eors := eraEors r s
  eraAnp (era - eors)

/-- `eraGst06a`, called through `eraEe06a` by /repo/palOne2One.c:1243. -/
noncomputable def eraGst06a (nut : ℝ → ℝ → ℝ × ℝ) (per : ℝ → ℝ) (uta utb tta ttb : ℝ) : ℝ :=
  eraGst06 per uta utb tta ttb (eraPnm06a nut tta ttb)

/-- `eraEe06a`, called by /repo/palOne2One.c:1243. -/
noncomputable def eraEe06a (nut : ℝ → ℝ → ℝ × ℝ) (per : ℝ → ℝ) (d1 d2 : ℝ) : ℝ :=
  eraAnpm (eraGst06a nut per 0 0 d1 d2 - eraGmst06 0 0 d1 d2)

/-- `palEqeqx`, /repo/palOne2One.c:1242-1244. -/
noncomputable def palEqeqx (nut : ℝ → ℝ → ℝ × ℝ) (per : ℝ → ℝ) (date : ℝ) : ℝ := eraEe06a nut per rMJD0 date

end Pal
