import Verif.Model.FlNut
import Verif.Model.FlGmst
import Verif.Model.FlSphere
import Verif.Model.Eqeqx

/-!
# The equation of the equinoxes in double precision

The operations of `palEqeqx` (Model/Eqeqx.lean) with a rounding after each, in the order of the C code of ERFA.  The numbers returned by `eraNut06a`, and the number (arcseconds) that `eraS06` obtains from its polynomial and periodic terms, stay parameters.
-/

namespace Pal

/-- `eraS06`, called through `eraEe06a` by /repo/palOne2One.c:1243; `ser` is the sum of its polynomial and periodic terms (arcseconds), as computed. -/
noncomputable def flS06 (fl : ℝ → ℝ) (ser : ℝ → ℝ → ℝ) (d1 d2 x y : ℝ) : ℝ :=
  fl (fl (ser d1 d2 * flDAS2R fl) - fl (fl (x * y) / 2))

/-- `eraEors`, called through `eraEe06a` by /repo/palOne2One.c:1243 (`nz`: the first argument of atan2 is the negative zero if it is zero). -/
noncomputable def flEors (fl : ℝ → ℝ) (L : Libm) (nz : Bool) (r : Mat3) (s : ℝ) : ℝ :=
  let x := r 2 0
  let ax := fl (x / fl (1 + r 2 2))
  let xs := fl (1 - fl (ax * x))
  let ys := fl (-ax * r 2 1)
  let zs := -x
  let p := fl (fl (fl (r 0 0 * xs) + fl (r 0 1 * ys)) + fl (r 0 2 * zs))
  let q := fl (fl (fl (r 1 0 * xs) + fl (r 1 1 * ys)) + fl (r 1 2 * zs))
  if p ≠ 0 ∨ q ≠ 0 then fl (s - flAtan2 L nz q p) else s

/-- `eraGst06` (with `eraBpn2xy`), called through `eraEe06a` by /repo/palOne2One.c:1243. -/
noncomputable def flGst06 (fl : ℝ → ℝ) (L : Libm) (nz : Bool) (ser : ℝ → ℝ → ℝ) (uta utb tta ttb : ℝ) (r : Mat3) : ℝ :=
  let x := r 2 0
  let y := r 2 1
  let s := flS06 fl ser tta ttb x y
  let era := flEra00 fl uta utb
  let eors := flEors fl L nz r s
  flAnp fl (fl (era - eors))

/-- `eraEe06a`, called by /repo/palOne2One.c:1243. -/
noncomputable def flEe06a (fl : ℝ → ℝ) (L : Libm) (nz : Bool) (nut : ℝ → ℝ → ℝ × ℝ) (ser : ℝ → ℝ → ℝ) (d1 d2 : ℝ) : ℝ :=
  flAnpm fl (fl (flGst06 fl L nz ser 0 0 d1 d2 (flPnm06a fl L nut d1 d2) - flGmst06 fl 0 0 d1 d2))

/-- `palEqeqx`, /repo/palOne2One.c:1242-1244. -/
noncomputable def flEqeqx (fl : ℝ → ℝ) (L : Libm) (nz : Bool) (nut : ℝ → ℝ → ℝ × ℝ) (ser : ℝ → ℝ → ℝ) (date : ℝ) : ℝ := flEe06a fl L nz nut ser 2400000.5 date

end Pal
