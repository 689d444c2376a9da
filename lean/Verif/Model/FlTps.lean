import Verif.Model.FlSphere

/-!
# palDtps2c in double precision
-/

namespace Pal

/-- `palDtps2c`, /repo/palDtps2c.c:106-151, in double precision: number of solutions and, unless it is zero, the two tangent points (otherwise the outputs are not written).
`nz`, `nz1`, `nz2`: whether xi and the two numerators of the declinations are the negative zero if they are zero. -/
noncomputable def flDtps2c (fl : ℝ → ℝ) (L : Libm) (nz nz1 nz2 : Bool) (xi eta ra dec : ℝ) : ℤ × Option ((ℝ × ℝ) × (ℝ × ℝ)) :=
  let x2 := fl (xi * xi)
  let y2 := fl (eta * eta)
  let sd := L.sin dec
  let cd := L.cos dec
  let sdf := fl (sd * fl (√(fl (fl (x2 + 1) + y2))))
  let r2 := fl (fl (fl (cd * cd) * fl (y2 + 1)) - fl (fl (sd * sd) * x2))
  if r2 ≥ 0 then
    let r := fl (√r2)
    let s := fl (sdf - fl (eta * r))
    let c := fl (fl (sdf * eta) + r)
    let r := if xi = 0 ∧ r = 0 then 1 else r
    let raz1 := flAnp fl (fl (ra - flAtan2 L nz xi r))
    let decz1 := flAtan2 L nz1 s c
    let r := -r
    let s := fl (sdf - fl (eta * r))
    let c := fl (fl (sdf * eta) + r)
    let raz2 := flAnp fl (fl (ra - flAtan2 L nz xi r))
    let decz2 := flAtan2 L nz2 s c
    (if |sdf| < 1 then 1 else 2, some ((raz1, decz1), (raz2, decz2)))
  else (0, none)

end Pal
