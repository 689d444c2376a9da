import Verif.Model.FlSphere

/-!
# The tangent plane in double precision
-/

namespace Pal

/-- `palDs2tp`, /repo/palDs2tp.c:83-124: xi, eta, status. -/
noncomputable def flDs2tp (fl : ℝ → ℝ) (L : Libm) (ra dec raz decz : ℝ) : ℝ × ℝ × ℤ :=
  let sdecz := L.sin decz
  let sdec := L.sin dec
  let cdecz := L.cos decz
  let cdec := L.cos dec
  let radif := fl (ra - raz)
  let sradif := L.sin radif
  let cradif := L.cos radif
  let denom := fl (fl (sdec * sdecz) + fl (fl (cdec * cdecz) * cradif))
  let jd : ℤ × ℝ :=
    if denom > fl (1 / 10 ^ 6) then (0, denom)
    else if denom ≥ 0 then (1, fl (1 / 10 ^ 6))
    else if denom > -fl (1 / 10 ^ 6) then (2, -fl (1 / 10 ^ 6))
    else (3, denom)
  (fl (fl (cdec * sradif) / jd.2), fl (fl (fl (sdec * cdecz) - fl (fl (cdec * sdecz) * cradif)) / jd.2), jd.1)

/-- `palDtp2s`, /repo/palDtp2s.c:78-95 (`nz`: xi is the negative zero if it is zero). A zero `denom` is a difference of equal numbers, hence the positive zero, and atan2(±0, +0) is ±0. -/
noncomputable def flDtp2s (fl : ℝ → ℝ) (L : Libm) (nz : Bool) (xi eta raz decz : ℝ) : ℝ × ℝ :=
  let sdecz := L.sin decz
  let cdecz := L.cos decz
  let denom := fl (cdecz - fl (eta * sdecz))
  let d := fl ((if xi = 0 ∧ denom = 0 then 0 else flAtan2 L nz xi denom) + raz)
  (flAnp fl d, L.atan2 (fl (sdecz + fl (eta * cdecz))) (fl (√(fl (fl (xi * xi) + fl (denom * denom))))))

end Pal
