import Verif.Model.Erfa

/-!
# Model of angle ranges, horizon coordinates, tangent plane, Euler rotations and the plate decomposition
-/

namespace Pal
open Real

/-- `palDrange`, /repo/palDrange.c:68-76. -/
noncomputable def palDrange (angle : ℝ) : ℝ :=
  let result := fmod angle (2 * π)
  if result > π then result - 2 * π
  else if result < -π then result + 2 * π
  else result

/-- `palRanorm`, /repo/palRanorm.c:66-71 (the single-precision rounding is not modelled). -/
noncomputable def palRanorm (angle : ℝ) : ℝ :=
  let reduced := fmod angle (2 * π)
  if reduced < 0 then reduced + 2 * π else reduced

/-- `palDe2h`, /repo/palDe2h.c:98-142: azimuth and elevation. -/
noncomputable def palDe2h (ha dec phi : ℝ) : ℝ × ℝ :=
  let sh := sin ha
  let ch := cos ha
  let sd := sin dec
  let cd := cos dec
  let sp := sin phi
  let cp := cos phi
  let x := -ch * cd * sp + sd * cp
  let y := -sh * cd
  let z := ch * cd * cp + sd * sp
  let r := √(x * x + y * y)
  let a := if r = 0 then 0 else atan2 y x
  let a := if a < 0 then a + 2 * π else a
  (a, atan2 z r)

/-- `palDh2e`, /repo/palDh2e.c:95-133: hour angle and declination. -/
noncomputable def palDh2e (az el phi : ℝ) : ℝ × ℝ :=
  let sa := sin az
  let ca := cos az
  let se := sin el
  let ce := cos el
  let sp := sin phi
  let cp := cos phi
  let x := -ca * ce * sp + se * cp
  let y := -sa * ce
  let z := ca * ce * cp + se * sp
  let r := √(x * x + y * y)
  (if r = 0 then 0 else atan2 y x, atan2 z r)

/-- `palPa`, /repo/palPa.c:83-91. -/
noncomputable def palPa (ha dec phi : ℝ) : ℝ :=
  let cp := cos phi
  let sqsz := cp * sin ha
  let cqsz := sin phi * cos dec - cp * sin dec * cos ha
  let cqsz := if sqsz = 0 ∧ cqsz = 0 then 1 else cqsz
  atan2 sqsz cqsz

/-- Results of palAltaz, /repo/palAltaz.c:131-135. -/
structure AltazOut where
  az : ℝ
  azd : ℝ
  azdd : ℝ
  el : ℝ
  eld : ℝ
  eldd : ℝ
  pa : ℝ
  pad : ℝ
  padd : ℝ

/-- `palAltaz`, /repo/palAltaz.c:131-200. -/
noncomputable def palAltaz (ha dec phi : ℝ) : AltazOut :=
  let sh := sin ha
  let ch := cos ha
  let sd := sin dec
  let cd := cos dec
  let sp := sin phi
  let cp := cos phi
  let chcd := ch * cd
  let sdcp := sd * cp
  let x := -chcd * sp + sdcp
  let y := -sh * cd
  let z := chcd * cp + sd * sp
  let rsq := x * x + y * y
  let r := √rsq
  let a := if rsq = 0 then 0 else atan2 y x
  let a := if a < 0 then a + 2 * π else a
  let e := atan2 z r
  let c := cd * sp - ch * sdcp
  let s := sh * cp
  let q := if c * c + s * s > 0 then atan2 s c else π - ha
  let rr : ℝ × ℝ := if rsq < 1 / 10 ^ 30 then (1 / 10 ^ 30, √(1 / 10 ^ 30)) else (rsq, r)
  let rsq := rr.1
  let r := rr.2
  let qd := -x * cp / rsq
  let ad := sp + z * qd
  let ed := cp * y / r
  let edr := ed / r
  let add := edr * (z * sp + (2 - rsq) * qd)
  let edd := -r * qd * ad
  let qdd := edr * (sp + 2 * z * qd)
  { az := a, azd := ad, azdd := add, el := e, eld := ed, eldd := edd, pa := q, pad := qd, padd := qdd }

/-- `palDs2tp`, /repo/palDs2tp.c:82-127: xi, eta, status. -/
noncomputable def palDs2tp (ra dec raz decz : ℝ) : ℝ × ℝ × ℤ :=
  let sdecz := sin decz
  let sdec := sin dec
  let cdecz := cos decz
  let cdec := cos dec
  let radif := ra - raz
  let sradif := sin radif
  let cradif := cos radif
  let denom := sdec * sdecz + cdec * cdecz * cradif
  let jd : ℤ × ℝ :=
    if denom > 1 / 10 ^ 6 then (0, denom)
    else if denom ≥ 0 then (1, 1 / 10 ^ 6)
    else if denom > -(1 / 10 ^ 6) then (2, -(1 / 10 ^ 6))
    else (3, denom)
  (cdec * sradif / jd.2, (sdec * cdecz - cdec * sdecz * cradif) / jd.2, jd.1)

/-- `palDtp2s`, /repo/palDtp2s.c:78-95. -/
noncomputable def palDtp2s (xi eta raz decz : ℝ) : ℝ × ℝ :=
  let sdecz := sin decz
  let cdecz := cos decz
  let denom := cdecz - eta * sdecz
  let d := atan2 xi denom + raz
  (eraAnp d, atan2 (sdecz + eta * cdecz) (√(xi * xi + denom * denom)))

/-- `palDtps2c`, /repo/palDtps2c.c:106-151: number of solutions and, unless it is zero, the two tangent points (otherwise the outputs are not written). -/
noncomputable def palDtps2c (xi eta ra dec : ℝ) : ℤ × Option ((ℝ × ℝ) × (ℝ × ℝ)) :=
  let x2 := xi * xi
  let y2 := eta * eta
  let sd := sin dec
  let cd := cos dec
  let sdf := sd * √(x2 + 1 + y2)
  let r2 := cd * cd * (y2 + 1) - sd * sd * x2
  if r2 ≥ 0 then
    let r := √r2
    let s := sdf - eta * r
    let c := sdf * eta + r
    let r := if xi = 0 ∧ r = 0 then 1 else r
    let raz1 := eraAnp (ra - atan2 xi r)
    let decz1 := atan2 s c
    let r := -r
    let s := sdf - eta * r
    let c := sdf * eta + r
    let raz2 := eraAnp (ra - atan2 xi r)
    let decz2 := atan2 s c
    (if |sdf| < 1 then 1 else 2, some ((raz1, decz1), (raz2, decz2)))
  else (0, none)

/-- The `while` loop of palDeuler, /repo/palDeuler.c:109-138, from index `i` on; `order[i]? = none` is the terminating NUL. -/
noncomputable def deulerLoop (order : List Char) (rotations : ℕ → ℝ) (i : ℕ) (rmat : Mat3) : Mat3 :=
  if i < 3 then
    match order[i]? with
    | none => rmat
    | some c =>
      if c = 'X' ∨ c = 'x' ∨ c = '1' then deulerLoop order rotations (i + 1) (eraRx (rotations i) rmat)
      else if c = 'Y' ∨ c = 'y' ∨ c = '2' then deulerLoop order rotations (i + 1) (eraRy (rotations i) rmat)
      else if c = 'Z' ∨ c = 'z' ∨ c = '3' then deulerLoop order rotations (i + 1) (eraRz (rotations i) rmat)
      else rmat
  else rmat
termination_by 3 - i

/-- `palDeuler`, /repo/palDeuler.c:94-141.  The order string is the list of its characters before the NUL. -/
noncomputable def palDeuler (order : List Char) (phi theta psi : ℝ) : Mat3 :=
  deulerLoop order (fun i => if i = 0 then phi else if i = 1 then theta else psi) 0 eraIr

/-- Results of palDcmpf, /repo/palDcmpf.c:112-113. -/
structure DcmpfOut where
  xz : ℝ
  yz : ℝ
  xs : ℝ
  ys : ℝ
  perp : ℝ
  orient : ℝ

/-- `palDcmpf`, /repo/palDcmpf.c:112-182. -/
noncomputable def palDcmpf (coeffs : Fin 6 → ℝ) : DcmpfOut :=
  let a := coeffs 0
  let b := coeffs 1
  let c := coeffs 2
  let d := coeffs 3
  let e := coeffs 4
  let f := coeffs 5
  let rb2e2 := √(b * b + e * e)
  let rc2f2 := √(c * c + f * f)
  let bex : ℝ × ℝ × ℝ := if b * f - c * e ≥ 0 then (b, e, rb2e2) else (-b, -e, -rb2e2)
  let b := bex.1
  let e := bex.2.1
  let xsc := bex.2.2
  let ysc := rc2f2
  let p1 := if c ≠ 0 ∨ f ≠ 0 then atan2 c f else 0
  let p2 := if e ≠ 0 ∨ b ≠ 0 then atan2 e b else 0
  let p := palDrange (p1 + p2)
  let ws := c * rb2e2 - e * rc2f2
  let wc := b * rc2f2 + f * rb2e2
  let or := if ws ≠ 0 ∨ wc ≠ 0 then atan2 ws wc else 0
  let hp := p / 2
  let shp := sin hp
  let chp := cos hp
  let sor := sin or
  let cor := cos or
  let det := xsc * ysc * (chp + shp) * (chp - shp)
  let xy : ℝ × ℝ :=
    if |det| > 0 then
      (ysc * (a * (chp * cor - shp * sor) - d * (chp * sor + shp * cor)) / det,
       xsc * (a * (chp * sor - shp * cor) + d * (chp * cor + shp * sor)) / det)
    else (0, 0)
  { xz := xy.1, yz := xy.2, xs := xsc, ys := ysc, perp := p, orient := or }

end Pal
