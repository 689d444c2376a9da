import Verif.Model.FlSphere
import Verif.Model.Sphere

/-!
# palAltaz in double precision
-/

namespace Pal

/-- The vector towards the object, /repo/palAltaz.c:144-154: `(x, y, z)`. -/
noncomputable def flAltazVec (fl : ℝ → ℝ) (L : Libm) (ha dec phi : ℝ) : Vec3 :=
  let sh := L.sin ha
  let ch := L.cos ha
  let sd := L.sin dec
  let cd := L.cos dec
  let sp := L.sin phi
  let cp := L.cos phi
  let chcd := fl (ch * cd)
  let sdcp := fl (sd * cp)
  ![fl (fl (-chcd * sp) + sdcp), fl (-sh * cd), fl (fl (chcd * cp) + fl (sd * sp))]

/-- `palAltaz`, /repo/palAltaz.c:131-200, in double precision. The flags say that the first argument of the arc tangents of lines 162 and 171 is the negative zero if it is zero. -/
noncomputable def flAltaz (fl : ℝ → ℝ) (L : Libm) (nz1 nz2 : Bool) (ha dec phi : ℝ) : AltazOut :=
  let v := flAltazVec fl L ha dec phi
  let x := v 0
  let y := v 1
  let z := v 2
  let sp := L.sin phi
  let cp := L.cos phi
  let rsq := fl (fl (x * x) + fl (y * y))
  let r := fl (√rsq)
  let a := if rsq = 0 then 0 else flAtan2 L nz1 y x
  let a := if a < 0 then fl (a + flPal2PI fl) else a
  let e := L.atan2 z r
  let c := fl (fl (L.cos dec * sp) - fl (L.cos ha * fl (L.sin dec * cp)))
  let s := fl (L.sin ha * cp)
  let q := if fl (fl (c * c) + fl (s * s)) > 0 then flAtan2 L nz2 s c else fl (flPalPI fl - ha)
  let rr : ℝ × ℝ := if rsq < fl (1 / 10 ^ 30) then (fl (1 / 10 ^ 30), fl (√(fl (1 / 10 ^ 30)))) else (rsq, r)
  let rsq := rr.1
  let r := rr.2
  let qd := fl (fl (-x * cp) / rsq)
  let ad := fl (sp + fl (z * qd))
  let ed := fl (fl (cp * y) / r)
  let edr := fl (ed / r)
  let add := fl (edr * fl (fl (z * sp) + fl (fl (2 - rsq) * qd)))
  let edd := fl (fl (-r * qd) * ad)
  let qdd := fl (edr * fl (sp + fl (fl (2 * z) * qd)))
  { az := a, azd := ad, azdd := add, el := e, eld := ed, eldd := edd, pa := q, pad := qd, padd := qdd }

end Pal
