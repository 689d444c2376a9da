import Verif.Model.FlAngle
import Verif.Model.Coord
import Verif.Model.Sphere

/-!
# Spherical coordinates in double precision

The library functions sin, cos and atan2 are those of the C library: they are not correctly rounded, so they are parameters (`Libm`), with the accuracy of a good library assumed (`LibmOK`). `sqrt` is
correctly rounded (IEEE 754). Operations are not contracted (no fused multiply-add). An argument that is no `double` does not occur in C: what a `Libm` gives there does not matter.
-/

namespace Pal

/-- The functions of the C library used by /repo/palDe2h.c:114-139 and by the ERFA functions behind palDcs2c and palDcc2s. `atan2m x` is `atan2(-0.0, x)`; `atan2 y x` has a y that is not the
negative zero. -/
structure Libm where
  sin : ℝ → ℝ
  cos : ℝ → ℝ
  atan2 : ℝ → ℝ → ℝ
  atan2m : ℝ → ℝ

/-- A library whose sines and cosines are good to 2.3e-16 and whose arc tangents are good to 4.5e-16 (one unit in the last place of the largest values; /repo uses the system's library). -/
structure LibmOK (L : Libm) : Prop where
  sin : ∀ x, |L.sin x - Real.sin x| ≤ 2.3e-16
  cos : ∀ x, |L.cos x - Real.cos x| ≤ 2.3e-16
  atan2 : ∀ y x, |L.atan2 y x - Pal.atan2 y x| ≤ 4.5e-16
  atan2m_neg : ∀ x, x < 0 → |L.atan2m x + Real.pi| ≤ 4.5e-16
  atan2m_pos : ∀ x, 0 < x → |L.atan2m x| ≤ 4.5e-16

/-- `eraS2c`, wrapped by palDcs2c, /repo/palOne2One.c:368-370. -/
noncomputable def flS2c (fl : ℝ → ℝ) (L : Libm) (theta phi : ℝ) : Vec3 :=
  let cp := L.cos phi
  ![fl (L.cos theta * cp), fl (L.sin theta * cp), L.sin phi]

/-- `atan2(y, x)`, where `nz` says that a y that is zero is the negative zero; /repo/palDe2h.c:131. -/
noncomputable def flAtan2 (L : Libm) (nz : Bool) (y x : ℝ) : ℝ := if nz = true ∧ y = 0 then L.atan2m x else L.atan2 y x

/-- `eraC2s`, wrapped by palDcc2s, /repo/palOne2One.c:327-329 (`nz`: the y component is the negative zero if it is zero). -/
noncomputable def flC2s (fl : ℝ → ℝ) (L : Libm) (nz : Bool) (p : Vec3) : ℝ × ℝ :=
  let d2 := fl (fl (p 0 * p 0) + fl (p 1 * p 1))
  (if d2 = 0 then 0 else flAtan2 L nz (p 1) (p 0), if p 2 = 0 then 0 else L.atan2 (p 2) (fl (√d2)))

/-- `eraRxp`, wrapped by palDmxv, /repo/palOne2One.c:605-607: the sum starts from zero and takes the products in order. -/
noncomputable def flRxp (fl : ℝ → ℝ) (r : Mat3) (p : Vec3) : Vec3 := fun j =>
  fl (fl (fl (0 + fl (r j 0 * p 0)) + fl (r j 1 * p 1)) + fl (r j 2 * p 2))

/-- `eraTrxp`, wrapped by palDimxv, /repo/palOne2One.c:446-448. -/
noncomputable def flTrxp (fl : ℝ → ℝ) (r : Mat3) (p : Vec3) : Vec3 := flRxp fl (eraTr r) p

/-- `eraAnpm`, used in /repo/palEqgal.c:116 (ERFA_DPI is half of ERFA_D2PI). -/
noncomputable def flAnpm (fl : ℝ → ℝ) (a : ℝ) : ℝ :=
  let w := fmod a (flD2PI fl)
  if |w| ≥ fl 3.141592653589793238462643 then fl (w - if a < 0 then -flD2PI fl else flD2PI fl) else w

/-- `palEqgal`, /repo/palEqgal.c:80-118, with the matrix as it is stored. -/
noncomputable def flEqgal (fl : ℝ → ℝ) (L : Libm) (nz : Bool) (dr dd : ℝ) : ℝ × ℝ :=
  let s := flC2s fl L nz (flRxp fl (fun i j => fl (eqgalMat i j)) (flS2c fl L dr dd))
  (flAnp fl s.1, flAnpm fl s.2)

/-- `palGaleq`, /repo/palGaleq.c:80-118. -/
noncomputable def flGaleq (fl : ℝ → ℝ) (L : Libm) (nz : Bool) (dl db : ℝ) : ℝ × ℝ :=
  let s := flC2s fl L nz (flTrxp fl (fun i j => fl (galeqMat i j)) (flS2c fl L dl db))
  (flAnp fl s.1, flAnpm fl s.2)

/-- `palGalsup`, /repo/palGalsup.c:83-116. -/
noncomputable def flGalsup (fl : ℝ → ℝ) (L : Libm) (nz : Bool) (dl db : ℝ) : ℝ × ℝ :=
  let s := flC2s fl L nz (flRxp fl (fun i j => fl (galsupMat i j)) (flS2c fl L dl db))
  (flAnp fl s.1, flAnpm fl s.2)

/-- `palSupgal`, /repo/palSupgal.c:83-116. -/
noncomputable def flSupgal (fl : ℝ → ℝ) (L : Libm) (nz : Bool) (dsl dsb : ℝ) : ℝ × ℝ :=
  let s := flC2s fl L nz (flTrxp fl (fun i j => fl (supgalMat i j)) (flS2c fl L dsl dsb))
  (flAnp fl s.1, flAnpm fl s.2)

/-- `palDe2h`, /repo/palDe2h.c:98-142: azimuth and elevation. -/
noncomputable def flDe2h (fl : ℝ → ℝ) (L : Libm) (nz : Bool) (ha dec phi : ℝ) : ℝ × ℝ :=
  let sh := L.sin ha
  let ch := L.cos ha
  let sd := L.sin dec
  let cd := L.cos dec
  let sp := L.sin phi
  let cp := L.cos phi
  let x := fl (fl (fl (-ch * cd) * sp) + fl (sd * cp))
  let y := fl (-sh * cd)
  let z := fl (fl (fl (ch * cd) * cp) + fl (sd * sp))
  let r := fl (√(fl (fl (x * x) + fl (y * y))))
  let a := if r = 0 then 0 else flAtan2 L nz y x
  let a := if a < 0 then fl (a + flPal2PI fl) else a
  (a, L.atan2 z r)

/-- `palDh2e`, /repo/palDh2e.c:95-133: hour angle and declination. -/
noncomputable def flDh2e (fl : ℝ → ℝ) (L : Libm) (nz : Bool) (az el phi : ℝ) : ℝ × ℝ :=
  let sa := L.sin az
  let ca := L.cos az
  let se := L.sin el
  let ce := L.cos el
  let sp := L.sin phi
  let cp := L.cos phi
  let x := fl (fl (fl (-ca * ce) * sp) + fl (se * cp))
  let y := fl (-sa * ce)
  let z := fl (fl (fl (ca * ce) * cp) + fl (se * sp))
  let r := fl (√(fl (fl (x * x) + fl (y * y))))
  (if r = 0 then 0 else flAtan2 L nz y x, L.atan2 z r)

/-- `eraPxp`, wrapped by palDvxv, /repo/palOne2One.c:1053-1055. -/
noncomputable def flPxp (fl : ℝ → ℝ) (a b : Vec3) : Vec3 :=
  ![fl (fl (a 1 * b 2) - fl (a 2 * b 1)), fl (fl (a 2 * b 0) - fl (a 0 * b 2)), fl (fl (a 0 * b 1) - fl (a 1 * b 0))]

/-- `eraPdp`, wrapped by palDvdv, /repo/palOne2One.c:976-978. -/
noncomputable def flPdp (fl : ℝ → ℝ) (a b : Vec3) : ℝ := fl (fl (fl (a 0 * b 0) + fl (a 1 * b 1)) + fl (a 2 * b 2))

/-- `eraPm`, used by eraPn and eraSepp (palDvn and palDsepv, /repo/palOne2One.c:849-851, 1015-1017). -/
noncomputable def flPm (fl : ℝ → ℝ) (p : Vec3) : ℝ := fl (√(fl (fl (fl (p 0 * p 0) + fl (p 1 * p 1)) + fl (p 2 * p 2))))

/-- `eraPn`, wrapped by palDvn, /repo/palOne2One.c:1015-1017: modulus and unit vector (eraSxp multiplies by the reciprocal of the modulus). -/
noncomputable def flPn (fl : ℝ → ℝ) (p : Vec3) : ℝ × Vec3 :=
  let w := flPm fl p
  if w = 0 then (w, fun _ => 0) else (w, fun i => fl (fl (1 / w) * p i))

/-- `eraSepp`, wrapped by palDsepv, /repo/palOne2One.c:849-851. -/
noncomputable def flSepp (fl : ℝ → ℝ) (L : Libm) (a b : Vec3) : ℝ :=
  let ss := flPm fl (flPxp fl a b)
  let cs := flPdp fl a b
  if ss ≠ 0 ∨ cs ≠ 0 then L.atan2 ss cs else 0

/-- `eraSeps`, wrapped by palDsep, /repo/palOne2One.c:810-812. -/
noncomputable def flSeps (fl : ℝ → ℝ) (L : Libm) (al ap bl bp : ℝ) : ℝ := flSepp fl L (flS2c fl L al ap) (flS2c fl L bl bp)

end Pal
