import Verif.Model.FlSphere
import Verif.Model.Map

/-!
# The position of the observatory in double precision

The operations of `gd2gcWGS84`, `palGeoc` and `palPvobs` (Model/Map.lean) with a rounding after each, in the order of the C code.
-/

namespace Pal

/-- `eraGd2gc` for the WGS84 ellipsoid, called in /repo/palGeoc.c:80 and /repo/palPvobs.c:82 (its algorithm: eraGd2gce with a = 6378137 and f = 1/298.257223563). -/
noncomputable def flGd2gc (fl : ℝ → ℝ) (L : Libm) (elong phi height : ℝ) : Vec3 :=
  let f := fl (1 / fl 298.257223563)
  let sp := L.sin phi
  let cp := L.cos phi
  let w := fl (1 - f)
  let w := fl (w * w)
  let d := fl (fl (cp * cp) + fl (fl (w * sp) * sp))
  let ac := fl (6378137 / fl (√d))
  let as := fl (w * ac)
  let r := fl (fl (ac + height) * cp)
  ![fl (r * L.cos elong), fl (r * L.sin elong), fl (fl (as + height) * sp)]

/-- `palGeoc`, /repo/palGeoc.c:75-83 (1.49597870E11 is a whole number and stored exactly). -/
noncomputable def flGeoc (fl : ℝ → ℝ) (L : Libm) (p h : ℝ) : ℝ × ℝ :=
  let xyz := flGd2gc fl L 0 p h
  (fl (xyz 0 / fl (149597870000 * L.cos 0)), fl (xyz 2 / 149597870000))

/-- `palPvobs`, /repo/palPvobs.c:77-106 (ERFA_DAU is a whole number and stored exactly): position and velocity. -/
noncomputable def flPvobs (fl : ℝ → ℝ) (L : Libm) (p h stl : ℝ) : Vec3 × Vec3 :=
  let xyz := flGd2gc fl L 0 p h
  let r := fl (xyz 0 / 149597870700)
  let z := fl (xyz 2 / 149597870700)
  let s := L.sin stl
  let c := L.cos stl
  let v := fl (fl 7.2921150e-5 * r)
  (![fl (r * c), fl (r * s), z], ![fl (-v * s), fl (v * c), 0])

end Pal
