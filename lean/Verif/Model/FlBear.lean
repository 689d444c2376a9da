import Verif.Model.FlSphere

/-!
# Bearings and parallactic angles in double precision
-/

namespace Pal

/-- `eraPas`, wrapped by palDbear, /repo/palOne2One.c:201-203 (`nz`: y is the negative zero if it is zero). -/
noncomputable def flPas (fl : ℝ → ℝ) (L : Libm) (nz : Bool) (al ap bl bp : ℝ) : ℝ :=
  let dl := fl (bl - al)
  let y := fl (L.sin dl * L.cos bp)
  let x := fl (fl (L.sin bp * L.cos ap) - fl (fl (L.cos bp * L.sin ap) * L.cos dl))
  if x ≠ 0 ∨ y ≠ 0 then flAtan2 L nz y x else 0

/-- `palDbear`, /repo/palOne2One.c:201-203. -/
noncomputable def flDbear (fl : ℝ → ℝ) (L : Libm) (nz : Bool) (a1 b1 a2 b2 : ℝ) : ℝ := flPas fl L nz a1 b1 a2 b2

/-- `palPa`, /repo/palPa.c:83-91. -/
noncomputable def flPa (fl : ℝ → ℝ) (L : Libm) (nz : Bool) (ha dec phi : ℝ) : ℝ :=
  let cp := L.cos phi
  let sqsz := fl (cp * L.sin ha)
  let cqsz := fl (fl (L.sin phi * L.cos dec) - fl (fl (cp * L.sin dec) * L.cos ha))
  let cqsz := if sqsz = 0 ∧ cqsz = 0 then 1 else cqsz
  flAtan2 L nz sqsz cqsz

/-- `eraPap`, wrapped by palDpav, /repo/palOne2One.c:649-651. -/
noncomputable def flPap (fl : ℝ → ℝ) (L : Libm) (nz : Bool) (a b : Vec3) : ℝ :=
  let am := (flPn fl a).1
  let au := (flPn fl a).2
  let bm := flPm fl b
  let sc : ℝ × ℝ :=
    if am = 0 ∨ bm = 0 then (0, 1)
    else
      let eta : Vec3 := ![fl (-a 0 * a 2), fl (-a 1 * a 2), fl (fl (a 0 * a 0) + fl (a 1 * a 1))]
      let xi := flPxp fl eta au
      let a2b : Vec3 := fun i => fl (b i - a i)
      let st := flPdp fl a2b xi
      let ct := flPdp fl a2b eta
      if st = 0 ∧ ct = 0 then (st, 1) else (st, ct)
  flAtan2 L nz sc.1 sc.2

/-- `palDpav`, /repo/palOne2One.c:649-651. -/
noncomputable def flDpav (fl : ℝ → ℝ) (L : Libm) (nz : Bool) (v1 v2 : Vec3) : ℝ := flPap fl L nz v1 v2

end Pal
