import Verif.Model.FlFk4

/-!
# The conversion from FK5 to FK4 in double precision

The operations of palFk524 and palFk54z (Model/Map.lean) with a rounding after each, in the order of the C code; constants are rounded when stored.
-/

namespace Pal

/-- One pass of the loop over `i` in /repo/palFk524.c:193-199: the sum starts from zero and takes the six products in order. -/
noncomputable def flRow6 (fl : ℝ → ℝ) (P V : Mat3) (p q : Vec3) : Vec3 := fun i =>
  fl (fl (fl (flRxp fl (fun i j => fl (P i j)) p i + fl (fl (V i 0) * q 0)) + fl (fl (V i 1) * q 1)) + fl (fl (V i 2) * q 2))

/-- The velocity of the star in /repo/palFk524.c:165-190 (lines 167, 168, 182 and 188-190). -/
noncomputable def flFkMotion (fl : ℝ → ℝ) (L : Libm) (s : Star) : Vec3 :=
  let ur := fl (s.dr * flPMF fl)
  let ud := fl (s.dd * flPMF fl)
  let sr := L.sin s.r
  let cr := L.cos s.r
  let sd := L.sin s.d
  let cd := L.cos s.d
  let x := fl (cr * cd)
  let y := fl (sr * cd)
  let z := sd
  let w := fl (fl (fl 21.095 * s.rv) * s.px)
  ![fl (fl (fl (-ur * y) - fl (fl (cr * sd) * ud)) + fl (w * x)), fl (fl (fl (ur * x) - fl (fl (sr * sd) * ud)) + fl (w * y)), fl (fl (cd * ud) + fl (w * z))]

/-- The sum of three products, as in /repo/palFk524.c:208, 220 and 221. -/
noncomputable def flDot3 (fl : ℝ → ℝ) (a b : Vec3) : ℝ := fl (fl (fl (a 0 * b 0) + fl (a 1 * b 1)) + fl (a 2 * b 2))

/-- `rxyz`, /repo/palFk524.c:205 and 214. -/
noncomputable def flRxyz (fl : ℝ → ℝ) (a : Vec3) : ℝ := fl (√(flDot3 fl a a))

/-- The E-terms applied to the position, /repo/palFk524.c:208-211 and 220, 222-224. -/
noncomputable def flFkPos (fl : ℝ → ℝ) (p2 : Vec3) (rxyz : ℝ) : Vec3 := fun i =>
  fl (p2 i + fl (fl (fl (fkA i) * rxyz) - fl (flDot3 fl p2 (fun i => fl (fkA i)) * p2 i)))

/-- The position and velocity vectors and `rxyz` after the E-terms, /repo/palFk524.c:164-227. -/
noncomputable def flFk524Vec (fl : ℝ → ℝ) (L : Libm) (s : Star) : Vec3 × Vec3 × ℝ :=
  let p1 := flS2c fl L s.r s.d
  let q1 := flFkMotion fl L s
  let p2 := flRow6 fl emiPP emiPV p1 q1
  let q2 := flRow6 fl emiVP emiVV p1 q1
  let rxyz := flRxyz fl (flFkPos fl p2 (flRxyz fl p2))
  let p := flFkPos fl p2 rxyz
  let wd := flDot3 fl p2 (fun i => fl (fkAd i))
  (p, fun i => fl (fl (q2 i + fl (fl (fkAd i) * rxyz)) - fl (wd * p i)), rxyz)

/-- `palFk524`, /repo/palFk524.c:127-259 (`nz`: see `flC2s`). -/
noncomputable def flFk524 (fl : ℝ → ℝ) (L : Libm) (nz : Bool) (s : Star) : Star :=
  let tiny : ℝ := fl (1 / 10 ^ 30)
  let pv := flFk524Vec fl L s
  let x := pv.1 0
  let y := pv.1 1
  let z := pv.1 2
  let xd := pv.2.1 0
  let yd := pv.2.1 1
  let zd := pv.2.1 2
  let rxyz := pv.2.2
  let rxysq := fl (fl (x * x) + fl (y * y))
  let rxy := fl (√rxysq)
  let a := flAtan2 L nz y x
  let r := if x = 0 ∧ y = 0 then 0 else (if a < 0 then fl (a + flPal2PI fl) else a)
  let d := L.atan2 z rxy
  let ur := if rxy > tiny then fl (fl (fl (x * yd) - fl (y * xd)) / rxysq) else fl (s.dr * flPMF fl)
  let ud := if rxy > tiny then fl (fl (fl (zd * rxysq) - fl (z * fl (fl (x * xd) + fl (y * yd)))) / fl (fl (rxysq + fl (z * z)) * rxy)) else fl (s.dd * flPMF fl)
  let rv := if s.px > tiny then fl (fl (fl (fl (x * xd) + fl (y * yd)) + fl (z * zd)) / fl (fl (s.px * fl 21.095) * rxyz)) else s.rv
  let px := if s.px > tiny then fl (s.px / rxyz) else s.px
  { r := r, d := d, dr := fl (ur / flPMF fl), dd := fl (ud / flPMF fl), px := px, rv := rv }

/-- `palFk54z`, /repo/palFk54z.c:97-112: position and proper motions. -/
noncomputable def flFk54z (fl : ℝ → ℝ) (L : Libm) (nz : Bool) (r2000 d2000 bepoch : ℝ) : (ℝ × ℝ) × (ℝ × ℝ) :=
  let s := flFk524 fl L nz { r := r2000, d := d2000, dr := 0, dd := 0, px := 0, rv := 0 }
  let y := fl (bepoch - 1950)
  ((fl (s.r + fl (s.dr * y)), fl (s.d + fl (s.dd * y))), (s.dr, s.dd))

end Pal
