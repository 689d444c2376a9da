import Verif.Model.FlSphere

/-!
# Polar motion in double precision
-/

namespace Pal

/-- The site vector turned by the polar motion, and its distance from the axis, /repo/palPolmo.c:141-171: `(xt, yt, zt)` and `cph`. -/
noncomputable def flPolmoVec (fl : ℝ → ℝ) (L : Libm) (elongm phim xp yp : ℝ) : Vec3 :=
  let sel := L.sin elongm
  let cel := L.cos elongm
  let sph := L.sin phim
  let cph := L.cos phim
  let xm := fl (cel * cph)
  let ym := fl (sel * cph)
  let zm := sph
  let sxp := L.sin xp
  let cxp := L.cos xp
  let syp := L.sin yp
  let cyp := L.cos yp
  let zw := fl (fl (-ym * syp) + fl (zm * cyp))
  ![fl (fl (xm * cxp) - fl (zw * sxp)), fl (fl (ym * cyp) + fl (zm * syp)), fl (fl (xm * sxp) + fl (zw * cxp))]

/-- The terrestrial pole turned by the polar motion, /repo/palPolmo.c:164-166: `(xnm, ynm, znm)`. -/
noncomputable def flPolmoPole (fl : ℝ → ℝ) (L : Libm) (xp yp : ℝ) : Vec3 :=
  ![fl (-L.sin xp * L.cos yp), L.sin yp, fl (L.cos xp * L.cos yp)]

/-- `palPolmo`, /repo/palPolmo.c:135-190, in double precision. `none` stands for the division by zero of lines 170-171. The flags say that the first argument of the three arc tangents (lines 175,
179 and 185) is the negative zero if it is zero. -/
noncomputable def flPolmo (fl : ℝ → ℝ) (L : Libm) (nz1 nz2 nz3 : Bool) (elongm phim xp yp : ℝ) : Option PolmoOut :=
  let t := flPolmoVec fl L elongm phim xp yp
  let n := flPolmoPole fl L xp yp
  let cph := fl (√(fl (fl (t 0 * t 0) + fl (t 1 * t 1))))
  if cph = 0 then none
  else
    let sel := fl (t 1 / cph)
    let cel := fl (t 0 / cph)
    let elong := if t 0 ≠ 0 ∨ t 1 ≠ 0 then flAtan2 L nz1 (t 1) (t 0) else 0
    let phi := flAtan2 L nz2 (t 2) cph
    let xnt := fl (fl (fl (fl (n 0 * cel) + fl (n 1 * sel)) * t 2) - fl (n 2 * cph))
    let ynt := fl (fl (-n 0 * sel) + fl (n 1 * cel))
    let daz := if xnt ≠ 0 ∨ ynt ≠ 0 then flAtan2 L nz3 (-ynt) (-xnt) else 0
    some { elong := elong, phi := phi, daz := daz }

end Pal
