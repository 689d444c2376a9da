import Verif.Model.FlSphere
import Verif.Model.FlAngle
import Verif.Model.Sphere

/-!
# palDcmpf in double precision
-/

namespace Pal

/-- `palDcmpf`, /repo/palDcmpf.c:112-182, in double precision; `n1`, `n2`, `n3`: whether the first arguments of the three calls of atan2 are the negative zero if they are zero. -/
noncomputable def flDcmpf (fl : ℝ → ℝ) (L : Libm) (n1 n2 n3 : Bool) (coeffs : Fin 6 → ℝ) : DcmpfOut :=
  let a := coeffs 0
  let b := coeffs 1
  let c := coeffs 2
  let d := coeffs 3
  let e := coeffs 4
  let f := coeffs 5
  let rb2e2 := fl (√(fl (fl (b * b) + fl (e * e))))
  let rc2f2 := fl (√(fl (fl (c * c) + fl (f * f))))
  let bex : ℝ × ℝ × ℝ := if fl (fl (b * f) - fl (c * e)) ≥ 0 then (b, e, rb2e2) else (-b, -e, -rb2e2)
  let b := bex.1
  let e := bex.2.1
  let xsc := bex.2.2
  let ysc := rc2f2
  let p1 := if c ≠ 0 ∨ f ≠ 0 then flAtan2 L n1 c f else 0
  let p2 := if e ≠ 0 ∨ b ≠ 0 then flAtan2 L n2 e b else 0
  let p := flDrange fl (fl (p1 + p2))
  let ws := fl (fl (c * rb2e2) - fl (e * rc2f2))
  let wc := fl (fl (b * rc2f2) + fl (f * rb2e2))
  let or := if ws ≠ 0 ∨ wc ≠ 0 then flAtan2 L n3 ws wc else 0
  let hp := fl (p / 2)
  let shp := L.sin hp
  let chp := L.cos hp
  let sor := L.sin or
  let cor := L.cos or
  let det := fl (fl (fl (xsc * ysc) * fl (chp + shp)) * fl (chp - shp))
  let xy : ℝ × ℝ :=
    if |det| > 0 then
      (fl (fl (ysc * fl (fl (a * fl (fl (chp * cor) - fl (shp * sor))) - fl (d * fl (fl (chp * sor) + fl (shp * cor))))) / det),
       fl (fl (xsc * fl (fl (a * fl (fl (chp * sor) - fl (shp * cor))) + fl (d * fl (fl (chp * cor) + fl (shp * sor))))) / det))
    else (0, 0)
  { xz := xy.1, yz := xy.2, xs := xsc, ys := ysc, perp := p, orient := or }

end Pal
