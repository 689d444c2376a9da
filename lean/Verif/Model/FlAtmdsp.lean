import Verif.Model.Flt
import Verif.Model.FlPcd
import Verif.Model.Refr

/-!
# palAtmdsp in double precision
-/

namespace Pal

/-- The water vapour term W1, /repo/palAtmdsp.c:145-152; `pw` is the library function pow. -/
noncomputable def flAtmdspW1 (fl : ℝ → ℝ) (pw : ℝ → ℝ → ℝ) (tdk rh : ℝ) : ℝ :=
  let tdkok := min (max tdk 100) 500
  let rhok := min (max rh 0) 1
  let psat := pw 10 (fl (-fl 8.7115 + fl (fl 0.03477 * tdkok)))
  let pwo := fl (rhok * psat)
  fl (fl 11.2684e-6 * pwo)

/-- The wavelength term W2, /repo/palAtmdsp.c:155-157 and 161-163. -/
noncomputable def flAtmdspW2 (fl : ℝ → ℝ) (wl : ℝ) : ℝ :=
  let wlok := max wl (fl 0.1)
  let wlsq := fl (wlok * wlok)
  fl (fl 77.5317e-6 + fl (fl (fl 0.43909e-6 + fl (fl 0.00367e-6 / wlsq)) / wlsq))

/-- The refractivity at the observer, /repo/palAtmdsp.c:144-164. -/
noncomputable def flAtmdspDn (fl : ℝ → ℝ) (pw : ℝ → ℝ → ℝ) (tdk pmb rh wl : ℝ) : ℝ :=
  let tdkok := min (max tdk 100) 500
  let pmbok := min (max pmb 0) 10000
  fl (fl (fl (flAtmdspW2 fl wl * pmbok) - flAtmdspW1 fl pw tdk rh) / tdkok)

/-- `palAtmdsp`, /repo/palAtmdsp.c:129-180, in double precision; `none` stands for the division by zero of line 172. -/
noncomputable def flAtmdsp (fl : ℝ → ℝ) (pw : ℝ → ℝ → ℝ) (tdk pmb rh wl1 a1 b1 wl2 : ℝ) : Option (ℝ × ℝ) :=
  if wl1 > 100 ∨ wl2 > 100 then some (a1, b1)
  else
    let dn1 := flAtmdspDn fl pw tdk pmb rh wl1
    let dn2 := flAtmdspDn fl pw tdk pmb rh wl2
    if dn1 ≠ 0 then
      let f := fl (dn2 / dn1)
      let a2 := fl (a1 * f)
      let b2 := fl (b1 * f)
      if dn1 ≠ a1 then
        let den := fl (2 * fl (dn1 - a1))
        if den = 0 then none
        else some (a2, fl (b2 * fl (1 + fl (fl (dn1 * fl (dn1 - dn2)) / den))))
      else some (a2, b2)
    else some (a1, b1)

end Pal
