import Verif.Model.Coord

/-!
# Quick refraction constants: palRefcoq

Wrapper of `eraRefco`, modelled from ERFA's published definition.
-/

namespace Pal
open Real

/-- The saturation pressure of water vapour in `eraRefco` (t: limited temperature in degrees C, p: limited pressure), called by /repo/palOne2One.c:1481. -/
noncomputable def refcoPs (t p : ℝ) : ℝ := (10 : ℝ) ^ ((0.7859 + 0.03477 * t) / (1 + 0.00412 * t)) * (1 + p * (4.5e-6 + 6e-10 * t * t))

/-- `eraRefco` on limited arguments and with the pressure of water vapour given, called by /repo/palOne2One.c:1481. -/
noncomputable def refcoAB (optic : Prop) [Decidable optic] (t p w pw : ℝ) : ℝ × ℝ :=
  let tk := t + 273.15
  let gamma := if optic then
      let wlsq := w * w
      ((77.53484e-6 + (4.39108e-7 + 3.666e-9 / wlsq) / wlsq) * p - 11.2684e-6 * pw) / tk
    else (77.6890e-6 * p - (6.3938e-6 - 0.375463 / tk) * pw) / tk
  let beta := 4.4474e-6 * tk
  let beta := if ¬ optic then beta - 0.0074 * pw * beta else beta
  (gamma * (1 - beta), -gamma * (beta - gamma / 2))

open Classical in
/-- `eraRefco`, called by /repo/palOne2One.c:1481; `none` where the C divides by zero. -/
noncomputable def eraRefco (phpa tc rh wl : ℝ) : Option (ℝ × ℝ) :=
  let t := min (max tc (-150)) 200
  let p := min (max phpa 0) 10000
  let r := min (max rh 0) 1
  let w := min (max wl 0.1) 1e6
  if p > 0 then
    let ps := refcoPs t p
    if 1 - (1 - r) * ps / p = 0 then none
    else some (refcoAB (wl ≤ 100) t p w (r * ps / (1 - (1 - r) * ps / p)))
  else some (refcoAB (wl ≤ 100) t p w 0)

/-- `palRefcoq`, /repo/palOne2One.c:1477-1482. -/
noncomputable def palRefcoq (tdk pmb rh wl : ℝ) : Option (ℝ × ℝ) := eraRefco pmb (tdk - 273.15) rh wl

end Pal
