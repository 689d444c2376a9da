import Verif.Model.FlSexa
import Verif.Model.FlAngle

/-!
# Sexagesimal text to radians in double precision

The part of `palDafin` (Model/Parse.lean) after the fields have been found, with the rounding of the three fields by `strtod` and of every operation, in the order of the C code.
-/

namespace Pal

/-- The decision logic of /repo/palDafin.c:143-184 for the statuses of the three fields and their values as doubles (DINT(x) is truncation, /repo/palmac.h:120). -/
noncomputable def flDafinStatus (jd jm js : ℤ) (deg arcmin arcsec : ℝ) : ℤ :=
  if jd > 1 then -1
  else if jm < 0 ∨ jm > 1 then -2
  else if js < 0 ∨ js > 1 then -3
  else if jd > 0 then (if jm = 0 then -2 else if js = 0 then -3 else 1)
  else if jm ≠ 0 ∧ js = 0 then -3
  else if jm = 0 ∧ (truncR deg : ℝ) ≠ deg then -1
  else if (js = 0 ∧ (truncR arcmin : ℝ) ≠ arcmin) ∨ arcmin ≥ 60 then -2
  else if arcsec ≥ 60 then -3
  else 0

/-- The angle, /repo/palDafin.c:187-190 (the change of sign is exact).  `PAL__DAS2R` (/repo/palmac.h:78) is written with more digits than ERFA's constant `flDAS2R` used here; they differ by 3e-31. -/
noncomputable def flDafinAngle (fl : ℝ → ℝ) (jd : ℤ) (deg arcmin arcsec : ℝ) : ℝ :=
  let a := fl (flDAS2R fl * fl (fl (60 * fl (fl (60 * |deg|) + arcmin)) + arcsec))
  if jd < 0 then -a else a

/-- `palDafin` after the fields are found, /repo/palDafin.c:143-194: status, and angle unless all three fields are absent.  `D`, `M` and `S` are the decimal numbers written in the text; `strtod` (/repo/palDfltin.c:205) rounds them to doubles. -/
noncomputable def flDafin (fl : ℝ → ℝ) (jd jm js : ℤ) (D M S : ℝ) : ℤ × Option ℝ :=
  let deg := fl D
  let arcmin := fl M
  let arcsec := fl S
  let jf := flDafinStatus jd jm js deg arcmin arcsec
  (jf, if jf ≤ 0 then some (flDafinAngle fl jd deg arcmin arcsec) else none)

end Pal
