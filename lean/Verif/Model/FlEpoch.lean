import Verif.Model.Flt
import Verif.Model.CLib

/-!
# Epoch conversions in double precision

As in Verif/Model/Calendar.lean, with every operation on `double` rounded by `fl` and decimal constants as stored.
-/

namespace Pal

/-- `eraEpj(PAL__MJD0, d)` resp. with the first part 2400000.5 delivered by eraEpb2jd (/repo/palOne2One.c:1169-1171, /repo/palEpco.c:99). -/
noncomputable def flEpj (fl : ℝ → ℝ) (date : ℝ) : ℝ := fl (2000 + fl (fl (fl (2400000.5 - 2451545) + date) / 365.25))

/-- `palEpj2d` (`eraEpj2jd`), /repo/palOne2One.c:1205-1209. -/
noncomputable def flEpj2d (fl : ℝ → ℝ) (epj : ℝ) : ℝ := fl (51544.5 + fl (fl (epj - 2000) * 365.25))

/-- `palEpb` (`eraEpb`), /repo/palOne2One.c:1091-1093. -/
noncomputable def flEpb (fl : ℝ → ℝ) (date : ℝ) : ℝ :=
  fl (1900 + fl (fl (fl (2400000.5 - 2451545) + fl (date + fl 36524.68648)) / fl 365.242198781))

/-- `palEpb2d` (`eraEpb2jd`), /repo/palOne2One.c:1129-1133. -/
noncomputable def flEpb2d (fl : ℝ → ℝ) (epb : ℝ) : ℝ := fl (fl 15019.81352 + fl (fl (epb - 1900) * fl 365.242198781))

/-- `palEpco`, /repo/palEpco.c:82-102. -/
noncomputable def flEpco (fl : ℝ → ℝ) (k0 k : Char) (e : ℝ) : ℝ :=
  let k0 := toUpperC k0
  let k := toUpperC k
  if k = k0 then e
  else if k0 = 'B' then flEpb fl (flEpj2d fl e)
  else flEpj fl (flEpb2d fl e)

end Pal
