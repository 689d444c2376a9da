import Verif.Model.Flt
import Verif.Model.Refr

/-!
# The two-term refraction model in double precision

The operations of `palRefco` (Model/Refr.lean) with a rounding after each, in the order of the C code; `refro` holds the numbers returned by `palRefro`, of the zenith distance.
-/

namespace Pal

/-- `palRefco`, /repo/palRefco.c:102-120 (the two zenith distances are stored as doubles). -/
noncomputable def flRefco (fl : ℝ → ℝ) (refro : ℝ → ℝ) : ℝ × ℝ :=
  let r1 := refro (fl 0.7853981633974483)
  let r2 := refro (fl 1.325817663668033)
  (fl (fl (fl (64 * r1) - r2) / 60), fl (fl (r2 - fl (4 * r1)) / 60))

end Pal
