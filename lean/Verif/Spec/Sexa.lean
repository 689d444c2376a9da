import Verif.Model.Sexa

/-!
# What sexagesimal fields mean

Written independently of the conversion code.
-/

namespace Pal.Spec
open Pal

/-- The size of the last place displayed, in seconds, for `ndp` decimal places (ERFA's table of resolutions): 0.1 s, 0.01 s, … for positive `ndp`, and 10 s, 1 min, 10 min, 1 h, 10 h, … for negative. -/
noncomputable def lastPlace (ndp : ℤ) : ℝ :=
  if 0 ≤ ndp then 1 / 10 ^ ndp.toNat
  else if ndp = -1 then 10 else if ndp = -2 then 60 else if ndp = -3 then 600
  else 3600 * 10 ^ (-4 - ndp).toNat

/-- The number of seconds shown by the four fields. -/
noncomputable def shownSeconds (ndp : ℤ) (v : Hmsf) : ℝ :=
  3600 * v.h + 60 * v.m + v.s + v.f / 10 ^ ndp.toNat

/-- Each field is in its range (hours or degrees have no upper limit). -/
def WellFormed (ndp : ℤ) (v : Hmsf) : Prop :=
  0 ≤ v.h ∧ (0 ≤ v.m ∧ v.m < 60) ∧ (0 ≤ v.s ∧ v.s < 60) ∧ (0 ≤ v.f ∧ v.f < 10 ^ ndp.toNat)

/-- The fields show `t` seconds rounded to the last place, halves away from zero. -/
def ShowsRounded (ndp : ℤ) (v : Hmsf) (t : ℝ) : Prop :=
  WellFormed ndp v ∧ (∃ k : ℤ, shownSeconds ndp v = k * lastPlace ndp) ∧
    shownSeconds ndp v - t ≤ lastPlace ndp / 2 ∧ t - shownSeconds ndp v < lastPlace ndp / 2

end Pal.Spec
