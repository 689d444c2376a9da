import Verif.Model.FlAngle

/-!
# The station coordinates of palObs in double precision

The macros with which the table of /repo/palObs.c:186-908 is written, every operation rounded.
-/

namespace Pal

/-- `WEST` and `NORTH`, /repo/palObs.c:168-169: degrees and minutes are whole, `s` is the decimal number written in the source (the compiler rounds it).  `PAL__DAS2R` (/repo/palmac.h:78) is written with more digits than ERFA's constant `flDAS2R` used here; they differ by 3e-31. -/
noncomputable def flWestNorth (fl : ℝ → ℝ) (d m : ℕ) (s : ℝ) : ℝ := fl (flDAS2R fl * fl (fl (60 * fl (fl (60 * (d : ℝ)) + m)) + fl s))

/-- `EAST` and `SOUTH`, /repo/palObs.c:170-171: the macro is not parenthesised, so -1.0 multiplies `PAL__DAS2R` first. -/
noncomputable def flEastSouth (fl : ℝ → ℝ) (d m : ℕ) (s : ℝ) : ℝ := fl (fl (-1 * flDAS2R fl) * fl (fl (60 * fl (fl (60 * (d : ℝ)) + m)) + fl s))

end Pal
