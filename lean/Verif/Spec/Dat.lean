import Mathlib.Data.Rat.Init
import Mathlib.Algebra.Order.Ring.Unbundled.Rat

/-!
# Specification: TAI-UTC as published by the IERS

Written in Modified Julian Dates (UTC), independently of any table of calendar dates.
-/

namespace Pal.Spec

/-- MJD (0h UTC) just after each of the 27 leap seconds, 1972 July 1 to 2017 January 1. -/
def leapSeconds : List ℚ :=
  [41499, 41683, 42048, 42413, 42778, 43144, 43509, 43874, 44239, 44786, 45151, 45516, 46247,
   47161, 47892, 48257, 48804, 49169, 49534, 50083, 50630, 51179, 53736, 54832, 56109, 57204, 57754]

/-- TAI-UTC in seconds at UTC date `x` (MJD): nothing before 1960 January 1; the published linear laws until 1972 January 1; then ten seconds
and one more for every leap second that has happened. -/
def taiUtc (x : ℚ) : ℚ :=
  if x < 36934 then 0
  else if x < 37300 then 1.417818 + (x - 37300) * 0.001296
  else if x < 37512 then 1.422818 + (x - 37300) * 0.001296
  else if x < 37665 then 1.372818 + (x - 37300) * 0.001296
  else if x < 38334 then 1.845858 + (x - 37665) * 0.0011232
  else if x < 38395 then 1.945858 + (x - 37665) * 0.0011232
  else if x < 38486 then 3.24013 + (x - 38761) * 0.001296
  else if x < 38639 then 3.34013 + (x - 38761) * 0.001296
  else if x < 38761 then 3.44013 + (x - 38761) * 0.001296
  else if x < 38820 then 3.54013 + (x - 38761) * 0.001296
  else if x < 38942 then 3.64013 + (x - 38761) * 0.001296
  else if x < 39004 then 3.74013 + (x - 38761) * 0.001296
  else if x < 39126 then 3.84013 + (x - 38761) * 0.001296
  else if x < 39887 then 4.31317 + (x - 39126) * 0.002592
  else if x < 41317 then 4.21317 + (x - 39126) * 0.002592
  else 10 + ((leapSeconds.filter (fun l => l ≤ x)).length : ℚ)

end Pal.Spec
