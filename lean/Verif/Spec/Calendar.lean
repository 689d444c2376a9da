import Mathlib.Data.Int.Notation

/-!
# Specification: the proleptic Gregorian calendar

Independent of any day-number formula: month lengths, the leap-year rule and "the next day".
-/

namespace Pal.Spec

/-- A year is a leap year if divisible by 4 but not by 100, or divisible by 400. -/
def LeapYear (y : ℤ) : Prop := (4 ∣ y ∧ ¬ 100 ∣ y) ∨ 400 ∣ y

instance (y : ℤ) : Decidable (LeapYear y) := by unfold LeapYear; infer_instance

/-- Thirty days hath September, April, June and November … -/
def daysIn (y m : ℤ) : ℤ :=
  if m = 4 ∨ m = 6 ∨ m = 9 ∨ m = 11 then 30
  else if m = 2 then (if LeapYear y then 29 else 28)
  else 31

/-- A date (year, month, day). -/
structure Date where
  y : ℤ
  m : ℤ
  d : ℤ
  deriving DecidableEq

/-- The month exists and has that day. -/
structure Date.Valid (t : Date) : Prop where
  m1 : 1 ≤ t.m
  m12 : t.m ≤ 12
  d1 : 1 ≤ t.d
  dn : t.d ≤ daysIn t.y t.m

/-- The following day. -/
def Date.next (t : Date) : Date :=
  if t.d < daysIn t.y t.m then ⟨t.y, t.m, t.d + 1⟩
  else if t.m < 12 then ⟨t.y, t.m + 1, 1⟩
  else ⟨t.y + 1, 1, 1⟩

/-- The origin of Modified Julian Dates, 1858 November 17. -/
def mjdOrigin : Date := ⟨1858, 11, 17⟩

end Pal.Spec
