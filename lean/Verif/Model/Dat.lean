import Verif.Model.Calendar

/-!
# Model of ERFA's leap-second table behind `palDat` and `palDtt`

ERFA is not in /repo: `eraDat` (called at /repo/palDat.c:93) follows ERFA's published source, release with the leap second of
2017 January 1 as its last entry.
-/

namespace Pal

/-- `changes` of `eraDat` (ERFA, called at /repo/palDat.c:93): year, month and TAI-UTC from the first day of that month. -/
def eraDatChanges : List (ℤ × ℤ × ℚ) :=
  [(1960, 1, 1.4178180), (1961, 1, 1.4228180), (1961, 8, 1.3728180), (1962, 1, 1.8458580), (1963, 11, 1.9458580), (1964, 1,
   3.2401300), (1964, 4, 3.3401300), (1964, 9, 3.4401300), (1965, 1, 3.5401300), (1965, 3, 3.6401300), (1965, 7,
   3.7401300), (1965, 9, 3.8401300), (1966, 1, 4.3131700), (1968, 2, 4.2131700), (1972, 1, 10), (1972, 7, 11), (1973, 1,
   12), (1974, 1, 13), (1975, 1, 14), (1976, 1, 15), (1977, 1, 16), (1978, 1, 17), (1979, 1, 18), (1980, 1, 19), (1981, 7,
   20), (1982, 7, 21), (1983, 7, 22), (1985, 7, 23), (1988, 1, 24), (1990, 1, 25), (1991, 1, 26), (1992, 7, 27), (1993, 7,
   28), (1994, 7, 29), (1996, 1, 30), (1997, 7, 31), (1999, 1, 32), (2006, 1, 33), (2009, 1, 34), (2012, 7, 35), (2015, 7,
   36), (2017, 1, 37)]

/-- `drift` of `eraDat`: reference MJD and rate (s/day) for the entries before 1972 (called at /repo/palDat.c:93). -/
def eraDatDrift : List (ℚ × ℚ) :=
  [(37300, 0.0012960), (37300, 0.0012960), (37300, 0.0012960), (37665, 0.0011232), (37665, 0.0011232), (38761, 0.0012960),
   (38761, 0.0012960), (38761, 0.0012960), (38761, 0.0012960), (38761, 0.0012960), (38761, 0.0012960), (38761, 0.0012960),
   (39126, 0.0025920), (39126, 0.0025920)]

/-- The backward search of `eraDat`: the last entry `i < n` whose month number does not exceed `m` (C's loop from the most recent entry) (called at /repo/palDat.c:93). -/
def eraDatSearch (m : ℤ) : ℕ → Option ℕ
  | 0 => none
  | i + 1 =>
    let c := eraDatChanges.getD i (0, 0, 0)
    if m ≥ 12 * c.1 + c.2.1 then some i else eraDatSearch m i

/-- `eraDat` (ERFA, called at /repo/palDat.c:93): the value left in `*deltat`, which starts at zero and is left so on any error.
The status is ignored by /repo/palDat.c:93-94 and not modelled. -/
def eraDat (iy im id : ℤ) (fd : ℚ) : ℚ :=
  if fd < 0 ∨ 1 < fd then 0
  else
    let r := eraCal2jd iy im id 0
    if r.1 < 0 then 0
    else if iy < 1960 then 0
    else
      match eraDatSearch (12 * iy + im) eraDatChanges.length with
      | none => 0
      | some i =>
        let da := (eraDatChanges.getD i (0, 0, 0)).2.2
        if i < eraDatDrift.length then
          let d := eraDatDrift.getD i (0, 0)
          da + (r.2 + fd - d.1) * d.2
        else da

/-- `palDat` with ERFA's table, /repo/palDat.c:82-95. -/
def palDatErfa (dju : ℚ) : Option ℚ := palDat eraDat dju

/-- `palDtt` with ERFA's table, /repo/palDtt.c:75-77. -/
def palDttErfa (dju : ℚ) : Option ℚ := palDtt eraDat dju

end Pal
