import Verif.Model.Coord

/-!
# The IAU 2006 precession that PAL takes from ERFA, from its published definition

ERFA is not part of /repo.  The definitions below transcribe the published Fukushima-Williams and Capitaine polynomials (ERFA `obl06.c`, `pfw06.c`, `fw2m.c`, `pmat06.c`,
`p06e.c`, `pnm06a.c`), which the functions of /repo named beside each of them call.  The nutation series stays a parameter.
-/

namespace Pal
open Real

/-- Julian centuries since J2000.0 of a two-part Julian date: first line of each ERFA routine below (called in /repo/palPrec.c:90-103, /repo/palPrenut.c:98-107). -/
noncomputable def cent06 (d1 d2 : ℝ) : ℝ := ((d1 - 2451545) + d2) / 36525

/-- `eraObl06`, called in /repo/palEcmat.c:77 and /repo/palNutc.c:79: mean obliquity of the ecliptic. -/
noncomputable def eraObl06 (d1 d2 : ℝ) : ℝ :=
  let t := cent06 d1 d2
  (84381.406 + (-46.836769 + (-0.0001831 + (0.00200340 + (-0.000000576 + (-0.0000000434) * t) * t) * t) * t) * t) * das2r

/-- The Fukushima-Williams angles (called by `eraPmat06` (/repo/palPrec.c:90)). -/
structure Pfw where
  gamb : ℝ
  phib : ℝ
  psib : ℝ
  epsa : ℝ

/-- `eraPfw06`, called by `eraPmat06` (/repo/palPrec.c:90) and `eraPnm06a` (/repo/palPrenut.c:107). -/
noncomputable def eraPfw06 (d1 d2 : ℝ) : Pfw :=
  let t := cent06 d1 d2
  { gamb := (-0.052928 + (10.556378 + (0.4932044 + (-0.00031238 + (-0.000002788 + 0.0000000260 * t) * t) * t) * t) * t) * das2r
    phib := (84381.412819 + (-46.811016 + (0.0511268 + (0.00053289 + (-0.000000440 + (-0.0000000176) * t) * t) * t) * t) * t) * das2r
    psib := (-0.041775 + (5038.481484 + (1.5584175 + (-0.00018522 + (-0.000026452 + (-0.0000000148) * t) * t) * t) * t) * t) * das2r
    epsa := eraObl06 d1 d2 }

/-- `eraFw2m`, called by `eraPmat06` (/repo/palPrec.c:90) and `eraPnm06a` (/repo/palPrenut.c:107). -/
noncomputable def eraFw2m (gamb phib psi eps : ℝ) : Mat3 := eraRx (-eps) (eraRz (-psi) (eraRx phib (eraRz gamb eraIr)))

/-- `eraPmat06`, called in /repo/palPrec.c:90,95,101,103: bias-precession matrix from GCRS to mean equator and equinox of date. -/
noncomputable def eraPmat06 (d1 d2 : ℝ) : Mat3 :=
  let p := eraPfw06 d1 d2
  eraFw2m p.gamb p.phib p.psib p.epsa

/-- `eraP06e` restricted to the four angles PAL uses, /repo/palPrenut.c:98-104. -/
noncomputable def eraP06e (d1 d2 : ℝ) : P06 :=
  let t := cent06 d1 d2
  let eps0 := 84381.406 * das2r
  { eps0 := eps0
    psia := (5038.481507 + (-1.0790069 + (-0.00114045 + (0.000132851 + (-0.0000000951) * t) * t) * t) * t) * t * das2r
    oma := eps0 + (-0.025754 + (0.0512623 + (-0.00772503 + (-0.000000467 + 0.0000003337 * t) * t) * t) * t) * t * das2r
    chia := (10.556403 + (-2.3814292 + (-0.00121197 + (0.000170663 + (-0.0000000560) * t) * t) * t) * t) * t * das2r }

/-- `eraPnm06a`, called in /repo/palPrenut.c:107: the bias-precession-nutation matrix; `nut` is `eraNut06a`. -/
noncomputable def eraPnm06a (nut : ℝ → ℝ → ℝ × ℝ) (d1 d2 : ℝ) : Mat3 :=
  let p := eraPfw06 d1 d2
  let n := nut d1 d2
  eraFw2m p.gamb p.phib (p.psib + n.1) (p.epsa + n.2)

/-- The theories PAL calls, with the IAU 2006 precession filled in and only the nutation series left open (/repo/palPrec.c:90-103 and /repo/palPrenut.c:98-107). -/
noncomputable def iau2006 (nut : ℝ → ℝ → ℝ × ℝ) : Theory :=
  { pmat06 := eraPmat06, obl06 := eraObl06, nut06a := nut, p06e := eraP06e, pnm06a := eraPnm06a nut }

end Pal
