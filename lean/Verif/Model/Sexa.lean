import Verif.Model.Moon

/-!
# Sexagesimal conversions

The PAL functions are wrappers around ERFA's, which are modelled from ERFA's published definition.  `none` stands for undefined behaviour: an integer overflow.
-/

namespace Pal
open Real

/-- Sign and the four fields of `ihmsf`/`idmsf` (results of /repo/palOne2One.c:409). -/
structure Hmsf where
  sign : Char
  h : ℤ
  m : ℤ
  s : ℤ
  f : ℤ

/-- The largest C `int` (/repo/palOne2One.c:409). -/
def intMax : ℤ := 2147483647

/-- ERFA_DNINT for a non-negative argument, used by eraD2tf (/repo/palOne2One.c:409). -/
noncomputable def erfaNint (x : ℝ) : ℤ := ⌊x + 1 / 2⌋

/-- The factor by which one more place coarser or finer changes the unit (loops of eraD2tf, called by /repo/palOne2One.c:409): coarser units than seconds go
10 s, 1 min, 10 min, 1 h, 10 h, … -/
def d2tfUnit : ℕ → ℤ
  | 0 => 1
  | n + 1 => d2tfUnit n * (if n + 1 = 2 ∨ n + 1 = 4 then 6 else 10)

/-- `eraD2tf`, called by /repo/palOne2One.c:409. -/
noncomputable def eraD2tf (ndp : ℤ) (days : ℝ) : Option Hmsf :=
  let sign := if days ≥ 0 then '+' else '-'
  let a := 86400 * |days|
  if ndp < 0 ∧ d2tfUnit (-ndp).toNat > intMax then none
  else
    let a := if ndp < 0 then (d2tfUnit (-ndp).toNat : ℝ) * erfaNint (a / d2tfUnit (-ndp).toNat) else a
    let nrs : ℤ := 10 ^ ndp.toNat
    if nrs > intMax then none
    else
      let rs : ℝ := nrs
      let rm := rs * 60
      let rh := rm * 60
      let a : ℝ := erfaNint (rs * a)
      let ah := ⌊a / rh⌋
      let a := a - ah * rh
      let am := ⌊a / rm⌋
      let a := a - am * rm
      let as := ⌊a / rs⌋
      let af := ⌊a - as * rs⌋
      if ah > intMax then none else some ⟨sign, ah, am, as, af⟩

/-- `palDd2tf`, /repo/palOne2One.c:408-410. -/
noncomputable def palDd2tf (ndp : ℤ) (days : ℝ) : Option Hmsf := eraD2tf ndp days

/-- `palDr2tf` (`eraA2tf`), /repo/palOne2One.c:729-731. -/
noncomputable def palDr2tf (ndp : ℤ) (angle : ℝ) : Option Hmsf := eraD2tf ndp (angle / (2 * π))

/-- `palDr2af` (`eraA2af`), /repo/palOne2One.c:689-691. -/
noncomputable def palDr2af (ndp : ℤ) (angle : ℝ) : Option Hmsf := eraD2tf ndp (angle * (15 / (2 * π)))

/-- The range checks of eraTf2d, eraTf2a and eraAf2a (/repo/palOne2One.c:247, 893, 937); `n` is 23 or 359. -/
noncomputable def sexaStatus (n : ℤ) (i1 i2 : ℤ) (x : ℝ) : ℤ :=
  if i1 < 0 ∨ i1 > n then 1 else if i2 < 0 ∨ i2 > 59 then 2 else if x < 0 ∨ x ≥ 60 then 3 else 0

/-- `palDtf2d` (`eraTf2d` with the sign ' '), /repo/palOne2One.c:893-895: days and status. -/
noncomputable def palDtf2d (ihour imin : ℤ) (sec : ℝ) : ℝ × ℤ :=
  ((60 * (60 * ((|ihour| : ℤ) : ℝ) + ((|imin| : ℤ) : ℝ)) + |sec|) / 86400, sexaStatus 23 ihour imin sec)

/-- `palDtf2r` (`eraTf2a`), /repo/palOne2One.c:937-939: radians and status. -/
noncomputable def palDtf2r (ihour imin : ℤ) (sec : ℝ) : ℝ × ℤ :=
  ((60 * (60 * ((|ihour| : ℤ) : ℝ) + ((|imin| : ℤ) : ℝ)) + |sec|) * ds2r, sexaStatus 23 ihour imin sec)

/-- `palDaf2r` (`eraAf2a`), /repo/palOne2One.c:247-249: radians and status. -/
noncomputable def palDaf2r (ideg iamin : ℤ) (asec : ℝ) : ℝ × ℤ :=
  ((60 * (60 * ((|ideg| : ℤ) : ℝ) + ((|iamin| : ℤ) : ℝ)) + |asec|) * das2r, sexaStatus 359 ideg iamin asec)

end Pal
