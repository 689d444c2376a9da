import Verif.Model.Sexa
import Verif.Model.Flt

/-!
# Sexagesimal conversions in double precision

As Verif/Model/Sexa.lean, but with every operation on `double` rounded by `fl` and the constants those the compiler stores.  Only for numbers of decimal places from 0 to 9 (integer overflow for
others is in Verif/Model/Sexa.lean).
-/

namespace Pal

/-- ERFA_DNINT for a non-negative argument, used by eraD2tf (/repo/palOne2One.c:409); recent versions of ERFA return 0 below one half, older ones (`guard = false`) do not test. -/
noncomputable def flNint (fl : ℝ → ℝ) (guard : Bool) (x : ℝ) : ℤ := if guard = true ∧ x < 1 / 2 then 0 else ⌊fl (x + 1 / 2)⌋

/-- `eraD2tf`, called by /repo/palOne2One.c:409, in double precision.  (Casts of non-negative integral values to `int` are exact.) -/
noncomputable def flD2tf (fl : ℝ → ℝ) (guard : Bool) (ndp : ℕ) (days : ℝ) : Hmsf :=
  let sign := if days ≥ 0 then '+' else '-'
  let a := fl (86400 * |days|)
  let rs : ℝ := ((10 ^ ndp : ℤ) : ℝ)
  let rm := fl (rs * 60)
  let rh := fl (rm * 60)
  let a : ℝ := flNint fl guard (fl (rs * a))
  let ah : ℤ := ⌊fl (a / rh)⌋
  let a := fl (a - fl (ah * rh))
  let am : ℤ := ⌊fl (a / rm)⌋
  let a := fl (a - fl (am * rm))
  let as : ℤ := ⌊fl (a / rs)⌋
  let af : ℤ := ⌊fl (a - fl (as * rs))⌋
  ⟨sign, ah, am, as, af⟩

/-- ERFA_D2PI as stored, used by /repo/palOne2One.c:690, 730. -/
noncomputable def flD2PI (fl : ℝ → ℝ) : ℝ := fl 6.283185307179586476925287
/-- ERFA_DS2R as stored, used by /repo/palOne2One.c:938. -/
noncomputable def flDS2R (fl : ℝ → ℝ) : ℝ := fl 7.272205216643039903848712e-5
/-- ERFA_DAS2R as stored, used by /repo/palOne2One.c:248. -/
noncomputable def flDAS2R (fl : ℝ → ℝ) : ℝ := fl 4.848136811095359935899141e-6

/-- The seconds of three fields: `60.0 * (60.0 * abs(h) + abs(m)) + fabs(s)` with rounding, in eraTf2d, eraTf2a and eraAf2a (/repo/palOne2One.c:247, 893, 937). -/
noncomputable def flSeconds (fl : ℝ → ℝ) (h m : ℤ) (s : ℝ) : ℝ :=
  fl (fl (60 * fl (fl (60 * ((|h| : ℤ) : ℝ)) + ((|m| : ℤ) : ℝ))) + |s|)

/-- `palDd2tf`, /repo/palOne2One.c:408-410. -/
noncomputable def flDd2tf (fl : ℝ → ℝ) (guard : Bool) (ndp : ℕ) (days : ℝ) : Hmsf := flD2tf fl guard ndp days
/-- `palDr2tf` (`eraA2tf`), /repo/palOne2One.c:729-731. -/
noncomputable def flDr2tf (fl : ℝ → ℝ) (guard : Bool) (ndp : ℕ) (angle : ℝ) : Hmsf := flD2tf fl guard ndp (fl (angle / flD2PI fl))
/-- `palDr2af` (`eraA2af`), /repo/palOne2One.c:689-691. -/
noncomputable def flDr2af (fl : ℝ → ℝ) (guard : Bool) (ndp : ℕ) (angle : ℝ) : Hmsf := flD2tf fl guard ndp (fl (angle * fl (15 / flD2PI fl)))
/-- `palDtf2d` (`eraTf2d`), /repo/palOne2One.c:893-895 (the factor 1.0 for the sign is exact). -/
noncomputable def flDtf2d (fl : ℝ → ℝ) (h m : ℤ) (s : ℝ) : ℝ := fl (flSeconds fl h m s / 86400)
/-- `palDtf2r` (`eraTf2a`), /repo/palOne2One.c:937-939. -/
noncomputable def flDtf2r (fl : ℝ → ℝ) (h m : ℤ) (s : ℝ) : ℝ := fl (flSeconds fl h m s * flDS2R fl)
/-- `palDaf2r` (`eraAf2a`), /repo/palOne2One.c:247-249. -/
noncomputable def flDaf2r (fl : ℝ → ℝ) (h m : ℤ) (s : ℝ) : ℝ := fl (flSeconds fl h m s * flDAS2R fl)

end Pal
