import Verif.Model.FlSexa
import Verif.Model.Erfa

/-!
# Normalisation of angles in double (and single) precision

C `fmod` is exact for floating-point numbers, so it needs no rounding (`fmod` of Verif/Model/Erfa.lean).
-/

namespace Pal

/-- PAL__DPI as stored, /repo/palmac.h:63. -/
noncomputable def flPalPI (fl : ℝ → ℝ) : ℝ := fl 3.1415926535897932384626433832795028841971693993751
/-- PAL__D2PI as stored, /repo/palmac.h:66. -/
noncomputable def flPal2PI (fl : ℝ → ℝ) : ℝ := fl 6.2831853071795864769252867665590057683943387987502

/-- `palDrange`, /repo/palDrange.c:68-76. -/
noncomputable def flDrange (fl : ℝ → ℝ) (angle : ℝ) : ℝ :=
  let result := fmod angle (flPal2PI fl)
  if result > flPalPI fl then fl (result - flPal2PI fl) else if result < -flPalPI fl then fl (result + flPal2PI fl) else result

/-- `eraAnp`, wrapped by palDranrm, /repo/palOne2One.c:766-768. -/
noncomputable def flAnp (fl : ℝ → ℝ) (a : ℝ) : ℝ :=
  let w := fmod a (flD2PI fl)
  if w < 0 then fl (w + flD2PI fl) else w

/-- `palDranrm`, /repo/palOne2One.c:766-768. -/
noncomputable def flDranrm (fl : ℝ → ℝ) (angle : ℝ) : ℝ := flAnp fl angle

/-- IEEE 754 binary32 rounding to nearest, ties to even, without overflow (conversions to `float` in /repo/palRanorm.c:68-69). -/
noncomputable def ieeeSingle (x : ℝ) : ℝ := rne (x / 2 ^ (max (Int.log 2 |x|) (-126) - 23)) * 2 ^ (max (Int.log 2 |x|) (-126) - 23)

/-- `palRanorm`, /repo/palRanorm.c:66-71: `fmodf` takes its second argument as a `float`, the sum is made in `double` and converted to `float`. -/
noncomputable def flRanorm (angle : ℝ) : ℝ :=
  let reduced := fmod angle (ieeeSingle (flPal2PI ieee))
  if reduced < 0 then ieeeSingle (ieee (reduced + flPal2PI ieee)) else reduced

end Pal
