import Verif.Model.FlNut

/-!
# palMap and palAmp in double precision
-/

namespace Pal

/-- `palMap`, /repo/palMap.c:116-128. -/
noncomputable def flMap (fl : ℝ → ℝ) (L : Libm) (nz : Bool) (nut : ℝ → ℝ → ℝ × ℝ) (epv00 : ℝ → ℝ → Epv) (rm dm pr pd px rv eq date : ℝ) : ℝ × ℝ :=
  flMapqk fl L nz rm dm pr pd px rv (flMappa fl L nut epv00 eq date)

/-- `palAmp`, /repo/palAmp.c:79-84. -/
noncomputable def flAmp (fl : ℝ → ℝ) (L : Libm) (nz : Bool) (nut : ℝ → ℝ → ℝ × ℝ) (epv00 : ℝ → ℝ → Epv) (ra da date eq : ℝ) : ℝ × ℝ :=
  flAmpqk fl L nz ra da (flMappa fl L nut epv00 eq date)

end Pal
