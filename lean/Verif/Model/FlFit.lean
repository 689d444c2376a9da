import Verif.Model.Flt
import Verif.Model.Fit

/-!
# Plate models in double precision

The operations of `palXy2xy`, `palInvf` and `palPxy` (Model/Fit.lean) with a rounding after each, in the order of the C code.
-/

namespace Pal

/-- One coordinate of `palXy2xy`, `a + b * x + c * y` from left to right, /repo/palXy2xy.c:87. -/
noncomputable def flLin (fl : ℝ → ℝ) (a b c x y : ℝ) : ℝ := fl (fl (a + fl (b * x)) + fl (c * y))

/-- `palXy2xy`, /repo/palXy2xy.c:84-89. -/
noncomputable def flXy2xy (fl : ℝ → ℝ) (x1 y1 : ℝ) (coeffs : Fin 6 → ℝ) : ℝ × ℝ :=
  (flLin fl (coeffs 0) (coeffs 1) (coeffs 2) x1 y1, flLin fl (coeffs 3) (coeffs 4) (coeffs 5) x1 y1)

/-- `palInvf`, /repo/palInvf.c:97-119: status and backward coefficients (given their previous contents). -/
noncomputable def flInvf (fl : ℝ → ℝ) (fwds bkwds : Fin 6 → ℝ) : ℤ × (Fin 6 → ℝ) :=
  let a := fwds 0
  let b := fwds 1
  let c := fwds 2
  let d := fwds 3
  let e := fwds 4
  let f := fwds 5
  let det := fl (fl (b * f) - fl (c * e))
  if det ≠ 0 then
    (0, ![fl (fl (fl (c * d) - fl (a * f)) / det), fl (f / det), fl (-c / det), fl (fl (fl (a * e) - fl (b * d)) / det), fl (-e / det), fl (b / det)])
  else (-1, bkwds)

/-- The loop of `palPxy` over the first `n` samples, /repo/palPxy.c:106-127: the sum of the squared residuals of one coordinate (`e` expected, `p` predicted). -/
noncomputable def flSumSq (fl : ℝ → ℝ) (e p : ℕ → ℝ) : ℕ → ℝ
  | 0 => 0
  | n + 1 => fl (flSumSq fl e p n + fl (fl (e n - p n) * fl (e n - p n)))

/-- `palPxy`, /repo/palPxy.c:100-134: predicted coordinates of the samples and the three RMS values (the samples after the first `np` play no role). -/
noncomputable def flPxy (fl : ℝ → ℝ) (np : ℕ) (xye xym : ℕ → ℝ × ℝ) (coeffs : Fin 6 → ℝ) : (ℕ → ℝ × ℝ) × ℝ × ℝ × ℝ :=
  let xyp := fun i => flXy2xy fl (xym i).1 (xym i).2 coeffs
  let sdx2 := flSumSq fl (fun i => (xye i).1) (fun i => (xyp i).1) np
  let sdy2 := flSumSq fl (fun i => (xye i).2) (fun i => (xyp i).2) np
  let p : ℝ := if (1 : ℝ) > np then 1 else np
  let xrms := fl (√(fl (sdx2 / p)))
  let yrms := fl (√(fl (sdy2 / p)))
  (xyp, xrms, yrms, fl (√(fl (fl (xrms * xrms) + fl (yrms * yrms)))))

end Pal
