import Verif.Model.Dmat
import Mathlib.Algebra.BigOperators.Fin
import Mathlib.Analysis.Real.Sqrt
import Mathlib.LinearAlgebra.Matrix.Notation

/-!
# Model of the plate-model functions palFitxy, palXy2xy, palInvf, palPxy

Doubles are elements of an arbitrary ordered field; palPxy, which takes square roots, uses the reals.
Arrays `double xy[][2]` of `np` samples are functions `Fin np → F × F`, `double coeffs[6]` is `Fin 6 → F`.
Summation loops are written as finite sums (in exact arithmetic the order is irrelevant).
A negative `np` is not represented: the code treats it as fewer than two samples.
-/

namespace Pal

section
variable {F : Type*} [Field F] [LinearOrder F]

/-- Matrix times vector, `palDmxv` (`eraRxp`), /repo/palOne2One.c:605-607, on the 3×3 array of palFitxy. -/
def mxv3 (m : Matrix (Fin 3) (Fin 3) F) (v : Fin 3 → F) : Fin 3 → F :=
  fun i => m i 0 * v 0 + m i 1 * v 1 + m i 2 * v 2

/-- The normal matrix of the six-coefficient fit, /repo/palFitxy.c:188-196. -/
def fit6Mat {np : ℕ} (xym : Fin np → F × F) : Matrix (Fin 3) (Fin 3) F :=
  let sxm := ∑ i, (xym i).1
  let sym := ∑ i, (xym i).2
  let sxmxm := ∑ i, (xym i).1 * (xym i).1
  let sxmym := ∑ i, (xym i).1 * (xym i).2
  let symym := ∑ i, (xym i).2 * (xym i).2
  !![(np : F), sxm, sym; sxm, sxmxm, sxmym; sym, sxmym, symym]

/-- Six-coefficient branch of palFitxy, /repo/palFitxy.c:147-218; `dmat` is palDmat of order 3. -/
def fitxy6 (sfa : F) {np : ℕ} (xye xym : Fin np → F × F) (coeffs : Fin 6 → F) : ℤ × (Fin 6 → F) :=
  if 3 ≤ np then
    let sxe := ∑ i, (xye i).1
    let sxexm := ∑ i, (xye i).1 * (xym i).1
    let sxeym := ∑ i, (xye i).1 * (xym i).2
    let sye := ∑ i, (xye i).2
    let syeym := ∑ i, (xye i).2 * (xym i).2
    let syexm := ∑ i, (xye i).2 * (xym i).1
    let r := dmatT sfa (fit6Mat xym) ![sxe, sxexm, sxeym] ![0, 0, 0]
    if r.jf = 0 then
      let w := mxv3 r.a ![sye, syexm, syeym]
      (0, ![r.y 0, r.y 1, r.y 2, w 0, w 1, w 2])
    else (-3, coeffs)
  else (-2, coeffs)

/-- The normal matrix of the four-coefficient fit, /repo/palFitxy.c:262-277. -/
def fit4Mat {np : ℕ} (xym : Fin np → F × F) : Matrix (Fin 4) (Fin 4) F :=
  let sxm := ∑ i, (xym i).1
  let sym := ∑ i, (xym i).2
  let sx2y2 := ∑ i, ((xym i).1 * (xym i).1 + (xym i).2 * (xym i).2)
  !![(np : F), sxm, -sym, 0; sxm, sx2y2, 0, sym; sym, 0, -sx2y2, -sxm; 0, sym, sxm, (np : F)]

/-- One pass (given `sgn`) of the four-coefficient fit, /repo/palFitxy.c:226-310: solution vector, sum of squared residuals (-1 if
singular) and palDmat status. -/
def fit4Pass (sfa : F) {np : ℕ} (xye xym : Fin np → F × F) (sgn : F) : (Fin 4 → F) × F × ℤ :=
  let sxe := ∑ i, (xye i).1 * sgn
  let sxxyy := ∑ i, ((xye i).1 * sgn * (xym i).1 + (xye i).2 * (xym i).2)
  let sxyyx := ∑ i, ((xye i).1 * sgn * (xym i).2 - (xye i).2 * (xym i).1)
  let sye := ∑ i, (xye i).2
  let r := dmatT sfa (fit4Mat xym) ![sxe, sxxyy, sxyyx, sye] ![0, 0, 0, 0]
  let v := r.y
  let sdr2 := if r.jf = 0 then
      ∑ i, ((v 0 + v 1 * (xym i).1 - v 2 * (xym i).2 - (xye i).1 * sgn) ^ 2 +
            (v 3 + v 2 * (xym i).1 + v 1 * (xym i).2 - (xye i).2) ^ 2)
    else -1
  (v, sdr2, r.jf)

/-- Four-coefficient branch of palFitxy, /repo/palFitxy.c:219-334.  `aold ... dold`, `sold` keep their initial 0 if the first pass is
singular, `a ... d` if the second is. -/
def fitxy4 (sfa : F) {np : ℕ} (xye xym : Fin np → F × F) (coeffs : Fin 6 → F) : ℤ × (Fin 6 → F) :=
  if 2 ≤ np then
    let r1 := fit4Pass sfa xye xym 1
    let old : Fin 4 → F := if r1.2.2 = 0 then r1.1 else ![0, 0, 0, 0]
    let sold : F := if r1.2.2 = 0 then r1.2.1 else 0
    let r2 := fit4Pass sfa xye xym (-1)
    let cur : Fin 4 → F := r2.1
    if 0 ≤ sold ∧ (sold ≤ r2.2.1 ∨ np = 2) then
      (0, ![old 0, old 1, -old 2, old 3, old 2, old 1])
    else if r2.2.2 = 0 then
      (0, ![-cur 0, -cur 1, cur 2, cur 3, cur 2, cur 1])
    else (-3, coeffs)
  else (-2, coeffs)

/-- palFitxy with a general singularity threshold for palDmat (/repo/palFitxy.c:119-339). -/
def fitxyT (sfa : F) (itype : ℤ) {np : ℕ} (xye xym : Fin np → F × F) (coeffs : Fin 6 → F) : ℤ × (Fin 6 → F) :=
  if itype = 6 then fitxy6 sfa xye xym coeffs
  else if itype = 4 then fitxy4 sfa xye xym coeffs
  else (-1, coeffs)

/-- `palFitxy`, /repo/palFitxy.c:119-339: status and coefficients (given their previous contents). -/
def palFitxy (itype : ℤ) {np : ℕ} (xye xym : Fin np → F × F) (coeffs : Fin 6 → F) : ℤ × (Fin 6 → F) :=
  fitxyT (1 / 10 ^ 20) itype xye xym coeffs

/-- `palXy2xy`, /repo/palXy2xy.c:84-89. -/
def palXy2xy (x1 y1 : F) (coeffs : Fin 6 → F) : F × F :=
  (coeffs 0 + coeffs 1 * x1 + coeffs 2 * y1, coeffs 3 + coeffs 4 * x1 + coeffs 5 * y1)

/-- `palInvf`, /repo/palInvf.c:97-119: status and backward coefficients (given their previous contents). -/
def palInvf (fwds bkwds : Fin 6 → F) : ℤ × (Fin 6 → F) :=
  let a := fwds 0
  let b := fwds 1
  let c := fwds 2
  let d := fwds 3
  let e := fwds 4
  let f := fwds 5
  let det := b * f - c * e
  if det ≠ 0 then
    (0, ![(c * d - a * f) / det, f / det, -c / det, (a * e - b * d) / det, -e / det, b / det])
  else (-1, bkwds)

end

/-- `palPxy`, /repo/palPxy.c:100-134: predicted coordinates and the three RMS values. -/
noncomputable def palPxy {np : ℕ} (xye xym : Fin np → ℝ × ℝ) (coeffs : Fin 6 → ℝ) :
    (Fin np → ℝ × ℝ) × ℝ × ℝ × ℝ :=
  let xyp := fun i => palXy2xy (xym i).1 (xym i).2 coeffs
  let sdx2 := ∑ i, ((xye i).1 - (xyp i).1) * ((xye i).1 - (xyp i).1)
  let sdy2 := ∑ i, ((xye i).2 - (xyp i).2) * ((xye i).2 - (xyp i).2)
  let p : ℝ := if (1 : ℝ) > np then 1 else np
  let xrms := √(sdx2 / p)
  let yrms := √(sdy2 / p)
  (xyp, xrms, yrms, √(xrms * xrms + yrms * yrms))

end Pal
