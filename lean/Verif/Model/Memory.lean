import Verif.Model.Erfa
import Verif.Model.Fit
import Verif.Model.Refr

/-!
# Functions on arrays in memory

The other modules model a function with array arguments as a mathematical function from the contents of its inputs to the contents of its outputs, as if the arrays could
not overlap.  Here those functions are modelled statement by statement on a memory, a pointer being the address of the first element, so that the arrays may be the same or
overlap.  One address holds one double; local variables and local arrays are not in the memory.
-/

namespace Pal.Memory
open Pal

/-- The memory: one double per address (what the pointer arguments point into, e.g. /repo/palRefv.c:129). -/
abbrev Mem := ℕ → ℝ

/-- A fragment of C that uses the memory (e.g. /repo/palRefv.c:129-155). -/
abbrev Prog := StateM Mem

/-- `*p` as an expression (e.g. /repo/palRefv.c:134-136). -/
def load (p : ℕ) : Prog ℝ := fun m => (m p, m)

/-- `*p = v` (e.g. /repo/palRefv.c:153-155). -/
def store (p : ℕ) (v : ℝ) : Prog Unit := fun m => ((), Function.update m p v)

/-- `palRefv`, /repo/palRefv.c:129-155. -/
noncomputable def memRefv (vu : ℕ) (refa refb : ℝ) (vr : ℕ) : Prog Unit := do
  let x ← load vu
  let y ← load (vu + 1)
  let z1 ← load (vu + 2)
  let z := max z1 0.05
  let zsq := z * z
  let rsq := x * x + y * y
  let r := √rsq
  let wb := refb * rsq / zsq
  let wt := (refa + wb) / (1 + (refa + 3 * wb) * (zsq + rsq) / zsq)
  let d := wt * r / z
  let cd := 1 - d * d / 2
  let f := cd * (1 - wt)
  store vr (x * f)
  store (vr + 1) (y * f)
  store (vr + 2) (cd * (z + d * r) + (z1 - z))

/-- `palInvf`, /repo/palInvf.c:97-119; the value is what is stored in *j. -/
noncomputable def memInvf (fwds bkwds : ℕ) : Prog ℤ := do
  let a ← load fwds
  let b ← load (fwds + 1)
  let c ← load (fwds + 2)
  let d ← load (fwds + 3)
  let e ← load (fwds + 4)
  let f ← load (fwds + 5)
  let det := b * f - c * e
  if det ≠ 0 then
    store bkwds ((c * d - a * f) / det)
    store (bkwds + 1) (f / det)
    store (bkwds + 2) (-c / det)
    store (bkwds + 3) ((a * e - b * d) / det)
    store (bkwds + 4) (-e / det)
    store (bkwds + 5) (b / det)
    return 0
  else
    return -1

/-- One element of the loop in ERFA's eraRxp: the scalar product of the row of three doubles at r with the vector at p (called at /repo/palOne2One.c:606). -/
noncomputable def rowTimes (r p : ℕ) : Prog ℝ := do
  return (← load r) * (← load p) + (← load (r + 1)) * (← load (p + 1)) + (← load (r + 2)) * (← load (p + 2))

/-- `palDmxv`, /repo/palOne2One.c:605-607, that is ERFA's eraRxp: the result is formed in the local array wrp and then copied. -/
noncomputable def memDmxv (dm va vb : ℕ) : Prog Unit := do
  let w0 ← rowTimes dm va
  let w1 ← rowTimes (dm + 3) va
  let w2 ← rowTimes (dm + 6) va
  store vb w0
  store (vb + 1) w1
  store (vb + 2) w2

/-- The scalar product of the column of a 3x3 matrix at r with the vector at p (called at /repo/palOne2One.c:447). -/
noncomputable def colTimes (r p : ℕ) : Prog ℝ := do
  return (← load r) * (← load p) + (← load (r + 3)) * (← load (p + 1)) + (← load (r + 6)) * (← load (p + 2))

/-- `palDimxv`, /repo/palOne2One.c:446-448, that is ERFA's eraTrxp: the transpose is a local array (simplification: its elements are read where they are used), the rest
is eraRxp. -/
noncomputable def memDimxv (dm va vb : ℕ) : Prog Unit := do
  let w0 ← colTimes dm va
  let w1 ← colTimes (dm + 1) va
  let w2 ← colTimes (dm + 2) va
  store vb w0
  store (vb + 1) w1
  store (vb + 2) w2

/-- One element of the loop in ERFA's eraRxr: row at a times column at b (called at /repo/palOne2One.c:568). -/
noncomputable def rowCol (a b : ℕ) : Prog ℝ := do
  return (← load a) * (← load b) + (← load (a + 1)) * (← load (b + 3)) + (← load (a + 2)) * (← load (b + 6))

/-- `palDmxm`, /repo/palOne2One.c:567-569, that is ERFA's eraRxr: the result is formed in the local array wm and then copied. -/
noncomputable def memDmxm (a b c : ℕ) : Prog Unit := do
  let w00 ← rowCol a b
  let w01 ← rowCol a (b + 1)
  let w02 ← rowCol a (b + 2)
  let w10 ← rowCol (a + 3) b
  let w11 ← rowCol (a + 3) (b + 1)
  let w12 ← rowCol (a + 3) (b + 2)
  let w20 ← rowCol (a + 6) b
  let w21 ← rowCol (a + 6) (b + 1)
  let w22 ← rowCol (a + 6) (b + 2)
  store c w00
  store (c + 1) w01
  store (c + 2) w02
  store (c + 3) w10
  store (c + 4) w11
  store (c + 5) w12
  store (c + 6) w20
  store (c + 7) w21
  store (c + 8) w22

/-- `palDvxv`, /repo/palOne2One.c:1053-1055, that is ERFA's eraPxp. -/
noncomputable def memDvxv (va vb vc : ℕ) : Prog Unit := do
  let xa ← load va
  let ya ← load (va + 1)
  let za ← load (va + 2)
  let xb ← load vb
  let yb ← load (vb + 1)
  let zb ← load (vb + 2)
  store vc (ya * zb - za * yb)
  store (vc + 1) (za * xb - xa * zb)
  store (vc + 2) (xa * yb - ya * xb)

/-- `palDvn`, /repo/palOne2One.c:1015-1017, that is ERFA's eraPn (with eraPm, eraZp and eraSxp). -/
noncomputable def memDvn (v uv vm : ℕ) : Prog Unit := do
  let w := √((← load v) * (← load v) + (← load (v + 1)) * (← load (v + 1)) + (← load (v + 2)) * (← load (v + 2)))
  if w = 0 then
    store uv 0
    store (uv + 1) 0
    store (uv + 2) 0
  else
    store uv (1 / w * (← load v))
    store (uv + 1) (1 / w * (← load (v + 1)))
    store (uv + 2) (1 / w * (← load (v + 2)))
  store vm w

/-- `palDav2m`, /repo/palOne2One.c:286-288, that is ERFA's eraRv2m. -/
noncomputable def memDav2m (axvec rmat : ℕ) : Prog Unit := do
  let x ← load axvec
  let y ← load (axvec + 1)
  let z ← load (axvec + 2)
  let phi := √(x * x + y * y + z * z)
  let s := Real.sin phi
  let c := Real.cos phi
  let f := 1 - c
  let x := if phi > 0 then x / phi else x
  let y := if phi > 0 then y / phi else y
  let z := if phi > 0 then z / phi else z
  store rmat (x * x * f + c)
  store (rmat + 1) (x * y * f + z * s)
  store (rmat + 2) (x * z * f - y * s)
  store (rmat + 3) (y * x * f - z * s)
  store (rmat + 4) (y * y * f + c)
  store (rmat + 5) (y * z * f + x * s)
  store (rmat + 6) (z * x * f + y * s)
  store (rmat + 7) (z * y * f - x * s)
  store (rmat + 8) (z * z * f + c)

/-- `palDm2av`, /repo/palOne2One.c:486-488, that is ERFA's eraRm2v. -/
noncomputable def memDm2av (rmat axvec : ℕ) : Prog Unit := do
  let x := (← load (rmat + 5)) - (← load (rmat + 7))
  let y := (← load (rmat + 6)) - (← load (rmat + 2))
  let z := (← load (rmat + 1)) - (← load (rmat + 3))
  let s2 := √(x * x + y * y + z * z)
  if s2 > 0 then
    let c2 := (← load rmat) + (← load (rmat + 4)) + (← load (rmat + 8)) - 1
    let phi := atan2 s2 c2
    let f := phi / s2
    store axvec (x * f)
    store (axvec + 1) (y * f)
    store (axvec + 2) (z * f)
  else
    store axvec 0
    store (axvec + 1) 0
    store (axvec + 2) 0

/-- The loop of `palPxy`, /repo/palPxy.c:110-127, with k samples still to come: sums of squared residuals. -/
noncomputable def pxyLoop (xye xym coeffs xyp : ℕ) : ℕ → ℕ → ℝ → ℝ → Prog (ℝ × ℝ)
  | 0, _, sdx2, sdy2 => return (sdx2, sdy2)
  | k + 1, i, sdx2, sdy2 => do
    let x1 ← load (xym + 2 * i)
    let y1 ← load (xym + (2 * i + 1))
    let xp := (← load coeffs) + (← load (coeffs + 1)) * x1 + (← load (coeffs + 2)) * y1
    let yp := (← load (coeffs + 3)) + (← load (coeffs + 4)) * x1 + (← load (coeffs + 5)) * y1
    store (xyp + 2 * i) xp
    store (xyp + (2 * i + 1)) yp
    let dx := (← load (xye + 2 * i)) - xp
    let dy := (← load (xye + (2 * i + 1))) - yp
    let dx2 := dx * dx
    let dy2 := dy * dy
    pxyLoop xye xym coeffs xyp k (i + 1) (sdx2 + dx2) (sdy2 + dy2)

/-- `palPxy`, /repo/palPxy.c:100-134 (simplification: the pointers to the three RMS values are taken to point outside the arrays, and the values are returned). -/
noncomputable def memPxy (np xye xym coeffs xyp : ℕ) : Prog (ℝ × ℝ × ℝ) := do
  let (sdx2, sdy2) ← pxyLoop xye xym coeffs xyp np 0 0 0
  let p : ℝ := if (1 : ℝ) > np then 1 else np
  let xrms := √(sdx2 / p)
  let yrms := √(sdy2 / p)
  return (xrms, yrms, √(xrms * xrms + yrms * yrms))

end Pal.Memory
