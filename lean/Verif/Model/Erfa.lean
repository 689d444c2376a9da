import Mathlib.Analysis.SpecialFunctions.Complex.Arg
import Mathlib.LinearAlgebra.Matrix.Notation
import Mathlib.Algebra.Order.Floor.Ring

/-!
# C mathematics and the ERFA vector/angle library

The numeric part of PAL is modelled over the real numbers: rounding, overflow, NaN and signed zeros are not represented, and PAL__DPI, PAL__D2PI,
PAL__DPIBY2 (/repo/palmac.h:63-69) are the exact multiples of π.  ERFA is an external library that is not part of /repo; the small vector and angle routines
below are transcribed from its published definitions.  The line numbers refer to the PAL wrapper (or an example of a caller) in /repo.
-/

namespace Pal

/-- `double [3]`, used all over /repo, e.g. /repo/palOne2One.c:327-329. -/
abbrev Vec3 := Fin 3 → ℝ

/-- `double [3][3]`, e.g. /repo/palOne2One.c:567-569. -/
abbrev Mat3 := Matrix (Fin 3) (Fin 3) ℝ

/-- C `atan2(y, x)` (ISO C 7.12.4.4), e.g. /repo/palDe2h.c:133; `atan2(0,0) = 0`, signed zeros ignored. -/
noncomputable def atan2 (y x : ℝ) : ℝ := Complex.arg ⟨x, y⟩

/-- Truncation towards zero, as used by C `fmod` and conversion to integer (e.g. /repo/palDrange.c:69). -/
noncomputable def truncR (x : ℝ) : ℤ := if 0 ≤ x then ⌊x⌋ else ⌈x⌉

/-- C `fmod(x, y)`, e.g. /repo/palDrange.c:69. -/
noncomputable def fmod (x y : ℝ) : ℝ := x - y * truncR (x / y)

/-- `eraAnp`, wrapped by palDranrm, /repo/palOne2One.c:766-768. -/
noncomputable def eraAnp (a : ℝ) : ℝ :=
  let w := fmod a (2 * Real.pi)
  if w < 0 then w + 2 * Real.pi else w

/-- `eraAnpm`, used e.g. in /repo/palEqgal.c:116; fmod then one step if the magnitude is at least π. -/
noncomputable def eraAnpm (a : ℝ) : ℝ :=
  let w := fmod a (2 * Real.pi)
  if |w| ≥ Real.pi then (if a < 0 then w + 2 * Real.pi else w - 2 * Real.pi) else w

/-- `eraS2c`, wrapped by palDcs2c, /repo/palOne2One.c:368-370. -/
noncomputable def eraS2c (theta phi : ℝ) : Vec3 :=
  ![Real.cos theta * Real.cos phi, Real.sin theta * Real.cos phi, Real.sin phi]

/-- `eraC2s`, wrapped by palDcc2s, /repo/palOne2One.c:327-329. -/
noncomputable def eraC2s (p : Vec3) : ℝ × ℝ :=
  let d2 := p 0 * p 0 + p 1 * p 1
  (if d2 = 0 then 0 else atan2 (p 1) (p 0), if p 2 = 0 then 0 else atan2 (p 2) (√d2))

/-- `eraPdp`, wrapped by palDvdv, /repo/palOne2One.c:976-978. -/
def eraPdp (a b : Vec3) : ℝ := a 0 * b 0 + a 1 * b 1 + a 2 * b 2

/-- `eraPxp`, wrapped by palDvxv, /repo/palOne2One.c:1053-1055. -/
def eraPxp (a b : Vec3) : Vec3 :=
  ![a 1 * b 2 - a 2 * b 1, a 2 * b 0 - a 0 * b 2, a 0 * b 1 - a 1 * b 0]

/-- `eraPm`, used by eraPn and eraSepp (/repo/palOne2One.c:850 and 1016). -/
noncomputable def eraPm (p : Vec3) : ℝ := √(p 0 * p 0 + p 1 * p 1 + p 2 * p 2)

/-- `eraPn`, wrapped by palDvn, /repo/palOne2One.c:1015-1017: modulus and unit vector. -/
noncomputable def eraPn (p : Vec3) : ℝ × Vec3 :=
  let w := eraPm p
  if w = 0 then (w, fun _ => 0) else (w, fun i => 1 / w * p i)

/-- `eraRxp`, wrapped by palDmxv, /repo/palOne2One.c:605-607. -/
def eraRxp (r : Mat3) (p : Vec3) : Vec3 := fun j => r j 0 * p 0 + r j 1 * p 1 + r j 2 * p 2

/-- `eraTr`, transpose; used by eraTrxp and in /repo/palPrec.c:103. -/
def eraTr (r : Mat3) : Mat3 := fun i j => r j i

/-- `eraTrxp`, wrapped by palDimxv, /repo/palOne2One.c:446-448. -/
def eraTrxp (r : Mat3) (p : Vec3) : Vec3 := eraRxp (eraTr r) p

/-- `eraRxr`, wrapped by palDmxm, /repo/palOne2One.c:567-569. -/
def eraRxr (a b : Mat3) : Mat3 := fun i j => a i 0 * b 0 j + a i 1 * b 1 j + a i 2 * b 2 j

/-- `eraIr`, used in /repo/palDeuler.c:101. -/
def eraIr : Mat3 := !![1, 0, 0; 0, 1, 0; 0, 0, 1]

/-- `eraRx`, used in /repo/palDeuler.c:115. -/
noncomputable def eraRx (phi : ℝ) (r : Mat3) : Mat3 :=
  let s := Real.sin phi
  let c := Real.cos phi
  !![r 0 0, r 0 1, r 0 2;
     c * r 1 0 + s * r 2 0, c * r 1 1 + s * r 2 1, c * r 1 2 + s * r 2 2;
     -s * r 1 0 + c * r 2 0, -s * r 1 1 + c * r 2 1, -s * r 1 2 + c * r 2 2]

/-- `eraRy`, used in /repo/palDeuler.c:121. -/
noncomputable def eraRy (theta : ℝ) (r : Mat3) : Mat3 :=
  let s := Real.sin theta
  let c := Real.cos theta
  !![c * r 0 0 - s * r 2 0, c * r 0 1 - s * r 2 1, c * r 0 2 - s * r 2 2;
     r 1 0, r 1 1, r 1 2;
     s * r 0 0 + c * r 2 0, s * r 0 1 + c * r 2 1, s * r 0 2 + c * r 2 2]

/-- `eraRz`, used in /repo/palDeuler.c:127. -/
noncomputable def eraRz (psi : ℝ) (r : Mat3) : Mat3 :=
  let s := Real.sin psi
  let c := Real.cos psi
  !![c * r 0 0 + s * r 1 0, c * r 0 1 + s * r 1 1, c * r 0 2 + s * r 1 2;
     -s * r 0 0 + c * r 1 0, -s * r 0 1 + c * r 1 1, -s * r 0 2 + c * r 1 2;
     r 2 0, r 2 1, r 2 2]

/-- `eraSepp`, wrapped by palDsepv, /repo/palOne2One.c:849-851. -/
noncomputable def eraSepp (a b : Vec3) : ℝ :=
  let ss := eraPm (eraPxp a b)
  let cs := eraPdp a b
  if ss ≠ 0 ∨ cs ≠ 0 then atan2 ss cs else 0

/-- `eraSeps`, wrapped by palDsep, /repo/palOne2One.c:810-812. -/
noncomputable def eraSeps (al ap bl bp : ℝ) : ℝ := eraSepp (eraS2c al ap) (eraS2c bl bp)

/-- `eraPas`, wrapped by palDbear, /repo/palOne2One.c:201-203. -/
noncomputable def eraPas (al ap bl bp : ℝ) : ℝ :=
  let dl := bl - al
  let y := Real.sin dl * Real.cos bp
  let x := Real.sin bp * Real.cos ap - Real.cos bp * Real.sin ap * Real.cos dl
  if x ≠ 0 ∨ y ≠ 0 then atan2 y x else 0

/-- `eraPap`, wrapped by palDpav, /repo/palOne2One.c:649-651. -/
noncomputable def eraPap (a b : Vec3) : ℝ :=
  let am := (eraPn a).1
  let au := (eraPn a).2
  let bm := eraPm b
  let sc : ℝ × ℝ :=
    if am = 0 ∨ bm = 0 then (0, 1)
    else
      let eta : Vec3 := ![-a 0 * a 2, -a 1 * a 2, a 0 * a 0 + a 1 * a 1]
      let xi := eraPxp eta au
      let a2b : Vec3 := fun i => b i - a i
      let st := eraPdp a2b xi
      let ct := eraPdp a2b eta
      if st = 0 ∧ ct = 0 then (st, 1) else (st, ct)
  atan2 sc.1 sc.2

/-- `eraRv2m`, wrapped by palDav2m, /repo/palOne2One.c:286-288. -/
noncomputable def eraRv2m (w : Vec3) : Mat3 :=
  let phi := √(w 0 * w 0 + w 1 * w 1 + w 2 * w 2)
  let s := Real.sin phi
  let c := Real.cos phi
  let f := 1 - c
  let x := if phi > 0 then w 0 / phi else w 0
  let y := if phi > 0 then w 1 / phi else w 1
  let z := if phi > 0 then w 2 / phi else w 2
  !![x * x * f + c, x * y * f + z * s, x * z * f - y * s;
     y * x * f - z * s, y * y * f + c, y * z * f + x * s;
     z * x * f + y * s, z * y * f - x * s, z * z * f + c]

/-- `eraRm2v`, wrapped by palDm2av, /repo/palOne2One.c:486-488. -/
noncomputable def eraRm2v (r : Mat3) : Vec3 :=
  let x := r 1 2 - r 2 1
  let y := r 2 0 - r 0 2
  let z := r 0 1 - r 1 0
  let s2 := √(x * x + y * y + z * z)
  if s2 > 0 then
    let c2 := r 0 0 + r 1 1 + r 2 2 - 1
    let phi := atan2 s2 c2
    let f := phi / s2
    ![x * f, y * f, z * f]
  else ![0, 0, 0]

/-- `palDranrm`, /repo/palOne2One.c:766-768. -/
noncomputable def palDranrm (angle : ℝ) : ℝ := eraAnp angle
/-- `palDcs2c`, /repo/palOne2One.c:368-370. -/
noncomputable def palDcs2c (a b : ℝ) : Vec3 := eraS2c a b
/-- `palDcc2s`, /repo/palOne2One.c:327-329. -/
noncomputable def palDcc2s (v : Vec3) : ℝ × ℝ := eraC2s v
/-- `palDmxv`, /repo/palOne2One.c:605-607. -/
def palDmxv (dm : Mat3) (va : Vec3) : Vec3 := eraRxp dm va
/-- `palDimxv`, /repo/palOne2One.c:446-448. -/
def palDimxv (dm : Mat3) (va : Vec3) : Vec3 := eraTrxp dm va
/-- `palDmxm`, /repo/palOne2One.c:567-569. -/
def palDmxm (a b : Mat3) : Mat3 := eraRxr a b
/-- `palDvdv`, /repo/palOne2One.c:976-978. -/
def palDvdv (va vb : Vec3) : ℝ := eraPdp va vb
/-- `palDvxv`, /repo/palOne2One.c:1053-1055. -/
def palDvxv (va vb : Vec3) : Vec3 := eraPxp va vb
/-- `palDvn`, /repo/palOne2One.c:1015-1017: unit vector and modulus. -/
noncomputable def palDvn (v : Vec3) : Vec3 × ℝ := ((eraPn v).2, (eraPn v).1)
/-- `palDsep`, /repo/palOne2One.c:810-812. -/
noncomputable def palDsep (a1 b1 a2 b2 : ℝ) : ℝ := eraSeps a1 b1 a2 b2
/-- `palDsepv`, /repo/palOne2One.c:849-851. -/
noncomputable def palDsepv (v1 v2 : Vec3) : ℝ := eraSepp v1 v2
/-- `palDbear`, /repo/palOne2One.c:201-203. -/
noncomputable def palDbear (a1 b1 a2 b2 : ℝ) : ℝ := eraPas a1 b1 a2 b2
/-- `palDpav`, /repo/palOne2One.c:649-651. -/
noncomputable def palDpav (v1 v2 : Vec3) : ℝ := eraPap v1 v2
/-- `palDav2m`, /repo/palOne2One.c:286-288. -/
noncomputable def palDav2m (axvec : Vec3) : Mat3 := eraRv2m axvec
/-- `palDm2av`, /repo/palOne2One.c:486-488. -/
noncomputable def palDm2av (rmat : Mat3) : Vec3 := eraRm2v rmat

end Pal
