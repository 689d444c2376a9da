import Mathlib.LinearAlgebra.Matrix.Defs
import Mathlib.Algebra.Order.Field.Basic
import Mathlib.Data.Fin.VecNotation
import Mathlib.Data.List.FinRange

/-!
# Model of palDmat: matrix inversion and solution of simultaneous equations

Doubles are elements of an arbitrary ordered field (exact arithmetic).
The `n*n` block of memory is a matrix indexed by row and column.
-/

namespace Pal

variable {F : Type*} [Field F] [LinearOrder F]

/-- The variables of palDmat (/repo/palDmat.c:91-99). -/
structure DmatSt (n : ℕ) (F : Type*) where
  a : Matrix (Fin n) (Fin n) F
  y : Fin n → F
  d : F
  jf : ℤ
  iw : Fin n → Fin n

/-- Search for the pivot row `imx` of column `k`, /repo/palDmat.c:101-116: the first row from `k` on with the largest absolute value. -/
def dmatPivot {n : ℕ} (a : Matrix (Fin n) (Fin n) F) (k : Fin n) : Fin n :=
  ((List.finRange n).filter (fun i => decide (k < i))).foldl (fun imx i => if |a imx k| < |a i k| then i else imx) k

/-- Exchange of two rows, /repo/palDmat.c:123-127. -/
def swapRows {n : ℕ} (a : Matrix (Fin n) (Fin n) F) (k l : Fin n) : Matrix (Fin n) (Fin n) F :=
  fun i => if i = k then a l else if i = l then a k else a i

/-- Exchange of two elements of the vector, /repo/palDmat.c:128-130. -/
def swapVec {n : ℕ} (y : Fin n → F) (k l : Fin n) : Fin n → F :=
  fun i => if i = k then y l else if i = l then y k else y i

/-- The matrix after the elimination step with pivot `a k k`, /repo/palDmat.c:140-163. -/
def dmatElim {n : ℕ} (a : Matrix (Fin n) (Fin n) F) (k : Fin n) : Matrix (Fin n) (Fin n) F :=
  let p := 1 / a k k
  fun i j =>
    if i = k then (if j = k then p else a k j * p)
    else if j = k then a i k * (-p)
    else a i j - a i k * (a k j * p)

/-- The vector after the elimination step, /repo/palDmat.c:146-147 and 156. -/
def dmatElimY {n : ℕ} (a : Matrix (Fin n) (Fin n) F) (y : Fin n → F) (k : Fin n) : Fin n → F :=
  let yk := y k * (1 / a k k)
  fun i => if i = k then yk else y i - a i k * yk

/-- One pass of the main loop of palDmat, /repo/palDmat.c:100-165, with singularity threshold `sfa`. -/
def dmatStep {n : ℕ} (sfa : F) (k : Fin n) (s : DmatSt n F) : DmatSt n F :=
  let imx := dmatPivot s.a k
  if |s.a imx k| < sfa then { s with jf := -1 }
  else
    let a := if imx ≠ k then swapRows s.a k imx else s.a
    let y := if imx ≠ k then swapVec s.y k imx else s.y
    let d := (if imx ≠ k then -s.d else s.d) * a k k
    let iw := fun i => if i = k then imx else s.iw i
    if |d| < sfa then { a := a, y := y, d := d, jf := -1, iw := iw }
    else { a := dmatElim a k, y := dmatElimY a y k, d := d, jf := s.jf, iw := iw }

/-- State after `k` passes of the main loop (/repo/palDmat.c:100-165). -/
def dmatIter {n : ℕ} (sfa : F) (s : DmatSt n F) : ℕ → DmatSt n F
  | 0 => s
  | k + 1 => if h : k < n then dmatStep sfa ⟨k, h⟩ (dmatIter sfa s k) else dmatIter sfa s k

/-- Exchange of two columns, /repo/palDmat.c:173-178. -/
def swapCols {n : ℕ} (a : Matrix (Fin n) (Fin n) F) (k l : Fin n) : Matrix (Fin n) (Fin n) F :=
  fun i j => if j = k then a i l else if j = l then a i k else a i j

/-- Final column exchanges for `k = m-1, ..., 0`, /repo/palDmat.c:169-180. -/
def dmatUnswap {n : ℕ} (iw : Fin n → Fin n) (a : Matrix (Fin n) (Fin n) F) : ℕ → Matrix (Fin n) (Fin n) F
  | 0 => a
  | m + 1 =>
    if h : m < n then
      let ki := iw ⟨m, h⟩
      dmatUnswap iw (if (⟨m, h⟩ : Fin n) ≠ ki then swapCols a ⟨m, h⟩ ki else a) m
    else dmatUnswap iw a m

/-- palDmat with a general singularity threshold (/repo/palDmat.c:91-182). -/
def dmatT {n : ℕ} (sfa : F) (a : Matrix (Fin n) (Fin n) F) (y : Fin n → F) (iw : Fin n → Fin n) : DmatSt n F :=
  let s := dmatIter sfa ⟨a, y, 1, 0, iw⟩ n
  if s.jf ≠ 0 then { s with d := 0 }
  else { s with a := dmatUnswap s.iw s.a n }

/-- `palDmat`, /repo/palDmat.c:91-182 (`SFA` = 1e-20). -/
def palDmat {n : ℕ} (a : Matrix (Fin n) (Fin n) F) (y : Fin n → F) (iw : Fin n → Fin n) : DmatSt n F :=
  dmatT (1 / 10 ^ 20) a y iw

end Pal
