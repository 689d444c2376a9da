import Verif.Model.Dmat
import Mathlib.Data.Real.Basic

/-!
# palDmat on arrays in memory

`Model/Dmat.lean` models palDmat as a function of a matrix.  Here it is modelled statement by statement, with its pointers: the matrix is the block of `n*n` doubles from the
address `a` on, row after row, the vector the block of `n` doubles at `y`, the workspace a block of `n` ints at `iw` in a memory of ints.  Reading or writing any double
outside the two blocks, or any int outside the workspace, is an error (`none`), as undefined in C.  `*d` and `*jf` are taken to be separate variables.
-/

namespace Pal.DmatMem
open Pal

/-- Memory of doubles, memory of ints, `*d` and `*jf` (/repo/palDmat.c:91). -/
structure St where
  mem : ℕ → ℝ
  int : ℕ → ℤ
  d : ℝ
  jf : ℤ

/-- The addresses palDmat is allowed to use: its arguments (/repo/palDmat.c:91). -/
structure Args where
  n : ℕ
  a : ℕ
  y : ℕ
  iw : ℕ

/-- A double that belongs to one of the two arrays (/repo/palDmat.c:91). -/
def Args.ok (g : Args) (p : ℕ) : Prop := (g.a ≤ p ∧ p < g.a + g.n * g.n) ∨ (g.y ≤ p ∧ p < g.y + g.n)

/-- An int that belongs to the workspace (/repo/palDmat.c:91). -/
def Args.iok (g : Args) (p : ℕ) : Prop := g.iw ≤ p ∧ p < g.iw + g.n

/-- A fragment of C; `none` if it uses memory it must not (/repo/palDmat.c:91-182). -/
abbrev Prog (α : Type) := StateT St Option α

open Classical in
/-- `*p` as an expression (/repo/palDmat.c:103-177). -/
noncomputable def load (g : Args) (p : ℕ) : Prog ℝ := fun s => if g.ok p then some (s.mem p, s) else none

open Classical in
/-- `*p = v` (/repo/palDmat.c:103-177). -/
noncomputable def store (g : Args) (p : ℕ) (v : ℝ) : Prog Unit :=
  fun s => if g.ok p then some ((), { s with mem := Function.update s.mem p v }) else none

open Classical in
/-- An int of the workspace as an expression (/repo/palDmat.c:170). -/
noncomputable def iload (g : Args) (p : ℕ) : Prog ℤ := fun s => if g.iok p then some (s.int p, s) else none

open Classical in
/-- Assignment to an int of the workspace (/repo/palDmat.c:132). -/
noncomputable def istore (g : Args) (p : ℕ) (v : ℤ) : Prog Unit :=
  fun s => if g.iok p then some ((), { s with int := Function.update s.int p v }) else none

/-- `*d` and its assignment (/repo/palDmat.c:99-134 and 167). -/
def getD : Prog ℝ := fun s => some (s.d, s)
/-- As above (/repo/palDmat.c:99-134 and 167). -/
def setD (v : ℝ) : Prog Unit := fun s => some ((), { s with d := v })

/-- `*jf` and its assignment (/repo/palDmat.c:98-135 and 166). -/
def getJf : Prog ℤ := fun s => some (s.jf, s)
/-- As above (/repo/palDmat.c:98-135 and 166). -/
def setJf (v : ℤ) : Prog Unit := fun s => some ((), { s with jf := v })

/-- `m` passes of a loop whose counter begins at `i`, with the local variables `b` the body changes (the loops of /repo/palDmat.c:100-180). -/
def times {β : Type} (f : ℕ → β → Prog β) : ℕ → ℕ → β → Prog β
  | 0, _, b => pure b
  | m + 1, i, b => do
    let b' ← f i b
    times f m (i + 1) b'

/-- `for (i = lo; i < n; i++)` with the local variables `b` (the loops of /repo/palDmat.c:100-180). -/
def loop {β : Type} (lo n : ℕ) (b : β) (f : ℕ → β → Prog β) : Prog β := times f (n - lo) lo b

/-- `for (i = lo; i < n; i++)` without local variables that survive a pass (the loops of /repo/palDmat.c:100-180). -/
def forUp (lo n : ℕ) (f : ℕ → Prog Unit) : Prog Unit := loop lo n () (fun i _ => f i)

/-- `for (k = m; k-- > 0; )` (/repo/palDmat.c:169). -/
def forDown (f : ℕ → Prog Unit) : ℕ → Prog Unit
  | 0 => pure ()
  | k + 1 => do
    f k
    forDown f k

/-- Search for the pivot, /repo/palDmat.c:101-116; the value is (amx, imx, aoff2), `aoff` the address of row `k`.  (The test `k != n` is always true.) -/
noncomputable def memPivot (g : Args) (k aoff : ℕ) : Prog (ℝ × ℕ × ℕ) := do
  let t0 ← load g (aoff + k)
  let r ← loop (k + 1) g.n ((|t0|, k, aoff), aoff + g.n) fun i b => do
    let t1 ← load g (b.2 + k)
    let t := |t1|
    return (if t > b.1.1 then (t, i, b.2) else b.1, b.2 + g.n)
  return r.1

/-- Exchange of the pivot row with row `k`, of the elements of the vector, and of the sign of the determinant, /repo/palDmat.c:121-130. -/
noncomputable def memSwap (g : Args) (k imx aoff aoff2 : ℕ) : Prog Unit := do
  forUp 0 g.n fun j => do
    let t ← load g (aoff + j)
    let u ← load g (aoff2 + j)
    store g (aoff + j) u
    store g (aoff2 + j) t
  let t ← load g (g.y + k)
  let u ← load g (g.y + imx)
  store g (g.y + k) u
  store g (g.y + imx) t
  let d ← getD
  setD (-d)

/-- The elimination, /repo/palDmat.c:140-162. -/
noncomputable def memElim (g : Args) (k aoff : ℕ) : Prog Unit := do
  let p ← load g (aoff + k)
  store g (aoff + k) (1 / p)
  forUp 0 g.n fun j => do
    if j ≠ k then
      let u ← load g (aoff + j)
      let v ← load g (aoff + k)
      store g (aoff + j) (u * v)
  let u ← load g (g.y + k)
  let v ← load g (aoff + k)
  let yk := u * v
  store g (g.y + k) yk
  let _ ← loop 0 g.n g.a fun i apos2 => do
    if i ≠ k then
      forUp 0 g.n fun j => do
        if j ≠ k then
          let u ← load g (apos2 + j)
          let v ← load g (apos2 + k)
          let w ← load g (aoff + j)
          store g (apos2 + j) (u - v * w)
      let u ← load g (g.y + i)
      let v ← load g (apos2 + k)
      store g (g.y + i) (u - v * yk)
    return apos2 + g.n
  let _ ← loop 0 g.n g.a fun i apos2 => do
    if i ≠ k then
      let u ← load g (apos2 + k)
      let v ← load g (aoff + k)
      store g (apos2 + k) (u * (-v))
    return apos2 + g.n

/-- One pass of the main loop, /repo/palDmat.c:101-164. -/
noncomputable def memPass (g : Args) (sfa : ℝ) (k aoff : ℕ) : Prog Unit := do
  let (amx, imx, aoff2) ← memPivot g k aoff
  if amx < sfa then
    setJf (-1)
  else
    if imx ≠ k then
      memSwap g k imx aoff aoff2
    istore g (g.iw + k) imx
    let d ← getD
    let p ← load g (aoff + k)
    setD (d * p)
    let d ← getD
    if |d| < sfa then
      setJf (-1)
    else
      memElim g k aoff

/-- The exchange of columns for one `k`, /repo/palDmat.c:170-179.  An int used as an index is converted to an address; a negative one is an address outside every array. -/
noncomputable def memUnswap (g : Args) (k : ℕ) : Prog Unit := do
  let ki ← iload g (g.iw + k)
  if (k : ℤ) ≠ ki then
    if ki < 0 then
      failure
    else
      let _ ← loop 0 g.n g.a fun _ apos => do
        let t ← load g (apos + k)
        let u ← load g (apos + ki.toNat)
        store g (apos + k) u
        store g (apos + ki.toNat) t
        return apos + g.n

/-- palDmat with a general singularity threshold, /repo/palDmat.c:95-182. -/
noncomputable def memDmatT (g : Args) (sfa : ℝ) : Prog Unit := do
  setJf 0
  setD 1
  let _ ← loop 0 g.n g.a fun k aoff => do
    memPass g sfa k aoff
    return aoff + g.n
  let jf ← getJf
  if jf ≠ 0 then
    setD 0
  else
    forDown (memUnswap g) g.n

/-- `palDmat`, /repo/palDmat.c:91-182. -/
noncomputable def memDmat (g : Args) : Prog Unit := memDmatT g (1 / 10 ^ 20)

end Pal.DmatMem
