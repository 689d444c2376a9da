import Verif.Lemmas.DmatMem
import Verif.Props.Dmat
import Mathlib.Tactic.NormNum

/-!
# C121: palDmat uses only its arrays
-/

namespace Pal.Props
open Pal Pal.DmatMem Matrix

/-- The `n` by `n` matrix stored row by row from the address `a` on. -/
def squareAt (mem : ℕ → ℝ) (n a : ℕ) : Matrix (Fin n) (Fin n) ℝ := fun i j => mem (a + i * n + j)

/-- The vector of `n` doubles stored from the address `y` on. -/
def rowAt (mem : ℕ → ℝ) (n y : ℕ) : Fin n → ℝ := fun i => mem (y + i)

/-- **C121** For every order, all addresses of separate arrays and every contents of memory (the workspace included, which need not be initialised) palDmat never touches
memory outside its arrays (in the model it would fail, `none`), leaves in the place of the matrix and vector exactly the result of `palDmat` for the original contents
(the function of C19, C20, C71), and changes no other double and no int outside the workspace. -/
theorem C121_memory (n a y iw : ℕ) (hsep : a + n * n ≤ y ∨ y + n ≤ a) (s : St) :
    ∃ s', memDmat ⟨n, a, y, iw⟩ s = some ((), s') ∧
      (∀ w, squareAt s'.mem n a = (palDmat (squareAt s.mem n a) (rowAt s.mem n y) w).a ∧ rowAt s'.mem n y = (palDmat (squareAt s.mem n a) (rowAt s.mem n y) w).y ∧
        s'.d = (palDmat (squareAt s.mem n a) (rowAt s.mem n y) w).d ∧ s'.jf = (palDmat (squareAt s.mem n a) (rowAt s.mem n y) w).jf) ∧
      (∀ p, ¬(a ≤ p ∧ p < a + n * n) → ¬(y ≤ p ∧ p < y + n) → s'.mem p = s.mem p) ∧ (∀ p, ¬(iw ≤ p ∧ p < iw + n) → s'.int p = s.int p) := by
  have h0 : Rep ⟨n, a, y, iw⟩ s.mem s (squareAt s.mem n a) (rowAt s.mem n y) s.int s.d s.jf := ⟨fun _ _ => rfl, fun _ => rfl, fun _ _ => rfl, rfl, rfl, rfl⟩
  have run := fun w => runs_dmat (g := ⟨n, a, y, iw⟩) hsep (1 / 10 ^ 20) w s h0
  obtain ⟨r, s', e, J, hr, hJ⟩ := run id
  refine ⟨s', e, fun w => ?_, fun p h1 h2 => hr.out p (by rintro (h | h) <;> contradiction), fun p hp => ?_⟩
  · obtain ⟨r2, s2, e2, J2, hr2, -⟩ := run w
    obtain ⟨-, rfl⟩ : r = r2 ∧ s' = s2 := by simpa using e.symm.trans e2
    exact ⟨funext fun i => funext fun j => hr2.mat i j, funext hr2.vec, hr2.det, hr2.flag⟩
  · rw [hr.int]
    exact hJ p hp

/-- **C121** (what the caller sees) After palDmat with jf = 0 the place of the matrix holds its inverse, that of the vector the solution of the equations, and d is the
determinant; after jf = -1 d is zero, and there is no other value of jf. -/
theorem C121_solves (n a y iw : ℕ) (hsep : a + n * n ≤ y ∨ y + n ≤ a) (s s' : St) (h : memDmat ⟨n, a, y, iw⟩ s = some ((), s')) :
    (s'.jf = 0 ∧ squareAt s'.mem n a * squareAt s.mem n a = 1 ∧ squareAt s.mem n a * squareAt s'.mem n a = 1 ∧ squareAt s.mem n a *ᵥ rowAt s'.mem n y = rowAt s.mem n y ∧
      s'.d = (squareAt s.mem n a).det) ∨ (s'.jf = -1 ∧ s'.d = 0) := by
  obtain ⟨s2, e, hw, -, -⟩ := C121_memory n a y iw hsep s
  obtain rfl : s' = s2 := by simpa using h.symm.trans e
  obtain ⟨e1, e2, e3, e4⟩ := hw id
  obtain ⟨c1, c2, -⟩ := C20_dmat_singular (squareAt s.mem n a) (rowAt s.mem n y) id
  rcases c1 with c | c
  · obtain ⟨i1, i2, i3, i4⟩ := C19_dmat_inverts (squareAt s.mem n a) (rowAt s.mem n y) id c
    refine Or.inl ⟨e4.trans c, by rw [e1]; exact i1, by rw [e1]; exact i2, ?_, e3.trans i4⟩
    rw [e2]
    exact (i3 _).2 rfl
  · exact Or.inr ⟨e4.trans c, e3.trans (c2 c)⟩

/-- A 3 by 3 matrix at 100, the vector right behind it. -/
example : (100 + 3 * 3 ≤ 109 ∨ 109 + 3 ≤ 100) := by norm_num

/-- With a workspace one int too short the model does fail (the hypothesis on the addresses is used, and `none` is reachable): the first pass of palDmat of order 1 with the
workspace of an order 0 call. -/
example (s : St) : istore ⟨0, 100, 109, 7⟩ 7 0 s = none := by
  rw [istore, if_neg]
  rintro ⟨-, h⟩
  simp at h

end Pal.Props
