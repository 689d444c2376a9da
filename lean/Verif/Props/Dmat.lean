import Verif.Lemmas.Dmat
import Mathlib.Tactic.NormNum
import Mathlib.Algebra.Order.Ring.Rat
import Mathlib.LinearAlgebra.Matrix.Notation

/-!
# Properties C19, C20, C71 of palDmat
-/

namespace Pal.Props
open Pal Matrix

variable {F : Type*} [Field F] [LinearOrder F] [IsStrictOrderedRing F]

theorem dmatT_ok {n : ℕ} (A : Matrix (Fin n) (Fin n) F) (y : Fin n → F) (iw : Fin n → Fin n) (sfa : F) (hs : 0 < sfa) (hs1 : sfa ≤ 1)
    (h : (dmatT sfa A y iw).jf = 0) :
    (dmatT sfa A y iw).a * A = 1 ∧ A *ᵥ (dmatT sfa A y iw).y = y ∧ (dmatT sfa A y iw).d = A.det ∧
      sfa ≤ |A.det| := by
  unfold dmatT at h ⊢
  dsimp only at h ⊢
  split_ifs at h ⊢ with h1
  · exact absurd h h1
  · have h0 : (dmatIter sfa ⟨A, y, 1, 0, iw⟩ n).jf = 0 := not_not.1 h1
    obtain ⟨hi, hd⟩ := iter_inv A y iw sfa hs n le_rfl h0
    obtain ⟨e1, e2, e3⟩ := inv_final hi
    dsimp only
    rw [unswap_eq]
    refine ⟨e1, e2, e3.symm, ?_⟩
    rcases hd with rfl | hd
    · simpa using hs1
    · rw [e3]; exact hd

private theorem sfa_pos : (0 : F) < 1 / 10 ^ 20 := by positivity
private theorem sfa_le : (1 : F) / 10 ^ 20 ≤ 1 := by
  rw [div_le_one (by positivity)]; exact one_le_pow₀ (by norm_num)

/-- **C19** For every order n and every n×n matrix A and vector y: if palDmat reports jf = 0, the returned matrix is the inverse of
A on both sides, the returned vector solves A·x = y (and is the only solution), and the returned determinant is that of A. -/
theorem C19_dmat_inverts {n : ℕ} (A : Matrix (Fin n) (Fin n) F) (y : Fin n → F) (iw : Fin n → Fin n)
    (h : (palDmat A y iw).jf = 0) :
    (palDmat A y iw).a * A = 1 ∧ A * (palDmat A y iw).a = 1 ∧
    (∀ x, A *ᵥ x = y ↔ x = (palDmat A y iw).y) ∧ (palDmat A y iw).d = A.det := by
  obtain ⟨h1, h2, h3, _⟩ := dmatT_ok A y iw _ sfa_pos sfa_le h
  refine ⟨h1, mul_eq_one_comm.1 h1, fun x => ⟨fun hx => ?_, fun hx => by rw [hx]; exact h2⟩, h3⟩
  have e1 : ∀ v, (palDmat A y iw).a *ᵥ (A *ᵥ v) = v := by
    intro v; rw [mulVec_mulVec]; unfold palDmat; rw [h1, one_mulVec]
  have e2 := e1 (palDmat A y iw).y
  have h2' : A *ᵥ (palDmat A y iw).y = y := h2
  rw [h2'] at e2
  rw [← e1 x, hx, e2]

/-- **C20** A singular matrix of any order is always reported with jf = -1 and determinant 0; jf takes no other values than 0 and -1, and with jf = -1 the
determinant is always 0. -/
theorem C20_dmat_singular {n : ℕ} (A : Matrix (Fin n) (Fin n) F) (y : Fin n → F) (iw : Fin n → Fin n) :
    ((palDmat A y iw).jf = 0 ∨ (palDmat A y iw).jf = -1) ∧
    ((palDmat A y iw).jf = -1 → (palDmat A y iw).d = 0) ∧
    (A.det = 0 → (palDmat A y iw).jf = -1 ∧ (palDmat A y iw).d = 0) := by
  have hjf : ∀ k, (dmatIter (1 / 10 ^ 20 : F) ⟨A, y, 1, 0, iw⟩ k).jf = 0 ∨ (dmatIter (1 / 10 ^ 20 : F) ⟨A, y, 1, 0, iw⟩ k).jf = -1 := by
    intro k
    induction k with
    | zero => left; rfl
    | succ k ih =>
      simp only [dmatIter]
      split_ifs
      · unfold dmatStep
        dsimp only
        split_ifs
        all_goals first | exact Or.inr rfl | exact ih
      · exact ih
  have h1 : (palDmat A y iw).jf = 0 ∨ (palDmat A y iw).jf = -1 := by
    unfold palDmat dmatT
    dsimp only
    split_ifs <;> exact hjf n
  have h2 : (palDmat A y iw).jf = -1 → (palDmat A y iw).d = 0 := by
    unfold palDmat dmatT
    dsimp only
    split_ifs with hc
    · intro; rfl
    · intro h
      dsimp only at h
      rw [h] at hc
      simp at hc
  refine ⟨h1, h2, fun hd => ?_⟩
  have h3 : (palDmat A y iw).jf = -1 := by
    rcases h1 with h | h
    · obtain ⟨_, _, _, h4⟩ := dmatT_ok A y iw _ sfa_pos sfa_le h
      rw [hd, abs_zero] at h4
      exact absurd sfa_pos (not_lt.2 h4)
    · exact h
  exact ⟨h3, h2 h3⟩

/-- **C71** (refuted) palDmat does not accept every non-singular matrix: the singularity test is absolute (1e-20), so a well-conditioned
matrix in small units is reported as singular. -/
theorem C71_dmat_small_rejected :
    let A : Matrix (Fin 2) (Fin 2) ℚ := !![1 / 10 ^ 11, 0; 0, 1 / 10 ^ 11]
    A.det ≠ 0 ∧ (palDmat A ![1, 1] ![0, 0]).jf = -1 := by
  constructor
  · rw [det_fin_two]; norm_num
  · decide +kernel

/-- **C71** (partial) The threshold is the only reason: for every non-singular matrix of any order there is a positive threshold below which the
algorithm succeeds. -/
theorem C71_dmat_nonsingular_partial {n : ℕ} (A : Matrix (Fin n) (Fin n) F) (y : Fin n → F) (iw : Fin n → Fin n) (hA : A.det ≠ 0) :
    ∃ ε : F, 0 < ε ∧ ∀ sfa, sfa ≤ ε → (dmatT sfa A y iw).jf = 0 := by
  obtain ⟨ε, he, s, hj, _, hit⟩ := iter_small A y iw hA n le_rfl
  refine ⟨ε, he, fun sfa hsfa => ?_⟩
  unfold dmatT
  dsimp only
  rw [hit sfa hsfa, if_neg (by simp [hj])]
  exact hj

/-- A regular case that needs a row exchange. -/
example : let r := palDmat (F := ℚ) !![0, 2, 1; 4, 1, 1; 2, 1, 5] ![7, 9, 19] ![0, 0, 0]
    r.jf = 0 ∧ r.d = -34 ∧ r.y = ![1, 2, 3] := by decide +kernel

/-- A singular one. -/
example : let r := palDmat (F := ℚ) !![1, 2, 3; 4, 5, 6; 7, 8, 9] ![7, 9, 19] ![0, 0, 0]
    r.jf = -1 ∧ r.d = 0 := by decide +kernel

end Pal.Props
