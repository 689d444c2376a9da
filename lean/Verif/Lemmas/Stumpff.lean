import Verif.Lemmas.TrigNum
import Mathlib.Analysis.SpecialFunctions.Trigonometric.DerivHyp
import Mathlib.Analysis.Complex.ExponentialBounds

/-! # The true universal functions of two-body motion -/

namespace Pal.Stumpff
open Real

/-- The true universal functions for the energy constant `a`. -/
noncomputable def U0 (a s : ℝ) : ℝ := if a < 0 then cos (√(-a) * s) else if 0 < a then cosh (√a * s) else 1
@[inherit_doc U0] noncomputable def U1 (a s : ℝ) : ℝ := if a < 0 then sin (√(-a) * s) / √(-a) else if 0 < a then sinh (√a * s) / √a else s
@[inherit_doc U0] noncomputable def U2 (a s : ℝ) : ℝ := if a = 0 then s ^ 2 / 2 else (U0 a s - 1) / a
@[inherit_doc U0] noncomputable def U3 (a s : ℝ) : ℝ := if a = 0 then s ^ 3 / 6 else (U1 a s - s) / a

theorem U0_neg {k : ℝ} (hk : 0 < k) (s : ℝ) : U0 (-k ^ 2) s = cos (k * s) := by
  unfold U0; rw [if_pos (by nlinarith), neg_neg, Real.sqrt_sq hk.le]
theorem U1_neg {k : ℝ} (hk : 0 < k) (s : ℝ) : U1 (-k ^ 2) s = sin (k * s) / k := by
  unfold U1; rw [if_pos (by nlinarith), neg_neg, Real.sqrt_sq hk.le]
theorem U0_pos {k : ℝ} (hk : 0 < k) (s : ℝ) : U0 (k ^ 2) s = cosh (k * s) := by
  unfold U0; rw [if_neg (by nlinarith), if_pos (by positivity), Real.sqrt_sq hk.le]
theorem U1_pos {k : ℝ} (hk : 0 < k) (s : ℝ) : U1 (k ^ 2) s = sinh (k * s) / k := by
  unfold U1; rw [if_neg (by nlinarith), if_pos (by positivity), Real.sqrt_sq hk.le]
theorem U0_zero (s : ℝ) : U0 0 s = 1 := by simp [U0]
theorem U1_zero (s : ℝ) : U1 0 s = s := by simp [U1]

/-- Every constant is minus a square, zero or a square. -/
theorem cases_sq (a : ℝ) : (∃ k, 0 < k ∧ a = -k ^ 2) ∨ a = 0 ∨ ∃ k, 0 < k ∧ a = k ^ 2 := by
  rcases lt_trichotomy a 0 with h | h | h
  · exact Or.inl ⟨√(-a), Real.sqrt_pos.2 (by linarith), by rw [Real.sq_sqrt (by linarith)]; ring⟩
  · exact Or.inr (Or.inl h)
  · exact Or.inr (Or.inr ⟨√a, Real.sqrt_pos.2 h, by rw [Real.sq_sqrt h.le]⟩)

theorem id0 (a s : ℝ) : U0 a s = 1 + a * U2 a s := by
  unfold U2
  split_ifs with h
  · rw [h, U0_zero]; ring
  · field_simp; ring
theorem id1 (a s : ℝ) : U1 a s = s + a * U3 a s := by
  unfold U3
  split_ifs with h
  · rw [h, U1_zero]; ring
  · field_simp; ring
theorem pyth (a s : ℝ) : U0 a s ^ 2 - a * U1 a s ^ 2 = 1 := by
  rcases cases_sq a with ⟨k, hk, rfl⟩ | rfl | ⟨k, hk, rfl⟩
  · rw [U0_neg hk, U1_neg hk]
    field_simp
    linear_combination sin_sq_add_cos_sq (k * s)
  · rw [U0_zero]; ring
  · rw [U0_pos hk, U1_pos hk]
    field_simp
    linear_combination cosh_sq (k * s)
theorem id2 (a s : ℝ) : U1 a s ^ 2 = U2 a s * (1 + U0 a s) := by
  by_cases h : a = 0
  · rw [h, U0_zero, U1_zero, U2, if_pos rfl]; ring
  · have := pyth a s
    rw [U2, if_neg h]
    field_simp
    linarith

theorem dbl0 (a s : ℝ) : U0 a (s + s) = 2 * U0 a s * U0 a s - 1 := by
  rcases cases_sq a with ⟨k, hk, rfl⟩ | rfl | ⟨k, hk, rfl⟩
  · rw [U0_neg hk, U0_neg hk, show k * (s + s) = 2 * (k * s) by ring, cos_two_mul]; ring
  · rw [U0_zero, U0_zero]; ring
  · rw [U0_pos hk, U0_pos hk, show k * (s + s) = 2 * (k * s) by ring, cosh_two_mul, sinh_sq]; ring
theorem dbl1 (a s : ℝ) : U1 a (s + s) = 2 * U0 a s * U1 a s := by
  rcases cases_sq a with ⟨k, hk, rfl⟩ | rfl | ⟨k, hk, rfl⟩
  · rw [U0_neg hk, U1_neg hk, U1_neg hk, show k * (s + s) = 2 * (k * s) by ring, sin_two_mul]; ring
  · rw [U0_zero, U1_zero, U1_zero]; ring
  · rw [U0_pos hk, U1_pos hk, U1_pos hk, show k * (s + s) = 2 * (k * s) by ring, sinh_two_mul]; ring
theorem dbl2 (a s : ℝ) : U2 a (s + s) = 2 * U1 a s * U1 a s := by
  by_cases h : a = 0
  · rw [h, U1_zero, U2, if_pos rfl]; ring
  · have := pyth a s
    rw [U2, if_neg h, dbl0]
    field_simp
    linear_combination 2 * this
theorem dbl3 (a s : ℝ) : U3 a (s + s) = 2 * (U0 a s * U3 a s + s * U2 a s) := by
  by_cases h : a = 0
  · rw [h, U0_zero, U2, U3, U3, if_pos rfl, if_pos rfl, if_pos rfl]; ring
  · rw [U3, if_neg h, U3, if_neg h, U2, if_neg h, dbl1]
    field_simp
    ring

theorem d0 (a s : ℝ) : HasDerivAt (U0 a) (a * U1 a s) s := by
  rcases cases_sq a with ⟨k, hk, rfl⟩ | rfl | ⟨k, hk, rfl⟩
  · have e : U0 (-k ^ 2) = fun s => cos (k * s) := funext fun s => U0_neg hk s
    rw [e, U1_neg hk]
    have := ((hasDerivAt_id s).const_mul k).cos
    simp only [id] at this
    exact this.congr_deriv (by field_simp)
  · have e : U0 0 = fun _ => 1 := funext fun s => U0_zero s
    rw [e, zero_mul]
    exact hasDerivAt_const s 1
  · have e : U0 (k ^ 2) = fun s => cosh (k * s) := funext fun s => U0_pos hk s
    rw [e, U1_pos hk]
    have := ((hasDerivAt_id s).const_mul k).cosh
    simp only [id] at this
    exact this.congr_deriv (by field_simp)
theorem d1 (a s : ℝ) : HasDerivAt (U1 a) (U0 a s) s := by
  rcases cases_sq a with ⟨k, hk, rfl⟩ | rfl | ⟨k, hk, rfl⟩
  · have e : U1 (-k ^ 2) = fun s => sin (k * s) / k := funext fun s => U1_neg hk s
    rw [e, U0_neg hk]
    have := (((hasDerivAt_id s).const_mul k).sin).div_const k
    simp only [id] at this
    exact this.congr_deriv (by field_simp)
  · have e : U1 0 = fun s => s := funext fun s => U1_zero s
    rw [e, U0_zero]
    exact hasDerivAt_id s
  · have e : U1 (k ^ 2) = fun s => sinh (k * s) / k := funext fun s => U1_pos hk s
    rw [e, U0_pos hk]
    have := (((hasDerivAt_id s).const_mul k).sinh).div_const k
    simp only [id] at this
    exact this.congr_deriv (by field_simp)
theorem d2 (a s : ℝ) : HasDerivAt (U2 a) (U1 a s) s := by
  by_cases h : a = 0
  · subst h
    have e : U2 0 = fun s : ℝ => s ^ 2 / 2 := funext fun s => by rw [U2, if_pos rfl]
    rw [e, U1_zero]
    exact (hpow 2 2 s).congr_deriv (by norm_num)
  · have e : U2 a = fun s => (U0 a s - 1) / a := funext fun s => by rw [U2, if_neg h]
    rw [e]
    exact (((d0 a s).sub_const 1).div_const a).congr_deriv (by field_simp)
theorem d3 (a s : ℝ) : HasDerivAt (U3 a) (U2 a s) s := by
  by_cases h : a = 0
  · subst h
    have e : U3 0 = fun s : ℝ => s ^ 3 / 6 := funext fun s => by rw [U3, if_pos rfl]
    rw [e, U2, if_pos rfl]
    exact (hpow 3 6 s).congr_deriv (by norm_num; ring)
  · have e : U3 a = fun s => (U1 a s - s) / a := funext fun s => by rw [U3, if_neg h]
    rw [e, U2, if_neg h]
    exact (((d1 a s).sub (hasDerivAt_id s)).div_const a)

theorem at0 (a : ℝ) : U0 a 0 = 1 ∧ U1 a 0 = 0 ∧ U2 a 0 = 0 ∧ U3 a 0 = 0 := by
  have h0 : U0 a 0 = 1 := by unfold U0; split_ifs <;> simp
  have h1 : U1 a 0 = 0 := by unfold U1; split_ifs <;> simp
  refine ⟨h0, h1, ?_, ?_⟩
  · unfold U2; split_ifs <;> simp [h0]
  · unfold U3; split_ifs <;> simp [h1]

end Pal.Stumpff
