import Verif.Model.FlRot
import Verif.Lemmas.FlSphere
import Verif.Lemmas.Prec06Num
import Verif.Props.Sphere

/-! Lemmas for rotation matrices in double precision. -/

namespace Pal
open Real Spec Props Matrix

/-- The absolute part of rounding errors. -/
noncomputable def tinyT : ℝ := 1 / 10 ^ 200
theorem tinyT_pos : 0 < tinyT := by unfold tinyT; positivity
theorem tinyT_le : tinyT ≤ 1 / 10 ^ 30 := by unfold tinyT; norm_num

theorem Rounding.err2 {fl : ℝ → ℝ} (R : Rounding fl) {x : ℝ} (hx : |x| ≤ 10 ^ 30) :
    |fl x - x| ≤ 11103 / 100000000000000000000 * |x| + tinyT ∧ |fl x| ≤ (1 + 11103 / 100000000000000000000) * |x| + tinyT := by
  have h : |fl x - x| ≤ 11103 / 100000000000000000000 * |x| + tinyT := by
    have := R.err hx
    unfold tinyT
    norm_num at this ⊢
    exact this
  refine ⟨h, ?_⟩
  have := abs_add_le x (fl x - x)
  rw [add_sub_cancel] at this
  linarith

/-- Sum of three products, as in eraRxp. -/
theorem fl_dot3 {fl : ℝ → ℝ} (R : Rounding fl) (x y z : ℝ) (h : |x| + |y| + |z| ≤ 10 ^ 29) :
    |fl (fl (fl (0 + fl x) + fl y) + fl z) - (x + y + z)| ≤ 4.5e-16 * (|x| + |y| + |z|) + 10 * tinyT := by
  have t0 := tinyT_pos
  have t1 := tinyT_le
  rw [zero_add, show (4.5e-16 : ℝ) = 45 / 100000000000000000 by norm_num]
  have x0 := abs_nonneg x; have y0 := abs_nonneg y; have z0 := abs_nonneg z
  obtain ⟨ex, nx⟩ := R.err2 (x := x) (by linarith)
  obtain ⟨ey, ny⟩ := R.err2 (x := y) (by linarith)
  obtain ⟨ez, nz⟩ := R.err2 (x := z) (by linarith)
  obtain ⟨e1, n1⟩ := R.err2 (x := fl x) (by linarith)
  have na := abs_add_le (fl (fl x)) (fl y)
  obtain ⟨e2, n2⟩ := R.err2 (x := fl (fl x) + fl y) (by linarith)
  have nb := abs_add_le (fl (fl (fl x) + fl y)) (fl z)
  obtain ⟨e3, -⟩ := R.err2 (x := fl (fl (fl x) + fl y) + fl z) (by linarith)
  generalize fl (fl (fl (fl x) + fl y) + fl z) = c at *
  generalize fl (fl (fl x) + fl y) = b at *
  generalize fl (fl x) = a at *
  generalize fl x = p at *
  generalize fl y = q at *
  generalize fl z = r at *
  have key : c - (x + y + z) = (c - (b + r)) + (b - (a + q)) + (a - p) + (p - x) + (q - y) + (r - z) := by ring
  rw [key]
  have s1 := abs_add_le ((c - (b + r)) + (b - (a + q)) + (a - p) + (p - x) + (q - y)) (r - z)
  have s2 := abs_add_le ((c - (b + r)) + (b - (a + q)) + (a - p) + (p - x)) (q - y)
  have s3 := abs_add_le ((c - (b + r)) + (b - (a + q)) + (a - p)) (p - x)
  have s4 := abs_add_le ((c - (b + r)) + (b - (a + q))) (a - p)
  have s5 := abs_add_le (c - (b + r)) (b - (a + q))
  linarith

/-- Sum of two products. -/
theorem fl_sum2 {fl : ℝ → ℝ} (R : Rounding fl) (x y : ℝ) (h : |x| + |y| ≤ 10 ^ 29) :
    |fl (fl x + fl y) - (x + y)| ≤ 1.1104e-16 * (|x| + |y|) + 1.1104e-16 * |x + y| + 4 * tinyT := by
  have t0 := tinyT_pos
  have t1 := tinyT_le
  rw [show (1.1104e-16 : ℝ) = 11104 / 100000000000000000000 by norm_num]
  have x0 := abs_nonneg x; have y0 := abs_nonneg y
  obtain ⟨ex, nx⟩ := R.err2 (x := x) (by linarith)
  obtain ⟨ey, ny⟩ := R.err2 (x := y) (by linarith)
  have na := abs_add_le (fl x) (fl y)
  have nb : |fl x + fl y| ≤ |x + y| + |fl x - x| + |fl y - y| := by
    have e : fl x + fl y = (x + y) + (fl x - x) + (fl y - y) := by ring
    rw [e]
    have s1 := abs_add_le (x + y + (fl x - x)) (fl y - y)
    have s2 := abs_add_le (x + y) (fl x - x)
    linarith
  obtain ⟨e2, -⟩ := R.err2 (x := fl x + fl y) (by linarith)
  generalize fl (fl x + fl y) = c at *
  generalize fl x = p at *
  generalize fl y = q at *
  have key : c - (x + y) = (c - (p + q)) + (p - x) + (q - y) := by ring
  rw [key]
  have s1 := abs_add_le ((c - (p + q)) + (p - x)) (q - y)
  have s2 := abs_add_le (c - (p + q)) (p - x)
  have s3 := abs_nonneg (x + y)
  linarith

theorem fl_diff2 {fl : ℝ → ℝ} (R : Rounding fl) (x y : ℝ) (h : |x| + |y| ≤ 10 ^ 29) :
    |fl (fl x - fl y) - (x - y)| ≤ 2.3e-16 * (|x| + |y|) + 4 * tinyT := by
  have h1 := fl_sum2 R x (-y) (by rwa [abs_neg])
  rw [R.odd, abs_neg, ← sub_eq_add_neg, ← sub_eq_add_neg] at h1
  have h2 := abs_sub x y
  have x0 := abs_nonneg x; have y0 := abs_nonneg y
  rw [show (1.1104e-16 : ℝ) = 11104 / 100000000000000000000 by norm_num] at h1
  rw [show (2.3e-16 : ℝ) = 23 / 100000000000000000 by norm_num]
  linarith

/-- One component of a rotation of two components with the sine and cosine of the library. -/
theorem fl_turn {fl : ℝ → ℝ} (R : Rounding fl) (c s C S a b : ℝ) (hc : |c - C| ≤ 2.3e-16) (hs : |s - S| ≤ 2.3e-16) (hcs : C ^ 2 + S ^ 2 = 1) (hab : a ^ 2 + b ^ 2 ≤ 1.0001) :
    |fl (fl (c * a) + fl (s * b)) - (C * a + S * b)| ≤ 6e-16 := by
  have t0 := tinyT_pos
  have t1 := tinyT_le
  rw [show (2.3e-16 : ℝ) = 23 / 100000000000000000 by norm_num] at hc hs
  rw [show (6e-16 : ℝ) = 6 / 10000000000000000 by norm_num]
  rw [show (1.0001 : ℝ) = 10001 / 10000 by norm_num] at hab
  have a0 := abs_nonneg a; have b0 := abs_nonneg b
  have hsum : |a| + |b| ≤ 14144 / 10000 := by
    refine abs_le_of_sq_le_sq' (a := |a| + |b|) ?_ (by norm_num) |>.2
    have : (|a| + |b|) ^ 2 ≤ 2 * (a ^ 2 + b ^ 2) := by
      have := sq_nonneg (|a| - |b|); nlinarith [sq_abs a, sq_abs b]
    linarith
  have hdot : |C * a + S * b| ≤ 10001 / 10000 := by
    refine abs_le_of_sq_le_sq ?_ (by norm_num)
    have : (C * a + S * b) ^ 2 + (C * b - S * a) ^ 2 = a ^ 2 + b ^ 2 := by linear_combination (a ^ 2 + b ^ 2) * hcs
    nlinarith [sq_nonneg (C * b - S * a)]
  have hC : |C| ≤ 1 := abs_le_of_sq_le_sq (by nlinarith [sq_nonneg S]) zero_le_one
  have hS : |S| ≤ 1 := abs_le_of_sq_le_sq (by nlinarith [sq_nonneg C]) zero_le_one
  have d1 : |(c - C) * a| ≤ 23 / 100000000000000000 * |a| := by rw [abs_mul]; exact mul_le_mul_of_nonneg_right hc a0
  have d2 : |(s - S) * b| ≤ 23 / 100000000000000000 * |b| := by rw [abs_mul]; exact mul_le_mul_of_nonneg_right hs b0
  have m1 : |C * a| ≤ |a| := by rw [abs_mul]; exact mul_le_of_le_one_left a0 hC
  have m2 : |S * b| ≤ |b| := by rw [abs_mul]; exact mul_le_of_le_one_left b0 hS
  have n1 : |c * a| ≤ |C * a| + |(c - C) * a| := by
    have := abs_add_le (C * a) ((c - C) * a); rwa [show C * a + (c - C) * a = c * a by ring] at this
  have n2 : |s * b| ≤ |S * b| + |(s - S) * b| := by
    have := abs_add_le (S * b) ((s - S) * b); rwa [show S * b + (s - S) * b = s * b by ring] at this
  have n3 : |c * a + s * b| ≤ |C * a + S * b| + |(c - C) * a| + |(s - S) * b| := by
    have q1 := abs_add_le (C * a + S * b + (c - C) * a) ((s - S) * b)
    have q2 := abs_add_le (C * a + S * b) ((c - C) * a)
    rw [show C * a + S * b + (c - C) * a + (s - S) * b = c * a + s * b by ring] at q1
    linarith
  have h := fl_sum2 R (c * a) (s * b) (by norm_num at *; linarith)
  rw [show (1.1104e-16 : ℝ) = 11104 / 100000000000000000000 by norm_num] at h
  have key : fl (fl (c * a) + fl (s * b)) - (C * a + S * b) = (fl (fl (c * a) + fl (s * b)) - (c * a + s * b)) + (c - C) * a + (s - S) * b := by ring
  rw [key]
  have q1 := abs_add_le (fl (fl (c * a) + fl (s * b)) - (c * a + s * b) + (c - C) * a) ((s - S) * b)
  have q2 := abs_add_le (fl (fl (c * a) + fl (s * b)) - (c * a + s * b)) ((c - C) * a)
  linarith

theorem small_of_entries {m : Mat3} {η : ℝ} (h : ∀ i j, |m i j| ≤ η) : Small m (3 * η) := by
  intro x
  have h0 := (abs_nonneg _).trans (h 0 0)
  refine Real.sqrt_le_iff.2 ⟨mul_nonneg (by linarith) (len_nonneg x), ?_⟩
  have hl := len_sq x
  rw [dot_eq] at hl
  rw [Fin.sum_univ_three, mul_pow, pow_two (len x), hl]
  have sq : ∀ i j, m i j ^ 2 ≤ η ^ 2 := fun i j => by rw [← sq_abs]; exact pow_le_pow_left₀ (abs_nonneg _) (h i j) 2
  have row : ∀ i, (m *ᵥ x) i ^ 2 ≤ 3 * η ^ 2 * (x 0 * x 0 + x 1 * x 1 + x 2 * x 2) := by
    intro i
    have e : (m *ᵥ x) i = m i 0 * x 0 + m i 1 * x 1 + m i 2 * x 2 := by
      simp [Matrix.mulVec, dotProduct, Fin.sum_univ_three]
    rw [e]
    have c : (m i 0 * x 0 + m i 1 * x 1 + m i 2 * x 2) ^ 2 ≤ (m i 0 ^ 2 + m i 1 ^ 2 + m i 2 ^ 2) * (x 0 * x 0 + x 1 * x 1 + x 2 * x 2) := by
      nlinarith [sq_nonneg (m i 0 * x 1 - m i 1 * x 0), sq_nonneg (m i 0 * x 2 - m i 2 * x 0), sq_nonneg (m i 1 * x 2 - m i 2 * x 1)]
    refine c.trans (mul_le_mul_of_nonneg_right ?_ (by nlinarith [mul_self_nonneg (x 0), mul_self_nonneg (x 1), mul_self_nonneg (x 2)]))
    linarith [sq i 0, sq i 1, sq i 2]
  have r0 := row 0; have r1 := row 1; have r2 := row 2
  linarith

/-- Two entries in a column of a matrix that is nearly a rotation. -/
theorem near_col {M Q : Mat3} {e : ℝ} (hQ : IsRotation Q) (h : Small (M - Q) e) (he : e ≤ 1e-13) (i k : Fin 3) (j : Fin 3) (hik : i ≠ k) : M i j ^ 2 + M k j ^ 2 ≤ 1.0001 := by
  have h1 := rot_trans_mul hQ
  have h2 : (Q.transpose * Q) j j = 1 := by rw [h1]; simp
  rw [Matrix.mul_apply, Fin.sum_univ_three] at h2
  simp only [Matrix.transpose_apply] at h2
  have he' : e ≤ 1 / 10 ^ 13 := he.trans (by norm_num)
  have hd : ∀ i, M i j ^ 2 ≤ Q i j * Q i j + 3 / 10 ^ 13 := by
    intro i
    have hs := (h.entry i j).trans he'
    rw [Matrix.sub_apply] at hs
    have hq : |Q i j| ≤ 1 := by
      refine abs_le_of_sq_le_sq ?_ zero_le_one
      fin_cases i <;> simp only [Fin.zero_eta, Fin.mk_one, Fin.reduceFinMk] <;> nlinarith [mul_self_nonneg (Q 0 j), mul_self_nonneg (Q 1 j), mul_self_nonneg (Q 2 j)]
    have e1 : M i j ^ 2 = Q i j * Q i j + 2 * (Q i j * (M i j - Q i j)) + (M i j - Q i j) * (M i j - Q i j) := by ring
    have b1 := (le_abs_self _).trans (show |Q i j * (M i j - Q i j)| ≤ 1 * (1 / 10 ^ 13) by rw [abs_mul]; exact mul_le_mul hq hs (abs_nonneg _) zero_le_one)
    have b2 := (le_abs_self _).trans (show |(M i j - Q i j) * (M i j - Q i j)| ≤ 1 / 10 ^ 13 * (1 / 10 ^ 13) by rw [abs_mul]; exact mul_le_mul hs hs (abs_nonneg _) (by positivity))
    rw [e1]
    linarith
  have d0 := hd 0; have d1 := hd 1; have d2 := hd 2
  have p0 := mul_self_nonneg (Q 0 j); have p1 := mul_self_nonneg (Q 1 j); have p2 := mul_self_nonneg (Q 2 j)
  rw [show (1.0001 : ℝ) = 10001 / 10000 by norm_num]
  fin_cases i <;> fin_cases k <;> simp only [Fin.zero_eta, Fin.mk_one, Fin.reduceFinMk, ne_eq, not_true_eq_false] at hik ⊢ <;> linarith

section steps
variable {fl : ℝ → ℝ} (R : Rounding fl) {L : Libm} (hL : LibmOK L)
include R hL
set_option linter.unusedSectionVars false

theorem neg_sin_err (t : ℝ) : |-L.sin t - -sin t| ≤ 2.3e-16 := by
  rw [show -L.sin t - -sin t = -(L.sin t - sin t) by ring, abs_neg]; exact hL.sin t

theorem flRx_err (t : ℝ) (M : Mat3) (h : ∀ i k j, i ≠ k → M i j ^ 2 + M k j ^ 2 ≤ 1.0001) (i j : Fin 3) : |flRx fl L t M i j - (axisX t * M) i j| ≤ 6e-16 := by
  have a := fun j => fl_turn R (L.cos t) (L.sin t) (cos t) (sin t) (M 1 j) (M 2 j) (hL.cos t) (hL.sin t) (by rw [add_comm]; exact sin_sq_add_cos_sq t) (h 1 2 j (by decide))
  have b := fun j => fl_turn R (-L.sin t) (L.cos t) (-sin t) (cos t) (M 1 j) (M 2 j) (neg_sin_err R hL t) (hL.cos t) (by rw [neg_sq]; exact sin_sq_add_cos_sq t) (h 1 2 j (by decide))
  rw [← eraRx_eq]
  fin_cases i <;> fin_cases j <;> simp [flRx, eraRx]
  · norm_num
  · norm_num
  · norm_num
  · exact a 0
  · exact a 1
  · exact a 2
  · simpa using b 0
  · simpa using b 1
  · simpa using b 2

theorem flRz_err (t : ℝ) (M : Mat3) (h : ∀ i k j, i ≠ k → M i j ^ 2 + M k j ^ 2 ≤ 1.0001) (i j : Fin 3) : |flRz fl L t M i j - (axisZ t * M) i j| ≤ 6e-16 := by
  have a := fun j => fl_turn R (L.cos t) (L.sin t) (cos t) (sin t) (M 0 j) (M 1 j) (hL.cos t) (hL.sin t) (by rw [add_comm]; exact sin_sq_add_cos_sq t) (h 0 1 j (by decide))
  have b := fun j => fl_turn R (-L.sin t) (L.cos t) (-sin t) (cos t) (M 0 j) (M 1 j) (neg_sin_err R hL t) (hL.cos t) (by rw [neg_sq]; exact sin_sq_add_cos_sq t) (h 0 1 j (by decide))
  rw [← eraRz_eq]
  fin_cases i <;> fin_cases j <;> simp [flRz, eraRz]
  · exact a 0
  · exact a 1
  · exact a 2
  · simpa using b 0
  · simpa using b 1
  · simpa using b 2
  · norm_num
  · norm_num
  · norm_num

theorem flRy_err (t : ℝ) (M : Mat3) (h : ∀ i k j, i ≠ k → M i j ^ 2 + M k j ^ 2 ≤ 1.0001) (i j : Fin 3) : |flRy fl L t M i j - (axisY t * M) i j| ≤ 6e-16 := by
  have a := fun j => fl_turn R (L.cos t) (-L.sin t) (cos t) (-sin t) (M 0 j) (M 2 j) (hL.cos t) (neg_sin_err R hL t) (by rw [neg_sq, add_comm]; exact sin_sq_add_cos_sq t) (h 0 2 j (by decide))
  have b := fun j => fl_turn R (L.sin t) (L.cos t) (sin t) (cos t) (M 0 j) (M 2 j) (hL.sin t) (hL.cos t) (sin_sq_add_cos_sq t) (h 0 2 j (by decide))
  have a' : ∀ j, |fl (fl (L.cos t * M 0 j) - fl (L.sin t * M 2 j)) - (cos t * M 0 j - sin t * M 2 j)| ≤ 6e-16 := by
    intro j
    have := a j
    rwa [neg_mul, R.odd, ← sub_eq_add_neg, neg_mul, ← sub_eq_add_neg] at this
  rw [← eraRy_eq]
  fin_cases i <;> fin_cases j <;> simp [flRy, eraRy]
  · exact a' 0
  · exact a' 1
  · exact a' 2
  · norm_num
  · norm_num
  · norm_num
  · exact b 0
  · exact b 1
  · exact b 2

/-- One rotation of palDeuler. -/
theorem step_small {M M' Q A : Mat3} {e : ℝ} (hA : IsRotation A) (h : Small (M - Q) e) (hs : ∀ i j, |M' i j - (A * M) i j| ≤ 6e-16) : Small (M' - A * Q) (e + 1.8e-15) := by
  have e1 : M' - A * Q = A * (M - Q) + (M' - A * M) := by noncomm_ring
  rw [e1]
  have h2 := small_of_entries (m := M' - A * M) (η := 6e-16) (fun i j => by rw [Matrix.sub_apply]; exact hs i j)
  exact ((h.lmul hA).add h2).mono (by norm_num)

theorem flDeulerLoop_small (order : List Char) (rot : ℕ → ℝ) : ∀ n i : ℕ, i + n = 3 → ∀ (M Q : Mat3) (e : ℝ), IsRotation Q → Small (M - Q) e → e + 1.8e-15 * n ≤ 1e-13 →
    Small (flDeulerLoop fl L order rot i M - deulerLoop order rot i Q) (e + 1.8e-15 * n) := by
  intro n
  induction n with
  | zero =>
    intro i hi M Q e hQ h he
    rw [flDeulerLoop, deulerLoop, if_neg (by omega), if_neg (by omega)]
    simpa using h
  | succ n ih =>
    intro i hi M Q e hQ h he
    rw [flDeulerLoop, deulerLoop, if_pos (by omega), if_pos (by omega)]
    push_cast at he ⊢
    have hn : (0 : ℝ) ≤ n := Nat.cast_nonneg n
    have he1 : e ≤ 1e-13 := by norm_num at *; linarith
    have he2 : e + 1.8e-15 + 1.8e-15 * n ≤ 1e-13 := by norm_num at *; linarith
    have hcol := near_col hQ h he1
    have hstop : Small (M - Q) (e + 1.8e-15 * (n + 1)) := h.mono (by norm_num at *; linarith)
    have hre : e + 1.8e-15 * (n + 1) = e + 1.8e-15 + 1.8e-15 * n := by ring
    cases order[i]? with
    | none => exact hstop
    | some c =>
      simp only
      split_ifs
      · rw [hre, eraRx_eq]
        exact ih (i + 1) (by omega) _ _ _ (rot_mul (rot_axisX _) hQ) (step_small R hL (rot_axisX _) h (flRx_err R hL _ M hcol)) he2
      · rw [hre, eraRy_eq]
        exact ih (i + 1) (by omega) _ _ _ (rot_mul (rot_axisY _) hQ) (step_small R hL (rot_axisY _) h (flRy_err R hL _ M hcol)) he2
      · rw [hre, eraRz_eq]
        exact ih (i + 1) (by omega) _ _ _ (rot_mul (rot_axisZ _) hQ) (step_small R hL (rot_axisZ _) h (flRz_err R hL _ M hcol)) he2
      · exact hstop

theorem flDeuler_small (order : List Char) (phi theta psi : ℝ) : Small (flDeuler fl L order phi theta psi - palDeuler order phi theta psi) 5.4e-15 := by
  have h := flDeulerLoop_small R hL order (fun i => if i = 0 then phi else if i = 1 then theta else psi) 3 0 rfl eraIr eraIr 0
    (by rw [eraIr_eq]; exact rot_one) (by rw [sub_self]; intro x; simp [len]) (by norm_num)
  exact h.mono (by norm_num)

end steps

theorem fl_pdp {fl : ℝ → ℝ} (R : Rounding fl) (x y z : ℝ) (h : |x| + |y| + |z| ≤ 10 ^ 29) :
    |fl (fl (fl x + fl y) + fl z) - (x + y + z)| ≤ 4.5e-16 * (|x| + |y| + |z|) + 10 * tinyT := by
  have t0 := tinyT_pos
  have t1 := tinyT_le
  rw [show (4.5e-16 : ℝ) = 45 / 100000000000000000 by norm_num]
  have x0 := abs_nonneg x; have y0 := abs_nonneg y; have z0 := abs_nonneg z
  obtain ⟨ex, nx⟩ := R.err2 (x := x) (by linarith)
  obtain ⟨ey, ny⟩ := R.err2 (x := y) (by linarith)
  obtain ⟨ez, nz⟩ := R.err2 (x := z) (by linarith)
  have na := abs_add_le (fl x) (fl y)
  obtain ⟨e2, n2⟩ := R.err2 (x := fl x + fl y) (by linarith)
  have nb := abs_add_le (fl (fl x + fl y)) (fl z)
  obtain ⟨e3, -⟩ := R.err2 (x := fl (fl x + fl y) + fl z) (by linarith)
  generalize fl (fl (fl x + fl y) + fl z) = c at *
  generalize fl (fl x + fl y) = b at *
  generalize fl x = p at *
  generalize fl y = q at *
  generalize fl z = r at *
  have key : c - (x + y + z) = (c - (b + r)) + (b - (p + q)) + (p - x) + (q - y) + (r - z) := by ring
  rw [key]
  have s1 := abs_add_le ((c - (b + r)) + (b - (p + q)) + (p - x) + (q - y)) (r - z)
  have s2 := abs_add_le ((c - (b + r)) + (b - (p + q)) + (p - x)) (q - y)
  have s3 := abs_add_le ((c - (b + r)) + (b - (p + q))) (p - x)
  have s4 := abs_add_le (c - (b + r)) (b - (p + q))
  linarith

/-- A product with a factor of at most 2. -/
theorem Rounding.mul2 {fl : ℝ → ℝ} (R : Rounding fl) {a A b B α β : ℝ} (ε : ℝ) (ha : |a - A| ≤ α) (hb : |b - B| ≤ β) (hA : |A| ≤ 1) (hB : |B| ≤ 2) (h1 : α ≤ 1e-13) (h2 : β ≤ 1e-12)
    (he : 2 * α + β + 2.23e-16 ≤ ε) : |fl (a * b) - A * B| ≤ ε := by
  have a0 := (abs_nonneg _).trans ha
  have b0 := (abs_nonneg _).trans hb
  have e : a * b - A * B = (a - A) * B + A * (b - B) + (a - A) * (b - B) := by ring
  have i1 : |(a - A) * B| ≤ α * 2 := by rw [abs_mul]; exact mul_le_mul ha hB (abs_nonneg _) a0
  have i2 : |A * (b - B)| ≤ 1 * β := by rw [abs_mul]; exact mul_le_mul hA hb (abs_nonneg _) zero_le_one
  have i3 : |(a - A) * (b - B)| ≤ 1e-13 * 1e-12 := by rw [abs_mul]; exact mul_le_mul (ha.trans h1) (hb.trans h2) (abs_nonneg _) (by norm_num)
  have t1 := abs_add_le ((a - A) * B + A * (b - B)) ((a - A) * (b - B))
  have t2 := abs_add_le ((a - A) * B) (A * (b - B))
  refine R.add_err ε (B := 2) (δ := 2 * α + β + 1e-25) ?_ ?_ (by norm_num) ?_ ?_
  · rw [e]; norm_num at *; linarith
  · rw [abs_mul]; nlinarith [abs_nonneg A, abs_nonneg B]
  · norm_num at *; linarith
  · norm_num at *; linarith

theorem sum_abs_le (v : Vec3) : |v 0| + |v 1| + |v 2| ≤ 1.7321 * len v := by
  have n := len_nonneg v
  refine abs_le_of_sq_le_sq' (a := |v 0| + |v 1| + |v 2|) ?_ (by positivity) |>.2
  have hl := len_sq v
  rw [dot_eq] at hl
  rw [mul_pow, pow_two (len v), hl]
  nlinarith [sq_abs (v 0), sq_abs (v 1), sq_abs (v 2), sq_nonneg (|v 0| - |v 1|), sq_nonneg (|v 0| - |v 2|), sq_nonneg (|v 1| - |v 2|), sq_nonneg (v 0), sq_nonneg (v 1), sq_nonneg (v 2)]

/-- Multiplication by a matrix with entries of about 1 at most. -/
theorem flRxp_len {fl : ℝ → ℝ} (R : Rounding fl) (M : Mat3) (hM : ∀ i j, |M i j| ≤ 1.01) (v : Vec3) (hv : len v ≤ 10 ^ 20) :
    len (fun i => flRxp fl M v i - (M *ᵥ v) i) ≤ 1.37e-15 * len v + 1 / 10 ^ 198 := by
  have hs := sum_abs_le v
  have n := len_nonneg v
  have c : ∀ i, |flRxp fl M v i - (M *ᵥ v) i| ≤ 7.88e-16 * len v + 10 * tinyT := by
    intro i
    have e : (M *ᵥ v) i = M i 0 * v 0 + M i 1 * v 1 + M i 2 * v 2 := by simp [Matrix.mulVec, dotProduct, Fin.sum_univ_three]
    have p : ∀ k, |M i k * v k| ≤ 1.01 * |v k| := fun k => by rw [abs_mul]; exact mul_le_mul_of_nonneg_right (hM i k) (abs_nonneg _)
    have p0 := p 0; have p1 := p 1; have p2 := p 2
    have h := fl_dot3 R (M i 0 * v 0) (M i 1 * v 1) (M i 2 * v 2) (by norm_num at *; linarith)
    rw [e]
    refine h.trans ?_
    norm_num at *
    linarith
  refine (len_le_of_comp c).trans ?_
  have : tinyT = 1 / 10 ^ 200 := rfl
  rw [this]
  have z : (1.7321 : ℝ) * (10 * (1 / 10 ^ 200)) ≤ 1 / 10 ^ 198 := by norm_num
  rw [mul_add]
  have z2 : 1.7321 * (7.88e-16 * len v) ≤ 1.37e-15 * len v := by rw [← mul_assoc]; exact mul_le_mul_of_nonneg_right (by norm_num) n
  exact add_le_add z2 z

end Pal
