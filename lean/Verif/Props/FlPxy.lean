import Verif.Lemmas.FlPxy

/-!
# The RMS residuals of a plate model in double precision

The reference is the model over the real numbers, whose own meaning is C25 (`palPxy`).
-/

namespace Pal.Props
open Pal

/-- One residual: the predicted coordinate and the difference are rounded. -/
theorem flResid {fl : ℝ → ℝ} (R : Rounding fl) {e a b c x y B : ℝ} (hB : B ≤ 10 ^ 60) (he : |e| ≤ B) (h : |a| + |b * x| + |c * y| ≤ B) :
    |fl (e - flLin fl a b c x y) - (e - (a + b * x + c * y))| ≤ 5.56e-16 * B + 1 / 10 ^ 198 ∧ |e - (a + b * x + c * y)| ≤ 10 ^ 69 := by
  have n1 := abs_nonneg a
  have n2 := abs_nonneg (b * x)
  have n3 := abs_nonneg (c * y)
  have l := flLin_err R a b c x y (le_trans (by linarith : _ ≤ (10 : ℝ) ^ 60) (by norm_num)) (le_trans (by linarith : _ ≤ (10 : ℝ) ^ 60) (by norm_num)) (le_trans (by linarith : _ ≤ (10 : ℝ) ^ 60) (by norm_num))
  have t := abs_add_three a (b * x) (c * y)
  generalize flLin fl a b c x y = p at *
  generalize a + b * x + c * y = P at *
  have s := abs_sub e P
  refine ⟨?_, le_trans (by linarith : _ ≤ 2 * (10 : ℝ) ^ 60) (by norm_num)⟩
  have u : |e - p| ≤ |e - P| + |p - P| := by
    rw [show e - p = (e - P) - (p - P) by ring]; exact abs_sub _ _
  have B1 : B ≤ 10 ^ 61 := hB.trans (by norm_num)
  have f := R.errL (x := e - p) (le_trans (by linarith : _ ≤ (10 : ℝ) ^ 62) (by norm_num))
  have w : |fl (e - p) - (e - P)| ≤ |fl (e - p) - (e - p)| + |p - P| := by
    rw [show fl (e - p) - (e - P) = (fl (e - p) - (e - p)) - (p - P) by ring]; exact abs_sub _ _
  linarith

/-- C128: the predicted coordinates and the RMS residuals that palPxy delivers in double precision, for any number of samples that an int can hold.  `B` bounds the expected coordinates and the magnitudes of
the terms of the predicted ones.  The errors: a few roundings of `B` for the residuals, and for the mean of `np` of them half a rounding of the result for each sample. -/
theorem C128_pxy {fl : ℝ → ℝ} (R : Rounding fl) {np : ℕ} (hn : np < 2 ^ 31) (xye xym : ℕ → ℝ × ℝ) (c : Fin 6 → ℝ) {B : ℝ} (hB0 : 0 ≤ B) (hB : B ≤ 10 ^ 60)
    (he : ∀ i, i < np → |(xye i).1| ≤ B ∧ |(xye i).2| ≤ B)
    (hm : ∀ i, i < np → |c 0| + |c 1 * (xym i).1| + |c 2 * (xym i).2| ≤ B ∧ |c 3| + |c 4 * (xym i).1| + |c 5 * (xym i).2| ≤ B) :
    let r := flPxy fl np xye xym c
    let s := palPxy (fun i : Fin np => xye i) (fun i => xym i) c
    (∀ i : Fin np, |(r.1 i).1 - (s.1 i).1| ≤ 3.34e-16 * B + 1 / 10 ^ 198 ∧ |(r.1 i).2 - (s.1 i).2| ≤ 3.34e-16 * B + 1 / 10 ^ 198) ∧
    |r.2.1 - s.2.1| ≤ 5.6e-16 * B + (6e-17 * np + 3.2e-16) * s.2.1 + 1 / 10 ^ 97 ∧
    |r.2.2.1 - s.2.2.1| ≤ 5.6e-16 * B + (6e-17 * np + 3.2e-16) * s.2.2.1 + 1 / 10 ^ 97 ∧
    |r.2.2.2 - s.2.2.2| ≤ 1.2e-15 * B + (9e-17 * np + 7e-16) * s.2.2.2 + 1 / 10 ^ 96 := by
  intro r s
  have δ0 : 0 ≤ 5.56e-16 * B + 1 / 10 ^ 198 := by positivity
  have δ1 : 5.56e-16 * B + 1 / 10 ^ 198 ≤ 10 ^ 69 := by
    refine le_trans (by linarith : _ ≤ (10 : ℝ) ^ 61) (by norm_num)
  have e1 : s.2.1 = √((∑ i ∈ Finset.range np, ((xye i).1 - (c 0 + c 1 * (xym i).1 + c 2 * (xym i).2)) ^ 2) / (if (1 : ℝ) > np then 1 else (np : ℝ))) := by
    rw [Finset.sum_range]; simp only [s, palPxy, palXy2xy, sq]
  have e2 : s.2.2.1 = √((∑ i ∈ Finset.range np, ((xye i).2 - (c 3 + c 4 * (xym i).1 + c 5 * (xym i).2)) ^ 2) / (if (1 : ℝ) > np then 1 else (np : ℝ))) := by
    rw [Finset.sum_range]; simp only [s, palPxy, palXy2xy, sq]
  obtain ⟨-, x1⟩ := flRms_err R (fun i => (xye i).1) (fun i => flLin fl (c 0) (c 1) (c 2) (xym i).1 (xym i).2) (fun i => (xye i).1 - (c 0 + c 1 * (xym i).1 + c 2 * (xym i).2)) hn.le δ0 δ1
    (fun i hi => (flResid R hB (he i hi).1 (hm i hi).1).1) (fun i hi => (flResid R hB (he i hi).1 (hm i hi).1).2) rfl
  obtain ⟨-, y1⟩ := flRms_err R (fun i => (xye i).2) (fun i => flLin fl (c 3) (c 4) (c 5) (xym i).1 (xym i).2) (fun i => (xye i).2 - (c 3 + c 4 * (xym i).1 + c 5 * (xym i).2)) hn.le δ0 δ1
    (fun i hi => (flResid R hB (he i hi).2 (hm i hi).2).1) (fun i hi => (flResid R hB (he i hi).2 (hm i hi).2).2) rfl
  have X : |r.2.1 - s.2.1| ≤ 1.001 * (5.56e-16 * B + 1 / 10 ^ 198) + (6e-17 * np + 3.2e-16) * s.2.1 + 1 / 10 ^ 98 := by rw [e1]; exact x1
  have Y : |r.2.2.1 - s.2.2.1| ≤ 1.001 * (5.56e-16 * B + 1 / 10 ^ 198) + (6e-17 * np + 3.2e-16) * s.2.2.1 + 1 / 10 ^ 98 := by rw [e2]; exact y1
  have X1 : s.2.1 ≤ 10 ^ 69 := by rw [e1]; exact rms_le _ (by norm_num) (fun i hi => (flResid R hB (he i hi).1 (hm i hi).1).2) rfl
  have Y1 : s.2.2.1 ≤ 10 ^ 69 := by rw [e2]; exact rms_le _ (by norm_num) (fun i hi => (flResid R hB (he i hi).2 (hm i hi).2).2) rfl
  have X0 : 0 ≤ s.2.1 := Real.sqrt_nonneg _
  have Y0 : 0 ≤ s.2.2.1 := Real.sqrt_nonneg _
  have nn : (np : ℝ) ≤ 2 ^ 31 := by exact_mod_cast hn.le
  have n0 : (0 : ℝ) ≤ np := Nat.cast_nonneg np
  clear x1 y1 e1 e2
  refine ⟨fun i => ?_, by linarith, by linarith, ?_⟩
  · obtain ⟨m1, m2⟩ := hm i i.2
    have g : ∀ {a b d z w : ℝ}, |a| + |b * z| + |d * w| ≤ B → |flLin fl a b d z w - (a + b * z + d * w)| ≤ 3.34e-16 * B + 1 / 10 ^ 198 := fun {a b d z w} h => by
      have n1 := abs_nonneg a
      have n2 := abs_nonneg (b * z)
      have n3 := abs_nonneg (d * w)
      have l := flLin_err R a b d z w (le_trans (by linarith : _ ≤ (10 : ℝ) ^ 60) (by norm_num)) (le_trans (by linarith : _ ≤ (10 : ℝ) ^ 60) (by norm_num)) (le_trans (by linarith : _ ≤ (10 : ℝ) ^ 60) (by norm_num))
      linarith
    exact ⟨g m1, g m2⟩
  · have rr : s.2.2.2 = √(s.2.1 * s.2.1 + s.2.2.1 * s.2.2.1) := rfl
    have r2 : r.2.2.2 = fl (√(fl (fl (r.2.1 * r.2.1) + fl (r.2.2.1 * r.2.2.1)))) := rfl
    have ρ : ∀ {z : ℝ}, 0 ≤ z → (6e-17 * (np : ℝ) + 3.2e-16) * z ≤ 1 * z := fun hz => mul_le_mul_of_nonneg_right (by linarith) hz
    have ρx := ρ X0
    have ρy := ρ Y0
    have xb : |r.2.1| ≤ 10 ^ 72 := by
      have := abs_sub_abs_le_abs_sub r.2.1 s.2.1
      rw [abs_of_nonneg X0] at this
      refine le_trans (by linarith : _ ≤ (10 : ℝ) ^ 71) (by norm_num)
    have yb : |r.2.2.1| ≤ 10 ^ 72 := by
      have := abs_sub_abs_le_abs_sub r.2.2.1 s.2.2.1
      rw [abs_of_nonneg Y0] at this
      refine le_trans (by linarith : _ ≤ (10 : ℝ) ^ 71) (by norm_num)
    have h := flHyp_err R X Y xb yb
    rw [r2, rr]
    refine h.trans ?_
    have sum : s.2.1 + s.2.2.1 ≤ 1.4143 * √(s.2.1 * s.2.1 + s.2.2.1 * s.2.2.1) := by
      refine le_of_pow_le_pow_left₀ (n := 2) (by norm_num) (by positivity) ?_
      rw [mul_pow, Real.sq_sqrt (by positivity)]
      nlinarith [sq_nonneg (s.2.1 - s.2.2.1), mul_self_nonneg s.2.1, mul_self_nonneg s.2.2.1]
    have b0 := Real.sqrt_nonneg (s.2.1 * s.2.1 + s.2.2.1 * s.2.2.1)
    generalize √(s.2.1 * s.2.1 + s.2.2.1 * s.2.2.1) = b at *
    have k := mul_le_mul_of_nonneg_left sum (by positivity : (0 : ℝ) ≤ 6e-17 * np + 3.2e-16)
    have nb := mul_nonneg n0 b0
    linarith

/-- Two samples and the unit model, with IEEE rounding. -/
example : let r := flPxy ieee 2 (fun i => (3 + i, 4)) (fun i => (i, 0)) ![0, 1, 0, 0, 0, 1]
    let s := palPxy (fun i : Fin 2 => ((3 + (i : ℕ) : ℝ), (4 : ℝ))) (fun i => ((i : ℕ), 0)) ![0, 1, 0, 0, 0, 1]
    |r.2.1 - s.2.1| ≤ 5.6e-16 * 5 + (6e-17 * (2 : ℕ) + 3.2e-16) * s.2.1 + 1 / 10 ^ 97 := by
  refine (C128_pxy ieee_rounding (np := 2) (by norm_num) (fun i => (3 + i, 4)) (fun i => (i, 0)) ![0, 1, 0, 0, 0, 1] (B := 5) (by norm_num) (by norm_num) (fun i hi => ?_) (fun i hi => ?_)).2.1
  · interval_cases i <;> norm_num
  · show |(0 : ℝ)| + |1 * (i : ℝ)| + |(0 : ℝ) * 0| ≤ 5 ∧ |(0 : ℝ)| + |0 * (i : ℝ)| + |(1 : ℝ) * 0| ≤ 5
    interval_cases i <;> norm_num

end Pal.Props
