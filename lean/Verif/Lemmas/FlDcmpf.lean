import Verif.Model.FlDcmpf
import Verif.Lemmas.FlRr
import Verif.Lemmas.FlGmst
import Verif.Lemmas.Sphere
import Verif.Props.FlBear
import Verif.Props.FlTan
import Verif.Props.FlAngle

/-!
# palDcmpf in double precision: the pieces
-/

namespace Pal
open Real Pal.Spec Pal.Props

variable {fl : ℝ → ℝ} {L : Libm}

/-- The scales. -/
theorem dcmpf_scale (R : Rounding fl) {x y : ℝ} (hx : |x| ≤ 1e10) (hy : |y| ≤ 1e10) (h : 1e-10 ≤ √(x * x + y * y)) : Rr 4.65 (√(x * x + y * y)) (fl (√(fl (fl (x * x) + fl (y * y))))) (√(x * x + y * y)) := by
  have S0 : 0 ≤ x * x + y * y := by nlinarith [mul_self_nonneg x, mul_self_nonneg y]
  have xx : x * x ≤ 1e20 := by nlinarith [abs_le.1 hx, sq_abs x, abs_nonneg x]
  have yy : y * y ≤ 1e20 := by nlinarith [abs_le.1 hy, sq_abs y, abs_nonneg y]
  have s := fl_sumsq R x y (hx.trans (by norm_num)) (hy.trans (by norm_num))
  have S1 : 1e-20 ≤ x * x + y * y := by
    rw [← mul_self_sqrt S0]
    nlinarith
  have n : 0 ≤ fl (fl (x * x) + fl (y * y)) := by
    have := abs_le.1 s
    have z : (4 : ℝ) / 10 ^ 200 ≤ 1e-40 := by norm_num
    generalize (4 : ℝ) / 10 ^ 200 = u at *
    linarith
  have q := (fl_hyp R (x * x + y * y) _ S0 (by norm_num; linarith) (s.trans (by
    have z : (4 : ℝ) / 10 ^ 200 ≤ 10 / 10 ^ 200 := by norm_num
    generalize (4 : ℝ) / 10 ^ 200 = u at *
    generalize (10 : ℝ) / 10 ^ 200 = v at *
    linarith)) n).2
  refine ⟨by norm_num, by norm_num, by norm_num at h ⊢; linarith, ?_, by rw [abs_of_nonneg (sqrt_nonneg _)], q.trans ?_⟩
  · exact sqrt_le_iff.2 ⟨by norm_num, by norm_num; linarith⟩
  · have : (1 : ℝ) / 10 ^ 96 ≤ 1e-30 := by norm_num
    generalize (1 : ℝ) / 10 ^ 96 = u at *
    linarith

/-- The sign of the determinant. -/
theorem dcmpf_sign (R : Rounding fl) {b f c e B C : ℝ} (hb : |b| ≤ B) (he : |e| ≤ B) (hc : |c| ≤ C) (hf : |f| ≤ C) (B0 : 1e-10 ≤ B) (C0 : 1e-10 ≤ C) (B1 : B ≤ 2e10) (C1 : C ≤ 2e10) (h : 1e-6 * (B * C) ≤ |b * f - c * e|) :
    (fl (fl (b * f) - fl (c * e)) ≥ 0 ↔ b * f - c * e ≥ 0) := by
  have g1 := Rr.exact hb (by linarith) (by linarith)
  have g2 := Rr.exact hf (by linarith) (by linarith)
  have g3 := Rr.exact hc (by linarith) (by linarith)
  have g4 := Rr.exact he (by linarith) (by linarith)
  have P0 : 1e-20 ≤ B * C := by nlinarith
  have P1 : B * C ≤ 1e28 / 2 := by nlinarith
  have m1 := Rr.mul R 1 (B * C) g1 g2 (by norm_num) (by norm_num) le_rfl (by linarith) (by linarith)
  have m2 := Rr.mul R 1 (B * C) g3 g4 (by norm_num) (by norm_num) (by rw [mul_comm]) (by linarith) (by linarith)
  have s := (Rr.sub R 2 (2 * (B * C)) m1 m2 (by linarith) (by norm_num) (by norm_num) (by linarith) (by linarith)).err
  generalize B * C = P at *
  generalize fl (fl (b * f) - fl (c * e)) = w at *
  generalize b * f - c * e = W at *
  have := abs_le.1 s
  rcases le_total 0 W with g | g
  · rw [abs_of_nonneg g] at h
    constructor <;> intro <;> linarith
  · rw [abs_of_nonpos g] at h
    constructor <;> intro <;> linarith

/-- The nonperpendicularity: a sum of two angles reduced to ±π, with a positive cosine. -/
theorem dcmpf_perp (R : Rounding fl) (hL : LibmOK L) (n1 n2 : Bool) {b e c f B C κ : ℝ} (hB : √(b * b + e * e) = B) (hC : √(c * c + f * f) = C) (B0 : 0 < B) (C0 : 0 < C) (h : κ * (B * C) = b * f - c * e) (hκ : 1e-6 ≤ κ) :
    |flDrange fl (fl (flAtan2 L n1 c f + flAtan2 L n2 e b)) - palDrange (atan2 c f + atan2 e b)| ≤ 2.1e-15 ∧ cos (palDrange (atan2 c f + atan2 e b)) = κ ∧ |palDrange (atan2 c f + atan2 e b)| ≤ 1.5708 := by
  have p1 := pi_lt_d6
  have p2 := pi_gt_d6
  have hC' : √(f * f + c * c) = C := by rw [add_comm, hC]
  have c1 : f ≠ 0 ∨ c ≠ 0 := by
    by_contra q; push Not at q; rw [q.1, q.2] at hC'; simp at hC'; linarith
  have b1 : b ≠ 0 ∨ e ≠ 0 := by
    by_contra q; push Not at q; rw [q.1, q.2] at hB; simp at hB; linarith
  obtain ⟨T1, t1, t2, t3, t4⟩ := flAtan2_spec hL n1 c f c1
  obtain ⟨T2, u1, u2, u3, u4⟩ := flAtan2_spec hL n2 e b b1
  have X1 := hyp_cos_atan2 c f
  have Y1 := hyp_sin_atan2 c f
  have X2 := hyp_cos_atan2 e b
  have Y2 := hyp_sin_atan2 e b
  rw [hC'] at t2 t3 X1 Y1
  rw [hB] at u2 u3 X2 Y2
  generalize flAtan2 L n1 c f = q1 at *
  generalize flAtan2 L n2 e b = q2 at *
  obtain ⟨r1, k0, r2⟩ := palDrange_spec (atan2 c f + atan2 e b)
  have ca : cos (palDrange (atan2 c f + atan2 e b)) = κ := by
    rw [r2, cos_add_int_mul_two_pi, cos_add]
    have : B * C * (cos (atan2 c f) * cos (atan2 e b) - sin (atan2 c f) * sin (atan2 e b)) = B * C * κ := by
      rw [mul_comm (B * C) κ, h]
      linear_combination b * X1 + C * cos (atan2 c f) * X2 - e * Y1 - C * sin (atan2 c f) * Y2
    exact mul_left_cancel₀ (mul_pos B0 C0).ne' this
  have ct : cos (T1 + T2) = κ := by
    rw [cos_add]
    have : B * C * (cos T1 * cos T2 - sin T1 * sin T2) = B * C * κ := by
      rw [mul_comm (B * C) κ, h]
      linear_combination -b * t2 - C * cos T1 * u2 + e * t3 + C * sin T1 * u3
    exact mul_left_cancel₀ (mul_pos B0 C0).ne' this
  have bnd : |palDrange (atan2 c f + atan2 e b)| ≤ π / 2 := by
    by_contra g
    push Not at g
    have : cos (palDrange (atan2 c f + atan2 e b)) ≤ 0 := by
      rw [← cos_abs]
      exact cos_nonpos_of_pi_div_two_le_of_le g.le (by linarith)
    linarith
  refine ⟨?_, ca, by linarith⟩
  have sT : sin (T1 + T2) = sin (atan2 c f + atan2 e b) := by
    rw [sin_add, sin_add]
    have : B * C * (sin T1 * cos T2 + cos T1 * sin T2) = B * C * (sin (atan2 c f) * cos (atan2 e b) + cos (atan2 c f) * sin (atan2 e b)) := by
      have a : B * C * (sin T1 * cos T2 + cos T1 * sin T2) = c * b + f * e := by
        linear_combination -b * t3 - C * sin T1 * u2 - e * t2 - C * cos T1 * u3
      rw [a]
      linear_combination -b * Y1 - C * sin (atan2 c f) * X2 - e * X1 - C * cos (atan2 c f) * Y2
    exact mul_left_cancel₀ (mul_pos B0 C0).ne' this
  have cT : cos (T1 + T2) = cos (atan2 c f + atan2 e b) := by
    rw [ct, ← ca, r2, cos_add_int_mul_two_pi]
  obtain ⟨k1, hk1⟩ := sincos_same sT cT
  have qb : |q1 + q2| ≤ 6.2832 := (abs_add_le _ _).trans (by have := close_range t1 t4; have := close_range u1 u4; norm_num at *; linarith)
  have e1 := R.err (x := q1 + q2) (qb.trans (by norm_num))
  have z : (1 : ℝ) / 10 ^ 200 ≤ 1e-30 := by norm_num
  have e2 : |fl (q1 + q2) - (q1 + q2)| ≤ 7e-16 := by
    generalize (1 : ℝ) / 10 ^ 200 = y at *
    linarith
  have fb : |fl (q1 + q2)| ≤ 6.2833 := by
    have := abs_add_le (fl (q1 + q2) - (q1 + q2)) (q1 + q2)
    rw [sub_add_cancel] at this
    norm_num at *
    linarith
  obtain ⟨d1, d2, -, -, ⟨k2, d3⟩, -⟩ := C99_drange R (fl (q1 + q2)) (fl_double R (qb.trans (by norm_num))) (fb.trans (le_trans (by norm_num : (6.2833 : ℝ) ≤ 2 ^ 3) (pow_le_pow_right₀ (by norm_num) (by norm_num))))
  generalize flDrange fl (fl (q1 + q2)) = r at *
  have tot : |r - (palDrange (atan2 c f + atan2 e b) + (k1 - k0 - k2 : ℤ) * (2 * π))| ≤ 2.1e-15 := by
    have : r - (palDrange (atan2 c f + atan2 e b) + (k1 - k0 - k2 : ℤ) * (2 * π)) = (r - (fl (q1 + q2) - k2 * (2 * π))) + ((fl (q1 + q2) - (q1 + q2)) + ((q1 - T1) + (q2 - T2))) := by
      push_cast
      linear_combination -r2 + hk1
    rw [this]
    have a1 := abs_add_le (r - (fl (q1 + q2) - k2 * (2 * π))) ((fl (q1 + q2) - (q1 + q2)) + ((q1 - T1) + (q2 - T2)))
    have a2 := abs_add_le (fl (q1 + q2) - (q1 + q2)) ((q1 - T1) + (q2 - T2))
    have a3 := abs_add_le (q1 - T1) (q2 - T2)
    linarith
  have k0' : (k1 - k0 - k2 : ℤ) = 0 := by
    by_contra g
    have g1 : (1 : ℝ) ≤ |((k1 - k0 - k2 : ℤ) : ℝ)| := by exact_mod_cast Int.one_le_abs g
    have a := abs_sub_abs_le_abs_sub (((k1 - k0 - k2 : ℤ) : ℝ) * (2 * π)) (r - palDrange (atan2 c f + atan2 e b))
    rw [show ((k1 - k0 - k2 : ℤ) : ℝ) * (2 * π) - (r - palDrange (atan2 c f + atan2 e b)) = -(r - (palDrange (atan2 c f + atan2 e b) + (k1 - k0 - k2 : ℤ) * (2 * π))) by ring, abs_neg, abs_mul, abs_of_pos (by linarith : (0 : ℝ) < 2 * π)] at a
    have b := abs_sub r (palDrange (atan2 c f + atan2 e b))
    have m := mul_le_mul_of_nonneg_right g1 (by linarith : (0 : ℝ) ≤ 2 * π)
    norm_num at *
    linarith
  rw [k0', Int.cast_zero, zero_mul, add_zero] at tot
  exact tot

/-- The orientation. -/
theorem dcmpf_orient (R : Rounding fl) (hL : LibmOK L) (n : Bool) {b e c f B C κ rb rc : ℝ} (hb : √(b * b + e * e) = B) (hc : √(c * c + f * f) = C) (gb : Rr 4.65 B rb B) (gc : Rr 4.65 C rc C) (B0 : 1e-10 ≤ B) (C0 : 1e-10 ≤ C)
    (B1 : B ≤ 2e10) (C1 : C ≤ 2e10) (h : κ * (B * C) = b * f - c * e) (hκ : 0 ≤ κ) (hκ1 : κ ≤ 1) :
    let ws := fl (fl (c * rb) - fl (e * rc))
    let wc := fl (fl (b * rc) + fl (f * rb))
    (ws ≠ 0 ∨ wc ≠ 0) ∧ (c * B - e * C ≠ 0 ∨ b * C + f * B ≠ 0) ∧ ∃ k : ℤ, |flAtan2 L n ws wc - (atan2 (c * B - e * C) (b * C + f * B) + k * (2 * π))| ≤ 6.5e-15 := by
  intro ws wc
  have BB : b * b + e * e = B * B := by rw [← hb, mul_self_sqrt (by nlinarith [mul_self_nonneg b, mul_self_nonneg e])]
  have CC : c * c + f * f = C * C := by rw [← hc, mul_self_sqrt (by nlinarith [mul_self_nonneg c, mul_self_nonneg f])]
  have cb : |c| ≤ C := abs_le_of_sq_le_sq (by nlinarith [mul_self_nonneg f]) (by linarith)
  have fb : |f| ≤ C := abs_le_of_sq_le_sq (by nlinarith [mul_self_nonneg c]) (by linarith)
  have bb : |b| ≤ B := abs_le_of_sq_le_sq (by nlinarith [mul_self_nonneg e]) (by linarith)
  have eb : |e| ≤ B := abs_le_of_sq_le_sq (by nlinarith [mul_self_nonneg b]) (by linarith)
  have P0 : 1e-20 ≤ B * C := by nlinarith
  have P1 : B * C ≤ 1e28 / 2 := by nlinarith
  have Pp : 0 < B * C := lt_of_lt_of_le (by norm_num) P0
  have g1 := Rr.exact bb (by linarith) (by linarith)
  have g2 := Rr.exact fb (by linarith) (by linarith)
  have g3 := Rr.exact cb (by linarith) (by linarith)
  have g4 := Rr.exact eb (by linarith) (by linarith)
  have m1 := Rr.mul R 5.66 (B * C) g3 gb (by norm_num) (by norm_num) (by rw [mul_comm]) (by linarith) (by linarith)
  have m2 := Rr.mul R 5.66 (B * C) g4 gc (by norm_num) (by norm_num) le_rfl (by linarith) (by linarith)
  have m3 := Rr.mul R 5.66 (B * C) g1 gc (by norm_num) (by norm_num) le_rfl (by linarith) (by linarith)
  have m4 := Rr.mul R 5.66 (B * C) g2 gb (by norm_num) (by norm_num) (by rw [mul_comm]) (by linarith) (by linarith)
  have y := (Rr.sub R 6.66 (2 * (B * C)) m1 m2 (by linarith) (by norm_num) (by norm_num) (by linarith) (by linarith)).err
  have x := (Rr.add R 6.66 (2 * (B * C)) m3 m4 (by linarith) (by norm_num) (by norm_num) (by linarith) (by linarith)).err
  change |ws - (c * B - e * C)| ≤ _ at y
  change |wc - (b * C + f * B)| ≤ _ at x
  clear_value ws wc
  have hyp : (b * C + f * B) * (b * C + f * B) + (c * B - e * C) * (c * B - e * C) = B * C * (B * C) * (2 * (1 + κ)) := by
    linear_combination C * C * BB + B * B * CC - 2 * (B * C) * h
  have X := hyp_cos_atan2 (c * B - e * C) (b * C + f * B)
  have Y := hyp_sin_atan2 (c * B - e * C) (b * C + f * B)
  rw [hyp, sqrt_mul (by positivity), sqrt_mul_self Pp.le] at X Y
  have s1 : 1.414 ≤ √(2 * (1 + κ)) := le_sqrt_of_sq_le (by norm_num; linarith)
  have s2 : √(2 * (1 + κ)) ≤ 2 := sqrt_le_iff.2 ⟨by norm_num, by linarith⟩
  have ne : b * C + f * B ≠ 0 ∨ c * B - e * C ≠ 0 := by
    by_contra q
    push Not at q
    rw [q.1, q.2] at hyp
    have : 0 < B * C * (B * C) * (2 * (1 + κ)) := by positivity
    linarith
  generalize √(2 * (1 + κ)) = S at *
  have nf : wc ≠ 0 ∨ ws ≠ 0 := by
    by_contra q
    push Not at q
    rw [q.1, zero_sub, abs_neg] at x
    rw [q.2, zero_sub, abs_neg] at y
    have x' : |b * C + f * B| ≤ 0.1 * (B * C) := by linarith
    have y' : |c * B - e * C| ≤ 0.1 * (B * C) := by linarith
    have x2 := mul_le_mul x' x' (abs_nonneg _) (by positivity)
    have y2 := mul_le_mul y' y' (abs_nonneg _) (by positivity)
    rw [abs_mul_abs_self] at x2 y2
    have : 0 < B * C * (B * C) := by positivity
    have : 0 ≤ B * C * (B * C) * κ := by positivity
    nlinarith only [hyp, x2, y2, this, ‹0 < B * C * (B * C)›]
  refine ⟨nf.symm, ne.symm, ?_⟩
  obtain ⟨T, t1, t2, t3, -⟩ := flAtan2_spec hL n ws wc nf
  have x3 : |wc / (B * C) - (b * C + f * B) / (B * C)| ≤ 1.5e-15 := by
    rw [← sub_div, abs_div, abs_of_pos Pp, div_le_iff₀ Pp]; linarith
  have y3 : |ws / (B * C) - (c * B - e * C) / (B * C)| ≤ 1.5e-15 := by
    rw [← sub_div, abs_div, abs_of_pos Pp, div_le_iff₀ Pp]; linarith
  obtain ⟨k, hk⟩ := bearing_close (S := S) (q := atan2 (c * B - e * C) (b * C + f * B)) (ρ := √(wc * wc + ws * ws) / (B * C)) (T := T) (θ := flAtan2 L n ws wc) x3 y3 (by linarith) s2
    (by rw [eq_div_iff Pp.ne', ← X]; rw [X]; linear_combination X) (by rw [eq_div_iff Pp.ne']; linear_combination Y) (by positivity) (by rw [div_mul_eq_mul_div, ← t2]) (by rw [div_mul_eq_mul_div, ← t3]) t1
  refine ⟨k, ?_⟩
  generalize |flAtan2 L n ws wc - (atan2 (c * B - e * C) (b * C + f * B) + k * (2 * π))| = g at *
  by_contra q
  push Not at q
  have : 1.414 * 6.5e-15 < S * g := by nlinarith
  linarith

end Pal
