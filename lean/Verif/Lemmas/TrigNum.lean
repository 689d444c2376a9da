import Verif.Lemmas.Prec06Num

/-! # Sines and cosines of published angles to twelve decimals (Taylor polynomials of degree 13 to 16) -/

namespace Pal
open Real Spec Matrix

theorem sin_t13 : ∀ x : ℝ, 0 ≤ x → sin x ≤ x - x ^ 3 / 6 + x ^ 5 / 120 - x ^ 7 / 5040 + x ^ 9 / 362880 - x ^ 11 / 39916800 + x ^ 13 / 6227020800 := by
  intro x hx
  have := taylor_step (f := fun x => x - x ^ 3 / 6 + x ^ 5 / 120 - x ^ 7 / 5040 + x ^ 9 / 362880 - x ^ 11 / 39916800 + x ^ 13 / 6227020800 - sin x) (f' := fun x => 1 - x ^ 2 / 2 + x ^ 4 / 24 - x ^ 6 / 720 + x ^ 8 / 40320 - x ^ 10 / 3628800 + x ^ 12 / 479001600 - cos x) (by simp) (fun x => ?_)
    (fun x hx => by linarith [cos_t12 x hx]) x hx
  · linarith
  · have := (((((((hasDerivAt_id x).sub (hpow 3 6 x)).add (hpow 5 120 x)).sub (hpow 7 5040 x)).add (hpow 9 362880 x)).sub (hpow 11 39916800 x)).add (hpow 13 6227020800 x)).sub (Real.hasDerivAt_sin x)
    exact this.congr_deriv (by norm_num; ring)

theorem cos_t14 : ∀ x : ℝ, 0 ≤ x → 1 - x ^ 2 / 2 + x ^ 4 / 24 - x ^ 6 / 720 + x ^ 8 / 40320 - x ^ 10 / 3628800 + x ^ 12 / 479001600 - x ^ 14 / 87178291200 ≤ cos x := by
  intro x hx
  have := taylor_step (f := fun x => cos x - (1 - x ^ 2 / 2 + x ^ 4 / 24 - x ^ 6 / 720 + x ^ 8 / 40320 - x ^ 10 / 3628800 + x ^ 12 / 479001600 - x ^ 14 / 87178291200)) (f' := fun x => x - x ^ 3 / 6 + x ^ 5 / 120 - x ^ 7 / 5040 + x ^ 9 / 362880 - x ^ 11 / 39916800 + x ^ 13 / 6227020800 - sin x) (by simp) (fun x => ?_)
    (fun x hx => by linarith [sin_t13 x hx]) x hx
  · linarith
  · have := (Real.hasDerivAt_cos x).sub ((((((((hasDerivAt_const x (1 : ℝ)).sub (hpow 2 2 x)).add (hpow 4 24 x)).sub (hpow 6 720 x)).add (hpow 8 40320 x)).sub (hpow 10 3628800 x)).add (hpow 12 479001600 x)).sub (hpow 14 87178291200 x))
    exact this.congr_deriv (by norm_num; ring)

theorem sin_t15 : ∀ x : ℝ, 0 ≤ x → x - x ^ 3 / 6 + x ^ 5 / 120 - x ^ 7 / 5040 + x ^ 9 / 362880 - x ^ 11 / 39916800 + x ^ 13 / 6227020800 - x ^ 15 / 1307674368000 ≤ sin x := by
  intro x hx
  have := taylor_step (f := fun x => sin x - (x - x ^ 3 / 6 + x ^ 5 / 120 - x ^ 7 / 5040 + x ^ 9 / 362880 - x ^ 11 / 39916800 + x ^ 13 / 6227020800 - x ^ 15 / 1307674368000)) (f' := fun x => cos x - (1 - x ^ 2 / 2 + x ^ 4 / 24 - x ^ 6 / 720 + x ^ 8 / 40320 - x ^ 10 / 3628800 + x ^ 12 / 479001600 - x ^ 14 / 87178291200)) (by simp) (fun x => ?_)
    (fun x hx => by linarith [cos_t14 x hx]) x hx
  · linarith
  · have := (Real.hasDerivAt_sin x).sub ((((((((hasDerivAt_id x).sub (hpow 3 6 x)).add (hpow 5 120 x)).sub (hpow 7 5040 x)).add (hpow 9 362880 x)).sub (hpow 11 39916800 x)).add (hpow 13 6227020800 x)).sub (hpow 15 1307674368000 x))
    exact this.congr_deriv (by norm_num; ring)

theorem cos_t16 : ∀ x : ℝ, 0 ≤ x → cos x ≤ 1 - x ^ 2 / 2 + x ^ 4 / 24 - x ^ 6 / 720 + x ^ 8 / 40320 - x ^ 10 / 3628800 + x ^ 12 / 479001600 - x ^ 14 / 87178291200 + x ^ 16 / 20922789888000 := by
  intro x hx
  have := taylor_step (f := fun x => 1 - x ^ 2 / 2 + x ^ 4 / 24 - x ^ 6 / 720 + x ^ 8 / 40320 - x ^ 10 / 3628800 + x ^ 12 / 479001600 - x ^ 14 / 87178291200 + x ^ 16 / 20922789888000 - cos x) (f' := fun x => sin x - (x - x ^ 3 / 6 + x ^ 5 / 120 - x ^ 7 / 5040 + x ^ 9 / 362880 - x ^ 11 / 39916800 + x ^ 13 / 6227020800 - x ^ 15 / 1307674368000)) (by simp) (fun x => ?_)
    (fun x hx => by linarith [sin_t15 x hx]) x hx
  · linarith
  · have := (((((((((hasDerivAt_const x (1 : ℝ)).sub (hpow 2 2 x)).add (hpow 4 24 x)).sub (hpow 6 720 x)).add (hpow 8 40320 x)).sub (hpow 10 3628800 x)).add (hpow 12 479001600 x)).sub (hpow 14 87178291200 x)).add (hpow 16 20922789888000 x)).sub (Real.hasDerivAt_cos x)
    exact this.congr_deriv (by norm_num; ring)

/-- Sine and cosine of an angle close to a rational one, between 0 and 0.83. -/
theorem trig_near12 {a a0 s c : ℝ} (h0 : 0 ≤ a0) (hd : |a - a0| ≤ 1e-15)
    (h1 : s - 4.9e-13 ≤ a0 - a0 ^ 3 / 6 + a0 ^ 5 / 120 - a0 ^ 7 / 5040 + a0 ^ 9 / 362880 - a0 ^ 11 / 39916800 + a0 ^ 13 / 6227020800 - a0 ^ 15 / 1307674368000) (h2 : a0 - a0 ^ 3 / 6 + a0 ^ 5 / 120 - a0 ^ 7 / 5040 + a0 ^ 9 / 362880 - a0 ^ 11 / 39916800 + a0 ^ 13 / 6227020800 ≤ s + 4.9e-13)
    (h3 : c - 4.9e-13 ≤ 1 - a0 ^ 2 / 2 + a0 ^ 4 / 24 - a0 ^ 6 / 720 + a0 ^ 8 / 40320 - a0 ^ 10 / 3628800 + a0 ^ 12 / 479001600 - a0 ^ 14 / 87178291200) (h4 : 1 - a0 ^ 2 / 2 + a0 ^ 4 / 24 - a0 ^ 6 / 720 + a0 ^ 8 / 40320 - a0 ^ 10 / 3628800 + a0 ^ 12 / 479001600 - a0 ^ 14 / 87178291200 + a0 ^ 16 / 20922789888000 ≤ c + 4.9e-13) : |sin a - s| ≤ 5e-13 ∧ |cos a - c| ≤ 5e-13 := by
  have e1 := abs_le.1 ((abs_sin_sub_le a a0).trans hd)
  have e2 := abs_le.1 ((abs_cos_sub_le a a0).trans hd)
  have := sin_t13 a0 h0
  have := sin_t15 a0 h0
  have := cos_t14 a0 h0
  have := cos_t16 a0 h0
  constructor <;> rw [abs_le] <;> constructor <;> linarith [e1.1, e1.2, e2.1, e2.2]

/-- An angle in degrees close to a rational number of radians. -/
theorem deg_near (v a0 : ℝ) (hv : 0 ≤ v) (h1 : a0 - 1e-15 ≤ v * 3.14159265358979323846 / 180) (h2 : v * 3.14159265358979323847 / 180 ≤ a0 + 1e-15) : |v * (π / 180) - a0| ≤ 1e-15 := by
  have p1 := Real.pi_gt_d20
  have p2 := Real.pi_lt_d20
  have e : v * (π / 180) = v * π / 180 := by ring
  rw [e, abs_le]
  have q1 : v * 3.14159265358979323846 ≤ v * π := mul_le_mul_of_nonneg_left p1.le hv
  have q2 : v * π ≤ v * 3.14159265358979323847 := mul_le_mul_of_nonneg_left p2.le hv
  constructor <;> linarith

theorem deg_33 : |sin (33 * (π / 180)) - 0.5446390350150271| ≤ 5e-13 ∧ |cos (33 * (π / 180)) - 0.8386705679454240| ≤ 5e-13 :=
  trig_near12 (a0 := 0.57595865315812876) (by norm_num) (deg_near _ _ (by norm_num) (by norm_num) (by norm_num)) (by norm_num) (by norm_num) (by norm_num) (by norm_num)

theorem deg_27_4 : |sin (27.4 * (π / 180)) - 0.4601997847838516| ≤ 5e-13 ∧ |cos (27.4 * (π / 180)) - 0.8878153851364013| ≤ 5e-13 :=
  trig_near12 (a0 := 0.47822021504644630) (by norm_num) (deg_near _ _ (by norm_num) (by norm_num) (by norm_num)) (by norm_num) (by norm_num) (by norm_num) (by norm_num)

theorem deg_12_25 : |sin (12.25 * (π / 180)) - 0.2121776721564463| ≤ 5e-13 ∧ |cos (12.25 * (π / 180)) - 0.9772311064626789| ≤ 5e-13 :=
  trig_near12 (a0 := 0.21380283336930537) (by norm_num) (deg_near _ _ (by norm_num) (by norm_num) (by norm_num)) (by norm_num) (by norm_num) (by norm_num) (by norm_num)

theorem deg_47_37 : |sin (47.37 * (π / 180)) - 0.7357425748043749| ≤ 5e-13 ∧ |cos (47.37 * (π / 180)) - 0.6772612964138943| ≤ 5e-13 :=
  trig_near12 (a0 := 0.82676246666971392) (by norm_num) (deg_near _ _ (by norm_num) (by norm_num) (by norm_num)) (by norm_num) (by norm_num) (by norm_num) (by norm_num)

theorem deg_6_32 : |sin (6.32 * (π / 180)) - 0.1100812622247821| ≤ 5e-13 ∧ |cos (6.32 * (π / 180)) - 0.9939225903997749| ≤ 5e-13 :=
  trig_near12 (a0 := 0.11030480872604163) (by norm_num) (deg_near _ _ (by norm_num) (by norm_num) (by norm_num)) (by norm_num) (by norm_num) (by norm_num) (by norm_num)

end Pal
