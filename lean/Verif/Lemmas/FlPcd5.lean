import Verif.Lemmas.FlPcd4
import Verif.Lemmas.FlAngle

/-! # Radial distortion in double precision: assembly, stability of the inverse, small radii -/

namespace Pal
open Real

/-- The distortion is expanding (pincushion) or nearly so (barrel, small radii). -/
theorem pcd_expand {D a b c d k : ℝ} (h : k ≤ 1 + 3 / 2 * min D 0 * ((a * a + b * b) + (c * c + d * d))) :
    k * √((a - c) * (a - c) + (b - d) * (b - d)) ≤
      √(((palPcd D a b).1 - (palPcd D c d).1) * ((palPcd D a b).1 - (palPcd D c d).1) + ((palPcd D a b).2 - (palPcd D c d).2) * ((palPcd D a b).2 - (palPcd D c d).2)) := by
  unfold palPcd
  dsimp only
  set u := a * (1 + D * (a * a + b * b)) - c * (1 + D * (c * c + d * d)) with hu
  set v := b * (1 + D * (a * a + b * b)) - d * (1 + D * (c * c + d * d)) with hv
  set n := (a - c) * (a - c) + (b - d) * (b - d) with hn
  have n0 : 0 ≤ n := add_nonneg (mul_self_nonneg _) (mul_self_nonneg _)
  have key : k * n ≤ u * (a - c) + v * (b - d) := by
    have e1 : u * (a - c) + v * (b - d) = n + D * (((a * a + b * b) + (c * c + d * d)) / 2 * n + ((a * a + b * b) - (c * c + d * d)) ^ 2 / 2) := by
      rw [hu, hv, hn]; ring
    have S0 : 0 ≤ (a * a + b * b) + (c * c + d * d) := by linarith [mul_self_nonneg a, mul_self_nonneg b, mul_self_nonneg c, mul_self_nonneg d]
    have e2 : ((a * a + b * b) + (c * c + d * d)) / 2 * n + ((a * a + b * b) - (c * c + d * d)) ^ 2 / 2 ≤ 3 / 2 * ((a * a + b * b) + (c * c + d * d)) * n := by
      have : ((a * a + b * b) - (c * c + d * d)) ^ 2 ≤ 2 * ((a * a + b * b) + (c * c + d * d)) * n := by
        have i : 2 * ((a * a + b * b) + (c * c + d * d)) * n - ((a * a + b * b) - (c * c + d * d)) ^ 2 = n ^ 2 + ((a + c) * (b - d) - (a - c) * (b + d)) ^ 2 := by
          rw [hn]; ring
        have := sq_nonneg n
        have := sq_nonneg ((a + c) * (b - d) - (a - c) * (b + d))
        linarith
      linarith
    have e3 : 0 ≤ ((a * a + b * b) + (c * c + d * d)) / 2 * n + ((a * a + b * b) - (c * c + d * d)) ^ 2 / 2 := by positivity
    have h' := mul_le_mul_of_nonneg_right h n0
    rw [e1]
    rcases le_total 0 D with hD | hD
    · rw [min_eq_right hD] at h'
      have := mul_nonneg hD e3
      linarith
    · rw [min_eq_left hD] at h'
      have := mul_le_mul_of_nonpos_left e2 hD
      linarith
  have cs : u * (a - c) + v * (b - d) ≤ √(u * u + v * v) * √n := by
    rw [← sqrt_mul (by linarith [mul_self_nonneg u, mul_self_nonneg v])]
    refine le_sqrt_of_sq_le ?_
    have : (u * u + v * v) * n - (u * (a - c) + v * (b - d)) ^ 2 = (u * (b - d) - v * (a - c)) ^ 2 := by rw [hn]; ring
    linarith [sq_nonneg (u * (b - d) - v * (a - c))]
  rcases eq_or_lt_of_le (sqrt_nonneg n) with hz | hp
  · rw [← hz, mul_zero]; exact sqrt_nonneg _
  · have : k * √n * √n ≤ √(u * u + v * v) * √n := by rw [mul_assoc, mul_self_sqrt n0]; exact key.trans cs
    exact le_of_mul_le_mul_right this hp

variable {fl : ℝ → ℝ} (R : Rounding fl)
include R

theorem Rounding.idem' {x : ℝ} (h : |x| ≤ 10 ^ 20) : fl (fl x) = fl x := by
  obtain ⟨m, e, hm, he, hx⟩ := R.rep x (big_le (h.trans (by norm_num)))
  have r := R.err (h.trans (by norm_num))
  have hb : |fl x| ≤ 10 ^ 30 := by
    have := abs_add_le (fl x - x) x
    rw [sub_add_cancel] at this
    norm_num at *; linarith
  have hb2 := big_le hb
  rw [hx] at hb2 ⊢
  refine R.keep m e hm he ?_
  rwa [abs_mul, abs_of_pos (show (0 : ℝ) < 2 ^ e by positivity)] at hb2

/-- A small addend is lost. -/
theorem absorb {d t : ℝ} (hd : fl d = d) (h1 : 1 / 8 < d) (h2 : d < 1 / 4) (ht : |t| ≤ 1 / 2 ^ 60) : fl (d + t) = d := by
  obtain ⟨m, e, hm, -, hx⟩ := R.rep d (big_le (by rw [abs_of_pos (by linarith)]; linarith))
  rw [hd] at hx
  have e55 : -55 ≤ e := by
    by_contra hc
    have he : e ≤ -56 := by omega
    have p : (2 : ℝ) ^ e ≤ 2 ^ (-56 : ℤ) := zpow_le_zpow_right₀ (by norm_num) he
    have m1 : |(m : ℝ)| ≤ 2 ^ 53 := by exact_mod_cast hm
    have m2 : (m : ℝ) * 2 ^ e ≤ 2 ^ 53 * 2 ^ (-56 : ℤ) := mul_le_mul (le_of_abs_le m1) p (by positivity) (by norm_num)
    rw [← hx] at m2
    norm_num at m2
    linarith
  obtain ⟨n, hn⟩ := Int.eq_ofNat_of_zero_le (show 0 ≤ e + 55 by omega)
  have hd2 : d = ((m * 2 ^ n : ℤ) : ℝ) * 2 ^ (-55 : ℤ) := by
    rw [hx, show e = (n : ℤ) + -55 by omega, zpow_add₀ (by norm_num), zpow_natCast]
    push_cast; ring
  set k : ℤ := m * 2 ^ n
  have k1 : 2 ^ 52 < k := by
    have : ((2 ^ 52 : ℤ) : ℝ) < k := by
      rw [hd2] at h1; norm_num at h1 ⊢; linarith
    exact_mod_cast this
  have k2 : k ≤ 2 ^ 53 := by
    have : (k : ℝ) ≤ ((2 ^ 53 : ℤ) : ℝ) := by
      rw [hd2] at h2; norm_num at h2 ⊢; linarith
    exact_mod_cast this
  have a := abs_le.1 ht
  have := R.eq_best (d + t) k (-55) (abs_le.2 ⟨by norm_num at *; linarith, by norm_num at *; linarith⟩) k1 k2 (by norm_num) (by
    rw [← hd2, show d - (d + t) = -t by ring, abs_neg]
    refine lt_of_le_of_lt ht (by norm_num))
  rw [this, ← hd2]

set_option maxHeartbeats 2000000 in
theorem flPcd_near {D x y s : ℝ} (hx : |x| ≤ 10 ^ 4) (hy : |y| ≤ 10 ^ 4) (hl : 1 / 10 ^ 19 ≤ √(x * x + y * y)) (hs : |D| * (x * x + y * y) ≤ 1 / 2)
    (hse : |s| ≤ √(x * x + y * y)) :
    |fl (s * fl (1 + fl (D * fl (fl (x * x) + fl (y * y))))) - s * (1 + D * (x * x + y * y))| ≤ 8e-16 * √(x * x + y * y) := by
  have S0 : 0 ≤ x * x + y * y := add_nonneg (mul_self_nonneg _) (mul_self_nonneg _)
  have hl2 : (1 / 10 ^ 19) * (1 / 10 ^ 19) ≤ x * x + y * y := by
    rw [← mul_self_sqrt S0]
    exact mul_self_le_mul_self (by norm_num) hl
  have b1 : x * x ≤ 10 ^ 8 := by rw [← abs_mul_abs_self]; calc _ ≤ (10 : ℝ) ^ 4 * 10 ^ 4 := mul_le_mul hx hx (abs_nonneg _) (by norm_num)
                                                          _ = _ := by norm_num
  have b2 : y * y ≤ 10 ^ 8 := by rw [← abs_mul_abs_self]; calc _ ≤ (10 : ℝ) ^ 4 * 10 ^ 4 := mul_le_mul hy hy (abs_nonneg _) (by norm_num)
                                                          _ = _ := by norm_num
  have b10 := mul_self_nonneg x
  have b20 := mul_self_nonneg y
  have e1 := R.err (x := x * x) (by rw [abs_of_nonneg b10]; linarith)
  have e2 := R.err (x := y * y) (by rw [abs_of_nonneg b20]; linarith)
  rw [abs_of_nonneg b10] at e1
  rw [abs_of_nonneg b20] at e2
  have e1' := abs_le.1 e1
  have e2' := abs_le.1 e2
  generalize fl (x * x) = u at *
  generalize fl (y * y) = v at *
  generalize x * x = X at *
  generalize y * y = Y at *
  have e3 := R.err (x := u + v) (abs_le.2 ⟨by norm_num at *; linarith, by norm_num at *; linarith⟩)
  have uv : |u + v| ≤ 1.001 * (X + Y) := abs_le.2 ⟨by norm_num at *; linarith, by norm_num at *; linarith⟩
  have f1 : |fl (u + v) - (X + Y)| ≤ 2.3e-16 * (X + Y) := by
    have t := abs_add_le (fl (u + v) - (u + v)) (u + v - (X + Y))
    rw [sub_add_sub_cancel] at t
    have t2 : |u + v - (X + Y)| ≤ 1.1104e-16 * (X + Y) := abs_le.2 ⟨by norm_num at *; linarith, by norm_num at *; linarith⟩
    norm_num at *; linarith
  generalize fl (u + v) = w at *
  have Su : X + Y ≤ 2 * 10 ^ 8 := by linarith
  generalize X + Y = S at *
  clear e1' e2' e1 e2 e3 uv
  have D0 := abs_nonneg D
  have g1 : |D * w - D * S| ≤ 1.15e-16 := by
    rw [← mul_sub, abs_mul]
    have := mul_le_mul_of_nonneg_left f1 D0
    norm_num at *; linarith
  have g0 : |D * S| ≤ 1 / 2 := by rw [abs_mul, abs_of_nonneg S0]; exact hs
  have g0' := abs_le.1 g0
  have g1' := abs_le.1 g1
  generalize D * w = dw at *
  generalize D * S = ds at *
  have g2 : |dw| ≤ 0.501 := abs_le.2 ⟨by norm_num at *; linarith, by norm_num at *; linarith⟩
  have g3 := R.err (x := dw) (by norm_num at *; linarith)
  have g4 : |fl dw - ds| ≤ 1.75e-16 := by
    have t := abs_add_le (fl dw - dw) (dw - ds)
    rw [sub_add_sub_cancel] at t
    norm_num at *; linarith
  have g4' := abs_le.1 g4
  have g5 : |1 + fl dw| ≤ 1.501 := abs_le.2 ⟨by norm_num at *; linarith, by norm_num at *; linarith⟩
  have g6 := R.err (x := 1 + fl dw) (by norm_num at *; linarith)
  have g7 : |fl (1 + fl dw) - (1 + ds)| ≤ 3.45e-16 := by
    have t := abs_add_le (fl (1 + fl dw) - (1 + fl dw)) (1 + fl dw - (1 + ds))
    rw [sub_add_sub_cancel, add_sub_add_left_eq_sub] at t
    norm_num at *; linarith
  have g7' := abs_le.1 g7
  generalize fl (1 + fl dw) = f at *
  have g8 : |f| ≤ 1.51 := abs_le.2 ⟨by norm_num at *; linarith, by norm_num at *; linarith⟩
  have sq : √S ≤ 10 ^ 5 := by
    rw [sqrt_le_left (by norm_num)]
    norm_num at *; linarith
  have g9 : |s * f| ≤ √S * 1.51 := by rw [abs_mul]; exact mul_le_mul hse g8 (abs_nonneg _) (sqrt_nonneg _)
  have g10 := R.err (x := s * f) (by norm_num at *; linarith)
  have g11 : |s * f - s * (1 + ds)| ≤ √S * 3.45e-16 := by
    rw [← mul_sub, abs_mul]
    exact mul_le_mul hse g7 (abs_nonneg _) (sqrt_nonneg _)
  have t := abs_add_le (fl (s * f) - s * f) (s * f - s * (1 + ds))
  rw [sub_add_sub_cancel] at t
  norm_num at *; linarith

end Pal
