import Verif.Model.FlPcd
import Verif.Lemmas.FlRel
import Verif.Lemmas.FlSphere
import Verif.Lemmas.Cubic
import Mathlib.Analysis.Complex.ExponentialBounds

/-! # Helper lemmas for radial distortion in double precision -/

namespace Pal
open Real

theorem Near.cbrt {e x X : ℝ} (h : Near e x X) : Near e (x ^ (1 / 3 : ℝ)) (X ^ (1 / 3 : ℝ)) := by
  have Xp := h.pos
  have xp := h.xpos
  have e1 : (x ^ (1 / 3 : ℝ)) ^ 3 = x := by rw [← rpow_natCast, ← rpow_mul xp.le]; norm_num
  have e2 : (X ^ (1 / 3 : ℝ)) ^ 3 = X := by rw [← rpow_natCast, ← rpow_mul Xp.le]; norm_num
  have a0 : 0 < x ^ (1 / 3 : ℝ) := rpow_pos_of_pos xp _
  have b0 : 0 < X ^ (1 / 3 : ℝ) := rpow_pos_of_pos Xp _
  generalize x ^ (1 / 3 : ℝ) = a at *
  generalize X ^ (1 / 3 : ℝ) = b at *
  refine ⟨b0, h.e0, h.e1, ?_⟩
  have h1 := h.err
  rw [← e1, ← e2, show a ^ 3 - b ^ 3 = (a - b) * (a ^ 2 + a * b + b ^ 2) by ring, abs_mul, abs_of_pos (by positivity : 0 < a ^ 2 + a * b + b ^ 2)] at h1
  have h2 : |a - b| * b ^ 2 ≤ |a - b| * (a ^ 2 + a * b + b ^ 2) := mul_le_mul_of_nonneg_left (by nlinarith [mul_pos a0 b0, sq_nonneg a]) (abs_nonneg _)
  have h3 : |a - b| * b ^ 2 ≤ (e * b) * b ^ 2 := by linarith [show e * b ^ 3 = (e * b) * b ^ 2 by ring]
  exact le_of_mul_le_mul_right h3 (by positivity)

theorem log_range {x : ℝ} (h0 : 1 / 10 ^ 14 ≤ x) (h1 : x ≤ 10 ^ 14) : |log x| ≤ 33 := by
  have xp : 0 < x := lt_of_lt_of_le (by norm_num) h0
  have l2 := log_two_lt_d9
  have k : log ((10 : ℝ) ^ 14) ≤ 33 := by
    have : log ((10 : ℝ) ^ 14) ≤ log ((2 : ℝ) ^ 47) := log_le_log (by norm_num) (by norm_num)
    rw [Real.log_pow, Real.log_pow] at this
    rw [Real.log_pow]
    push_cast at this ⊢
    linarith
  have a := log_le_log xp h1
  have b := log_le_log (by norm_num) h0
  rw [one_div, log_inv] at b
  exact abs_le.2 ⟨by linarith, by linarith⟩

variable {fl : ℝ → ℝ} (R : Rounding fl) {pw : ℝ → ℝ → ℝ} (hp : PowOK pw)
include R

theorem third_pow {x : ℝ} (h0 : 1 / 10 ^ 14 ≤ x) (h1 : x ≤ 10 ^ 14) : Near 1.3e-15 (x ^ fl (1 / 3)) (x ^ (1 / 3 : ℝ)) := by
  have xp : 0 < x := lt_of_lt_of_le (by norm_num) h0
  have b0 : 0 < x ^ (1 / 3 : ℝ) := rpow_pos_of_pos xp _
  refine ⟨b0, by norm_num, by norm_num, ?_⟩
  have ht := R.rel (x := 1 / 3) (by norm_num [abs_of_pos]) (by norm_num [abs_of_pos])
  rw [abs_of_pos (show (0 : ℝ) < 1 / 3 by norm_num)] at ht
  have e : x ^ fl (1 / 3) = x ^ (1 / 3 : ℝ) * exp ((fl (1 / 3) - 1 / 3) * log x) := by
    rw [mul_comm _ (log x), ← rpow_def_of_pos xp, ← rpow_add xp]
    congr 1; ring
  set z := (fl (1 / 3) - 1 / 3) * log x with hz
  have zl : |z| ≤ 1.2216e-15 := by
    rw [hz, abs_mul]
    calc _ ≤ (1.1104e-16 * (1 / 3)) * 33 := mul_le_mul ht (log_range h0 h1) (abs_nonneg _) (by norm_num)
      _ ≤ _ := by norm_num
  have k := abs_exp_sub_one_sub_id_le (x := z) (zl.trans (by norm_num))
  have k2 : |exp z - 1| ≤ 1.3e-15 := by
    have : |exp z - 1| ≤ |exp z - 1 - z| + |z| := by
      have := abs_add_le (exp z - 1 - z) z
      rwa [sub_add_cancel] at this
    have z2 : z ^ 2 ≤ 1.2216e-15 ^ 2 := by rw [← sq_abs]; exact pow_le_pow_left₀ (abs_nonneg _) zl 2
    norm_num at *
    linarith
  rw [e, show x ^ (1 / 3 : ℝ) * exp z - x ^ (1 / 3 : ℝ) = x ^ (1 / 3 : ℝ) * (exp z - 1) by ring, abs_mul, abs_of_pos b0, mul_comm]
  exact mul_le_mul_of_nonneg_right k2 b0.le

include hp

/-- The cube root as computed. -/
theorem pow_near {e x X : ℝ} (e1 : ℝ) (h : Near e x X) (h0 : 3 / 10 ^ 14 ≤ X) (h1 : X ≤ 10 ^ 13) (he : 1.001 * e + 1.6e-15 ≤ e1) (he' : e1 ≤ 1 / 1000) :
    Near e1 (pw x (fl (1 / 3))) (X ^ (1 / 3 : ℝ)) := by
  have xp := h.xpos
  have q0 : (1 : ℝ) / 10 ^ 14 ≤ 0.999 * (3 / 10 ^ 14) := by norm_num
  have a := third_pow R (x := x) (q0.trans ((mul_le_mul_of_nonneg_left h0 (by norm_num)).trans h.lo')) (h.hi'.trans (by linarith))
  have b := h.cbrt
  have c := hp x (fl (1 / 3)) xp.le
  refine ⟨b.pos, by linarith [h.e0], he', ?_⟩
  have u1 := a.err
  have u2 := b.err
  have u3 := a.hi'
  have u4 := b.hi
  generalize x ^ fl (1 / 3) = A at *
  generalize x ^ (1 / 3 : ℝ) = B at *
  have Cp := b.pos
  generalize X ^ (1 / 3 : ℝ) = C at *
  generalize pw x (fl (1 / 3)) = P at *
  have t : |P - C| ≤ |P - A| + |A - B| + |B - C| := by
    have := abs_add_three (P - A) (A - B) (B - C)
    rwa [show P - A + (A - B) + (B - C) = P - C by ring] at this
  have v1 : (1 + e) * C ≤ 1.001 * C := mul_le_mul_of_nonneg_right (by linarith [h.e1]) Cp.le
  have v2 := mul_le_mul_of_nonneg_right he Cp.le
  have v3 := mul_nonneg h.e0 Cp.le
  norm_num at *
  linarith

omit hp

/-- From the radius to the coordinates. -/
theorem unpcd_coord {x rp rph f F E : ℝ} (hx : |x| ≤ rp) (hr : Near 6e-16 rph rp) (hrl : 1 / 10 ^ 19 ≤ rp) (hru : rp ≤ 10 ^ 10) (hF : 0 ≤ F) (hFr : F ≤ 2 * rp) (hE : |f - F| ≤ E) (hE0 : 1 / 10 ^ 100 ≤ E)
    (hE1 : E ≤ 10 ^ 3) : |fl (x * fl (f / rph)) - x * (F / rp)| ≤ 1.01 * E + 9e-16 * F := by
  have rp0 := hr.pos
  have r0 := hr.xpos
  have rl := hr.lo'
  have E0 : 0 ≤ E := le_trans (by norm_num) hE0
  have x1 : |x| / rph ≤ 1.0011 := by
    rw [div_le_iff₀ r0]; linarith
  -- f/rph
  have a1 : |f / rph - F / rp| * |x| ≤ 1.0011 * E + 6.1e-16 * F := by
    have e : f / rph - F / rp = (f - F) / rph + F / rp * ((rp - rph) / rph) := by field_simp; ring
    have b1 : |f - F| / rph * |x| ≤ 1.0011 * E := by
      rw [div_mul_eq_mul_div, mul_div_assoc, mul_comm (1.0011 : ℝ)]
      exact mul_le_mul hE x1 (div_nonneg (abs_nonneg _) r0.le) E0
    have b2 : |F / rp * ((rp - rph) / rph)| * |x| ≤ 6.1e-16 * F := by
      rw [abs_mul, abs_of_nonneg (div_nonneg hF rp0.le), abs_div, abs_of_pos r0, abs_sub_comm]
      have c1 : F / rp * |x| ≤ F := by
        rw [div_mul_eq_mul_div, div_le_iff₀ rp0]
        exact mul_le_mul_of_nonneg_left hx hF
      have c2 : |rph - rp| / rph ≤ 6.1e-16 := by
        rw [div_le_iff₀ r0]
        have := hr.err
        norm_num at *
        linarith
      calc F / rp * (|rph - rp| / rph) * |x| = (F / rp * |x|) * (|rph - rp| / rph) := by ring
        _ ≤ F * 6.1e-16 := mul_le_mul c1 c2 (div_nonneg (abs_nonneg _) r0.le) hF
        _ = _ := by ring
    rw [e]
    have := mul_le_mul_of_nonneg_right (abs_add_le ((f - F) / rph) (F / rp * ((rp - rph) / rph))) (abs_nonneg x)
    rw [abs_div, abs_of_pos r0] at this
    linarith
  have FB : F ≤ 2 * 10 ^ 10 := hFr.trans (by linarith)
  have fB : |f| ≤ 3 * 10 ^ 10 := by
    have := abs_add_le (f - F) F
    rw [sub_add_cancel, abs_of_nonneg hF] at this
    linarith
  have g : |f / rph| ≤ 10 ^ 30 := by
    rw [abs_div, abs_of_pos r0, div_le_iff₀ r0]
    have : (10 : ℝ) ^ 30 * (0.999 * (1 / 10 ^ 19)) ≤ 10 ^ 30 * rph := mul_le_mul_of_nonneg_left (by linarith) (by norm_num)
    refine fB.trans (le_trans (by norm_num) this)
  have g1 := R.err g
  have xB : |x| ≤ 10 ^ 10 := hx.trans hru
  have g2 : |fl (f / rph) - f / rph| * |x| ≤ (1.1103e-16 * |f / rph| + 1 / 10 ^ 200) * |x| := mul_le_mul_of_nonneg_right g1 (abs_nonneg _)
  have g3 : |f / rph| * |x| ≤ 1.0011 * (F + E) := by
    rw [abs_div, abs_of_pos r0, div_mul_eq_mul_div, mul_div_assoc, mul_comm (1.0011 : ℝ)]
    refine mul_le_mul ?_ x1 (div_nonneg (abs_nonneg _) r0.le) (by linarith)
    have := abs_add_le (f - F) F
    rw [sub_add_cancel, abs_of_nonneg hF] at this
    linarith
  have g4 : |fl (f / rph) - f / rph| * |x| ≤ 1.12e-16 * (F + E) + 1 / 10 ^ 190 := by
    refine g2.trans ?_
    have h2 : 1 / 10 ^ 200 * |x| ≤ 1 / 10 ^ 200 * 10 ^ 10 := mul_le_mul_of_nonneg_left xB (by norm_num)
    have h3 := mul_le_mul_of_nonneg_left g3 (show (0 : ℝ) ≤ 1.1103e-16 by norm_num)
    have h4 : (1.1103e-16 * |f / rph| + 1 / 10 ^ 200) * |x| = 1.1103e-16 * (|f / rph| * |x|) + 1 / 10 ^ 200 * |x| := by ring
    rw [h4]
    have h5 : 1 / 10 ^ 200 * 10 ^ 10 = (1 : ℝ) / 10 ^ 190 := by norm_num
    have h6 : 0 ≤ F + E := by linarith
    rw [h5] at h2
    linarith
  have k : |x * fl (f / rph) - x * (F / rp)| ≤ 1.0012 * E + 7.3e-16 * F + 1 / 10 ^ 190 := by
    rw [← mul_sub, abs_mul, mul_comm]
    have := mul_le_mul_of_nonneg_right (abs_add_le (fl (f / rph) - f / rph) (f / rph - F / rp)) (abs_nonneg x)
    rw [show fl (f / rph) - f / rph + (f / rph - F / rp) = fl (f / rph) - F / rp by ring] at this
    norm_num at *
    linarith
  have k2 : |x * (F / rp)| ≤ F := by
    rw [abs_mul, abs_of_nonneg (div_nonneg hF rp0.le), ← mul_div_assoc, div_le_iff₀ rp0, mul_comm]
    exact mul_le_mul_of_nonneg_left hx hF
  have k3 : |x * fl (f / rph)| ≤ 2 * F + 2 * E := by
    have := abs_add_le (x * fl (f / rph) - x * (F / rp)) (x * (F / rp))
    rw [sub_add_cancel] at this
    norm_num at *
    linarith
  have k4 := R.err (x := x * fl (f / rph)) (k3.trans (by norm_num at *; linarith))
  have k5 : |x * fl (f / rph)| ≤ 1.0013 * E + 1.0001 * F := by
    have := abs_add_le (x * fl (f / rph) - x * (F / rp)) (x * (F / rp))
    rw [sub_add_cancel] at this
    norm_num at *
    linarith
  have := abs_add_le (fl (x * fl (f / rph)) - x * fl (f / rph)) (x * fl (f / rph) - x * (F / rp))
  rw [sub_add_sub_cancel] at this
  norm_num at *
  linarith

/-- The distance from the origin as computed. -/
theorem rp_near {x y : ℝ} (hl : 1 / 10 ^ 19 ≤ √(x * x + y * y)) (hu : √(x * x + y * y) ≤ 10 ^ 10) :
    Near 6e-16 (fl (√(fl (fl (x * x) + fl (y * y))))) (√(x * x + y * y)) := by
  have S0 : 0 ≤ x * x + y * y := add_nonneg (mul_self_nonneg _) (mul_self_nonneg _)
  have hx : |x| ≤ 10 ^ 10 := (abs_le_sqrt (by nlinarith [mul_self_nonneg y])).trans hu
  have hy : |y| ≤ 10 ^ 10 := (abs_le_sqrt (by nlinarith [mul_self_nonneg x])).trans hu
  have b1 : x * x ≤ 10 ^ 20 := by rw [← abs_mul_abs_self]; calc _ ≤ (10 : ℝ) ^ 10 * 10 ^ 10 := mul_le_mul hx hx (abs_nonneg _) (by norm_num)
                                                          _ = _ := by norm_num
  have b2 : y * y ≤ 10 ^ 20 := by rw [← abs_mul_abs_self]; calc _ ≤ (10 : ℝ) ^ 10 * 10 ^ 10 := mul_le_mul hy hy (abs_nonneg _) (by norm_num)
                                                          _ = _ := by norm_num
  have a := fl_sumsq R x y (by linarith) (by linarith)
  have n1 : 0 ≤ fl (x * x) := R.nonneg (by rw [abs_of_nonneg (mul_self_nonneg _)]; linarith) (mul_self_nonneg _)
  have n2 : 0 ≤ fl (y * y) := R.nonneg (by rw [abs_of_nonneg (mul_self_nonneg _)]; linarith) (mul_self_nonneg _)
  have e1 := R.err (x := x * x) (by rw [abs_of_nonneg (mul_self_nonneg _)]; linarith)
  have e2 := R.err (x := y * y) (by rw [abs_of_nonneg (mul_self_nonneg _)]; linarith)
  rw [abs_of_nonneg (mul_self_nonneg x)] at e1
  rw [abs_of_nonneg (mul_self_nonneg y)] at e2
  have n3 : 0 ≤ fl (fl (x * x) + fl (y * y)) := by
    refine R.nonneg ?_ (by linarith)
    rw [abs_of_nonneg (by linarith)]
    have := (abs_le.1 e1).2
    have := (abs_le.1 e2).2
    norm_num at *
    linarith
  obtain ⟨-, h⟩ := fl_hyp R (x * x + y * y) _ S0 (by norm_num at *; linarith) (a.trans (by norm_num at *; linarith)) n3
  refine ⟨lt_of_lt_of_le (by norm_num) hl, by norm_num, by norm_num, h.trans ?_⟩
  have : (1 : ℝ) / 10 ^ 96 ≤ 1 / 10 ^ 60 * (1 / 10 ^ 19) := by norm_num
  have : (1 : ℝ) / 10 ^ 60 * (1 / 10 ^ 19) ≤ 1 / 10 ^ 60 * √(x * x + y * y) := mul_le_mul_of_nonneg_left hl (by norm_num)
  norm_num at *
  linarith

end Pal
