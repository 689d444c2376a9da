import Verif.Lemmas.FlPcd2
import Verif.Lemmas.FlAngle

/-! # Accuracy of palUnpcd in double precision: barrel distortion -/

namespace Pal
open Real

variable {fl : ℝ → ℝ} (R : Rounding fl) {L : Libm} (hL : LibmOK L)
include R

/-- The chain of the geometrical method up to the cosine of the auxiliary angle. -/
theorem barrel_wc {D rp rph : ℝ} (h1 : 1 / 10 ^ 8 ≤ D) (h2 : D ≤ 10 ^ 8) (hr : Near 6e-16 rph rp) (hl : 1 / 10 ^ 19 ≤ rp) (hu : rp ≤ 10 ^ 4) :
    Near 3.37e-16 (fl (2 / fl (√(fl (-3 * -D))))) (2 / √(3 * D)) ∧
    (∃ c', fl (fl (4 * rph) / fl (fl (fl (-D * fl (2 / fl (√(fl (-3 * -D))))) * fl (2 / fl (√(fl (-3 * -D))))) * fl (2 / fl (√(fl (-3 * -D)))))) = -c' ∧
      Near 2.2e-15 c' (4 * rp / (D * (2 / √(3 * D)) * (2 / √(3 * D)) * (2 / √(3 * D))))) ∧
    1 / 10 ^ 4 ≤ 2 / √(3 * D) ∧ 2 / √(3 * D) ≤ 2 * 10 ^ 4 := by
  have D0 : 0 < D := lt_of_lt_of_le (by norm_num) h1
  have n3 := (Near.refl (show 0 < 3 * D by linarith)).fl R 1.12e-16 (by norm_num at *; linarith) (by norm_num at *; linarith) (by norm_num) (by norm_num)
  have s1 : 1 / 10 ^ 4 ≤ √(3 * D) := le_sqrt_of_sq_le (by norm_num at *; linarith)
  have s2 : √(3 * D) ≤ 2 * 10 ^ 4 := by rw [sqrt_le_left (by norm_num)]; norm_num at *; linarith
  have ns := n3.sqrt.fl R 2.24e-16 (le_trans (by norm_num) s1) (s2.trans (by norm_num)) (by norm_num) (by norm_num)
  have sp := ns.pos
  have w1 : 1 / 10 ^ 4 ≤ 2 / √(3 * D) := by rw [div_le_div_iff₀ (by norm_num) sp]; linarith
  have w2 : 2 / √(3 * D) ≤ 2 * 10 ^ 4 := by rw [div_le_iff₀ sp]; norm_num at *; linarith
  have nW := ((Near.refl (show (0 : ℝ) < 2 by norm_num)).div 2.25e-16 ns (by norm_num) (by norm_num)).fl R 3.37e-16 (le_trans (by norm_num) w1) (w2.trans (by norm_num)) (by norm_num) (by norm_num)
  have e3 : -3 * -D = 3 * D := by ring
  rw [e3]
  refine ⟨nW, ?_, w1, w2⟩
  have hDW : D * (2 / √(3 * D)) * (2 / √(3 * D)) = 4 / 3 := by
    have h := mul_self_sqrt (show 0 ≤ 3 * D by linarith)
    rw [mul_assoc, div_mul_div_comm, h]
    field_simp
    norm_num
  have p1 : 1 / 10 ^ 13 ≤ D * (2 / √(3 * D)) := by
    have : 1 / 10 ^ 8 * (1 / 10 ^ 4) ≤ D * (2 / √(3 * D)) := mul_le_mul h1 w1 (by norm_num) D0.le
    exact le_trans (by norm_num) this
  have p2 : D * (2 / √(3 * D)) ≤ 10 ^ 13 := by
    have : D * (2 / √(3 * D)) ≤ 10 ^ 8 * (2 * 10 ^ 4) := mul_le_mul h2 w2 nW.pos.le (by norm_num)
    exact this.trans (by norm_num)
  generalize fl (2 / fl (√(fl (3 * D)))) = Wh at *
  generalize 2 / √(3 * D) = W at *
  have a1 := ((Near.refl D0).mul 3.38e-16 nW (by norm_num) (by norm_num)).fl R 4.5e-16 (le_trans (by norm_num) p1) (p2.trans (by norm_num)) (by norm_num) (by norm_num)
  have a2 := (a1.mul 7.88e-16 nW (by norm_num) (by norm_num)).fl R 9e-16 (by rw [hDW]; norm_num) (by rw [hDW]; norm_num) (by norm_num) (by norm_num)
  have a3 := (a2.mul 1.238e-15 nW (by norm_num) (by norm_num)).fl R 1.36e-15 (by rw [hDW]; norm_num at *; linarith) (by rw [hDW]; norm_num at *; linarith) (by norm_num) (by norm_num)
  have a4 := ((Near.refl (show (0 : ℝ) < 4 by norm_num)).mul 6.01e-16 hr (by norm_num) (by norm_num)).fl R 7.2e-16 (by norm_num at *; linarith) (by norm_num at *; linarith) (by norm_num) (by norm_num)
  refine ⟨fl (fl (4 * rph) / fl (fl (fl (D * Wh) * Wh) * Wh)), ?_, ?_⟩
  · rw [neg_mul, R.odd, neg_mul, R.odd, neg_mul, R.odd, div_neg, R.odd]
  · refine (a4.div 2.085e-15 a3 (by norm_num) (by norm_num)).fl R 2.2e-15 ?_ ?_ (by norm_num) (by norm_num)
    · rw [hDW, div_le_div_iff₀ (by norm_num) (by positivity)]
      norm_num at *; linarith
    · rw [hDW, div_le_iff₀ (by positivity)]
      norm_num at *; linarith

include hL

/-- One of the three solutions. -/
theorem barrel_sol {W Wh z Z : ℝ} (nW : Near 3.37e-16 Wh W) (w1 : 1 / 10 ^ 4 ≤ W) (w2 : W ≤ 2 * 10 ^ 4) (hz : |z - Z| ≤ 4.7e-15) : |fl (Wh * L.cos z) - W * cos Z| ≤ 5.4e-15 * W := by
  have W0 := nW.pos
  have c1 := hL.cos z
  have c2 : |cos z - cos Z| ≤ |z - Z| := abs_cos_sub_cos_le z Z
  have c3 : |L.cos z - cos Z| ≤ 4.93e-15 := by
    have := abs_add_le (L.cos z - cos z) (cos z - cos Z)
    rw [sub_add_sub_cancel] at this
    norm_num at *
    linarith
  have c4 := abs_cos_le_one Z
  have e : Wh * L.cos z - W * cos Z = Wh * (L.cos z - cos Z) + (Wh - W) * cos Z := by ring
  have k1 : |Wh * L.cos z - W * cos Z| ≤ 5.28e-15 * W := by
    rw [e]
    refine (abs_add_le _ _).trans ?_
    rw [abs_mul, abs_mul, abs_of_pos nW.xpos]
    have b1 : Wh * |L.cos z - cos Z| ≤ (1.001 * W) * 4.93e-15 := mul_le_mul nW.hi' c3 (abs_nonneg _) (by positivity)
    have b2 : |Wh - W| * |cos Z| ≤ (3.37e-16 * W) * 1 := mul_le_mul nW.err c4 (abs_nonneg _) (by positivity)
    norm_num at *
    linarith
  have k2 : |Wh * L.cos z| ≤ 1.001 * W := by
    have := abs_add_le (Wh * L.cos z - W * cos Z) (W * cos Z)
    rw [sub_add_cancel, abs_mul W, abs_of_pos W0] at this
    have h : W * |cos Z| ≤ W * 1 := mul_le_mul_of_nonneg_left c4 W0.le
    norm_num at *
    linarith
  have k3 := R.err (x := Wh * L.cos z) (k2.trans (by norm_num at *; linarith))
  have := abs_add_le (fl (Wh * L.cos z) - Wh * L.cos z) (Wh * L.cos z - W * cos Z)
  rw [sub_add_sub_cancel] at this
  norm_num at *
  linarith

/-- The computed auxiliary angle. -/
theorem barrel_angle {c' C : ℝ} (nc : Near 2.2e-15 c' C) (hc0 : 1 / 10 ^ 30 ≤ C) (hc : C * C ≤ 0.4725) (T : ℝ) (hT0 : 0 ≤ T) (hT1 : T ≤ π) (hcT : cos T = -C) :
    |L.atan2 (fl (√(fl (1 - min (fl (-c' * -c')) 1)))) (-c') - T| ≤ 1.15e-14 := by
  have C0 := nc.pos
  have C1 : C ≤ 0.6875 := le_of_sq_le_sq' (by rw [sq]; norm_num at *; linarith) (by norm_num)
  have n2 := (nc.mul 4.41e-15 nc (by norm_num) (by norm_num)).fl R 4.53e-15 (by
    have : 1 / 10 ^ 30 * (1 / 10 ^ 30) ≤ C * C := mul_le_mul hc0 hc0 (by norm_num) C0.le
    exact le_trans (by norm_num) this) (by norm_num at *; linarith) (by norm_num) (by norm_num)
  have e : -c' * -c' = c' * c' := by ring
  rw [e, min_eq_left (by have := n2.hi'; norm_num at *; linarith)]
  have k : Near 4.1e-15 (1 - fl (c' * c')) (1 - C * C) := by
    refine ⟨by norm_num at *; linarith, by norm_num, by norm_num, ?_⟩
    rw [show 1 - fl (c' * c') - (1 - C * C) = -(fl (c' * c') - C * C) by ring, abs_neg]
    have := n2.err
    norm_num at *
    linarith
  have k2 := k.fl R 4.22e-15 (by norm_num at *; linarith) (by have := mul_self_nonneg C; norm_num at *; linarith) (by norm_num) (by norm_num)
  have s1 : sin T = √(1 - C * C) := by
    rw [← abs_of_nonneg (sin_nonneg_of_nonneg_of_le_pi hT0 hT1), ← sqrt_sq_eq_abs]
    congr 1
    have := sin_sq_add_cos_sq T
    rw [hcT] at this
    linarith
  have s2 : √(1 - C * C) ≤ 1 := by rw [sqrt_le_left zero_le_one]; linarith [mul_self_nonneg C]
  have s3 : 0.7 ≤ √(1 - C * C) := le_sqrt_of_sq_le (by norm_num at *; linarith)
  have k3 := k2.sqrt.fl R 4.34e-15 (le_trans (by norm_num) s3) (s2.trans (by norm_num)) (by norm_num) (by norm_num)
  have h := half_plane T (-c') _ 4.4e-15 hT0 hT1 k3.xpos.le (by
    rw [hcT, show -c' - -C = -(c' - C) by ring, abs_neg]
    have := nc.err
    norm_num at *
    linarith) (by
    rw [s1]
    refine k3.err.trans ((mul_le_mul_of_nonneg_left s2 (by norm_num)).trans (by norm_num))) (by norm_num)
  have h2 := hL.atan2 (fl (√(fl (1 - fl (c' * c'))))) (-c')
  have := abs_add_le (L.atan2 (fl (√(fl (1 - fl (c' * c'))))) (-c') - atan2 (fl (√(fl (1 - fl (c' * c'))))) (-c')) (atan2 (fl (√(fl (1 - fl (c' * c'))))) (-c') - T)
  rw [sub_add_sub_cancel] at this
  norm_num at *
  linarith

omit hL

theorem third_angle {u U : ℝ} (h : |u - U| ≤ 1.18e-14) (hU : |U| ≤ 9.5) : |fl (fl u / 3) - U / 3| ≤ 4.7e-15 := by
  have a : |u| ≤ 9.6 := by
    have := abs_add_le (u - U) U
    rw [sub_add_cancel] at this
    norm_num at *
    linarith
  have r := R.err (x := u) (a.trans (by norm_num))
  have k : |fl u - U| ≤ 1.29e-14 := by
    have := abs_add_le (fl u - u) (u - U)
    rw [sub_add_sub_cancel] at this
    norm_num at *
    linarith
  have k2 : |fl u / 3 - U / 3| ≤ 4.3e-15 := by
    rw [← sub_div, abs_div, abs_of_pos (show (0 : ℝ) < 3 by norm_num), div_le_iff₀ (by norm_num)]
    norm_num at *
    linarith
  have k3 : |fl u / 3| ≤ 3.2 := by
    have := abs_add_le (fl u / 3 - U / 3) (U / 3)
    rw [sub_add_cancel, abs_div U, abs_of_pos (show (0 : ℝ) < 3 by norm_num)] at this
    norm_num at *
    linarith
  have r2 := R.err (x := fl u / 3) (k3.trans (by norm_num))
  have := abs_add_le (fl (fl u / 3) - fl u / 3) (fl u / 3 - U / 3)
  rw [sub_add_sub_cancel] at this
  norm_num at *
  linarith

end Pal
