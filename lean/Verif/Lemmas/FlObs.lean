import Verif.Model.FlObs
import Verif.Lemmas.FlRefr

/-! # The position of the observatory in double precision: errors -/

namespace Pal
open Real Pal.Spec

set_option maxHeartbeats 1000000 in
/-- The quantities of the ellipsoid. -/
theorem flEllipsoid {fl : ℝ → ℝ} (R : Rounding fl) {L : Libm} (hL : LibmOK L) (phi : ℝ) :
    let w := fl (fl (1 - fl (1 / fl 298.257223563)) * fl (1 - fl (1 / fl 298.257223563)))
    let W : ℝ := (1 - 1 / 298.257223563) * (1 - 1 / 298.257223563)
    let d := fl (fl (L.cos phi * L.cos phi) + fl (fl (w * L.sin phi) * L.sin phi))
    let D := cos phi * cos phi + W * sin phi * sin phi
    |w - W| ≤ 3.5e-16 ∧ |W| ≤ 0.9934 ∧ |fl (6378137 / fl (√d)) - 6378137 / √D| ≤ 8.4e-9 ∧ |6378137 / √D| ≤ 6399800 := by
  intro w W d D
  have c0 := R.cst 298.257223563 (M := 298.3) (by norm_num) (by norm_num) (by norm_num)
  have nf0 : Near 1.2e-16 (fl 298.257223563) 298.257223563 := ⟨by norm_num, by norm_num, by norm_num, c0.trans (by norm_num)⟩
  have f1 := R.divN 1e-18 (noerr 1) nf0 (by norm_num : (0 : ℝ) < 298) (by norm_num) (by norm_num : |(1 / 298.257223563 : ℝ)| ≤ 0.00336) (by norm_num) (by norm_num)
  have g := R.add_err2 (x := 1 - fl (1 / fl 298.257223563)) (X := 1 - 1 / 298.257223563) (δ := 1e-18) (B := 0.99665) 1.12e-16 (by
    rw [show 1 - fl (1 / fl 298.257223563) - (1 - 1 / 298.257223563) = -(fl (1 / fl 298.257223563) - 1 / 298.257223563) by ring, abs_neg]; exact f1) (by norm_num) (by norm_num) (by norm_num)
  have hw : |w - W| ≤ 3.5e-16 := R.mulB 3.5e-16 g g (by norm_num : |(1 - 1 / 298.257223563 : ℝ)| ≤ 0.99665) (by norm_num : |(1 - 1 / 298.257223563 : ℝ)| ≤ 0.99665) (by norm_num) (by norm_num)
  have hW : |W| ≤ 0.9934 := by show |(1 - 1 / 298.257223563) * (1 - 1 / 298.257223563)| ≤ (0.9934 : ℝ); norm_num
  have W0 : 0.9933 ≤ W := by show (0.9933 : ℝ) ≤ (1 - 1 / 298.257223563) * (1 - 1 / 298.257223563); norm_num
  clear_value w W
  have hs := hL.sin phi
  have hc := hL.cos phi
  have s1 := abs_sin_le_one phi
  have k1 := abs_cos_le_one phi
  have sc := sin_sq_add_cos_sq phi
  have D0 : 0.9933 ≤ D := by
    show 0.9933 ≤ cos phi * cos phi + W * sin phi * sin phi
    have := mul_le_mul_of_nonneg_right W0 (sq_nonneg (sin phi))
    have := sq_nonneg (cos phi)
    clear s1 k1 hs hc
    generalize sin phi = s at *
    generalize cos phi = c at *
    norm_num at *; linarith
  have D1 : D ≤ 1 := by
    show cos phi * cos phi + W * sin phi * sin phi ≤ 1
    have := mul_le_mul_of_nonneg_right (abs_le.1 hW).2 (sq_nonneg (sin phi))
    have := sq_nonneg (sin phi)
    clear s1 k1 hs hc
    generalize sin phi = s at *
    generalize cos phi = c at *
    norm_num at *; linarith
  have a1 := R.mulB 5.8e-16 hc hc k1 k1 (by norm_num) (by norm_num)
  have a2 := R.mulB 7e-16 hw hs hW s1 (by norm_num) (by norm_num)
  have a3 := R.mulB 1.06e-15 a2 hs (mul_bd hW s1) s1 (by norm_num) (by norm_num)
  have a4 : |d - D| ≤ 1.78e-15 := R.add_err2 (δ := 1.65e-15) (B := 1) 1.78e-15 (by
    show |fl (L.cos phi * L.cos phi) + fl (fl (w * L.sin phi) * L.sin phi) - (cos phi * cos phi + W * sin phi * sin phi)| ≤ _
    rw [show fl (L.cos phi * L.cos phi) + fl (fl (w * L.sin phi) * L.sin phi) - (cos phi * cos phi + W * sin phi * sin phi) =
      (fl (L.cos phi * L.cos phi) - cos phi * cos phi) + (fl (fl (w * L.sin phi) * L.sin phi) - W * sin phi * sin phi) by ring]
    exact (abs_add_le _ _).trans (by norm_num at *; linarith)) (by rw [abs_of_nonneg (by norm_num at *; linarith)]; exact D1) (by norm_num) (by norm_num)
  clear_value d D
  have nd : Near 1.8e-15 d D := ⟨by norm_num at *; linarith, by norm_num, by norm_num, by norm_num at *; linarith⟩
  -- half the relative error for the root
  have rt : |√d - √D| ≤ 0.91e-15 := by
    have e : √d - √D = (d - D) / (√d + √D) := by
      have h1 := Real.mul_self_sqrt nd.pos.le
      have h2 := Real.mul_self_sqrt nd.xpos.le
      have h3 := Real.sqrt_pos.2 nd.pos
      have h4 := Real.sqrt_nonneg d
      rw [eq_div_iff (by linarith)]; nlinarith
    have l1 : 0.99 ≤ √D := Real.le_sqrt_of_sq_le (by norm_num at *; linarith)
    have l2 : 0.99 ≤ √d := Real.le_sqrt_of_sq_le (by have := (abs_le.1 a4).1; norm_num at *; linarith)
    rw [e, abs_div, abs_of_pos (by linarith : 0 < √d + √D), div_le_iff₀ (by linarith)]
    norm_num at *; linarith
  have r1 : √D ≤ 1 := Real.sqrt_le_one.2 D1
  have r0 : 0.99662 ≤ √D := Real.le_sqrt_of_sq_le (by norm_num at *; linarith)
  have rr := R.add_err2 (B := 1) 1.03e-15 rt (by rw [abs_of_nonneg (Real.sqrt_nonneg _)]; exact r1) (by norm_num) (by norm_num)
  have nr : Near 1.04e-15 (fl (√d)) (√D) := ⟨by norm_num at *; linarith, by norm_num, by norm_num, by norm_num at *; linarith⟩
  have Q : |6378137 / √D| ≤ 6399800 := by rw [abs_div, abs_of_pos nr.pos, div_le_iff₀ nr.pos]; norm_num at *; linarith
  have q := R.divN 8.4e-9 (noerr 6378137) nr (by norm_num : (0 : ℝ) < 0.99662) r0 Q (by norm_num) (by norm_num)
  exact ⟨hw, hW, q, Q⟩

set_option maxHeartbeats 1000000 in
/-- Geocentric coordinates on the meridian of Greenwich, in metres. -/
theorem flGd2gc_err {fl : ℝ → ℝ} (R : Rounding fl) {L : Libm} (hL : LibmOK L) (p : ℝ) {h : ℝ} (hh : |h| ≤ 1e7) :
    |flGd2gc fl L 0 p h 0 - gd2gcWGS84 0 p h 0| ≤ 2.2e-8 ∧ |gd2gcWGS84 0 p h 0| ≤ 1.64e7 ∧ |flGd2gc fl L 0 p h 2 - gd2gcWGS84 0 p h 2| ≤ 2e-8 ∧ |gd2gcWGS84 0 p h 2| ≤ 1.64e7 := by
  obtain ⟨e1, e2, e3, e4⟩ := flEllipsoid R hL p
  have x0 : gd2gcWGS84 0 p h 0 = (6378137 / √(cos p * cos p + (1 - 1 / 298.257223563) * (1 - 1 / 298.257223563) * sin p * sin p) + h) * cos p * cos 0 := rfl
  have x2 : gd2gcWGS84 0 p h 2 = ((1 - 1 / 298.257223563) * (1 - 1 / 298.257223563) * (6378137 / √(cos p * cos p + (1 - 1 / 298.257223563) * (1 - 1 / 298.257223563) * sin p * sin p)) + h) * sin p := rfl
  rw [x0, x2]
  unfold flGd2gc
  dsimp only [Matrix.cons_val_zero, Matrix.cons_val]
  generalize fl (fl (1 - fl (1 / fl 298.257223563)) * fl (1 - fl (1 / fl 298.257223563))) = w at *
  generalize (1 - 1 / 298.257223563 : ℝ) * (1 - 1 / 298.257223563) = W at *
  generalize fl (6378137 / fl (√(fl (fl (L.cos p * L.cos p) + fl (fl (w * L.sin p) * L.sin p))))) = ac at *
  generalize 6378137 / √(cos p * cos p + W * sin p * sin p) = AC at *
  have s := hL.sin p
  have c := hL.cos p
  have c0 := hL.cos 0
  have s1 := abs_sin_le_one p
  have c1 := abs_cos_le_one p
  have k1 := abs_cos_le_one 0
  obtain ⟨a1, a2⟩ := R.addB 1.03e-8 e3 (noerr h) e4 hh (by norm_num) (by norm_num)
  have a3 := R.mulB 1.6e-8 a1 c a2 c1 (by norm_num) (by norm_num)
  have a3' := mul_bd a2 c1
  have a4 := R.mulB 2.2e-8 a3 c0 a3' k1 (by norm_num) (by norm_num)
  have b1 := R.mulB 1.15e-8 e1 e3 e2 e4 (by norm_num) (by norm_num)
  obtain ⟨b2, b3⟩ := R.addB 1.34e-8 b1 (noerr h) (mul_bd e2 e4) hh (by norm_num) (by norm_num)
  have b4 := R.mulB 2e-8 b2 s b3 s1 (by norm_num) (by norm_num)
  exact ⟨a4, (mul_bd a3' k1).trans (by norm_num), b4, (mul_bd b3 s1).trans (by norm_num)⟩

end Pal
