import Verif.Model.FlGmst
import Verif.Lemmas.FlPcd5
import Verif.Lemmas.FlSmall
import Verif.Props.FlAngle
import Verif.Props.Gmst

/-! # Rounding errors of sidereal time -/

namespace Pal
open Real Pal.Spec Pal.Props
variable {fl : ℝ → ℝ}

/-- The reduced angle, for an angle close to an exact one. -/
theorem flAnp_near (R : Rounding fl) {x X δ M : ℝ} (h : |fl x - X| ≤ δ) (hM : |X| ≤ M) (hM1 : M + δ ≤ 10 ^ 15) :
    0 ≤ flAnp fl (fl x) ∧ flAnp fl (fl x) ≤ flD2PI fl ∧ (|x| ≤ 10 ^ 20 → ∃ k : ℤ, |flAnp fl (fl x) - (X + k * (2 * π))| ≤ δ + 4e-17 * (M + δ + 7) + 7e-16) ∨ ¬ |x| ≤ 10 ^ 20 := by
  by_cases hx : |x| ≤ 10 ^ 20
  · left
    have b : |fl x| ≤ M + δ := by
      have := abs_sub_abs_le_abs_sub (fl x) X
      linarith
    obtain ⟨h1, h2, -, -, -, ⟨k, hk⟩, -⟩ := C99_dranrm R (fl x) (R.idem' hx) (big_le (b.trans (hM1.trans (by norm_num))))
    refine ⟨h1, h2, fun _ => ⟨-k, ?_⟩⟩
    change |flAnp fl (fl x) - _| ≤ _ at hk
    have e : flAnp fl (fl x) - (X + ((-k : ℤ) : ℝ) * (2 * π)) = (flAnp fl (fl x) - (fl x - k * (2 * π))) + (fl x - X) := by push_cast; ring
    rw [e]
    refine (abs_add_le _ _).trans ?_
    have := mul_le_mul_of_nonneg_left b (by norm_num : (0 : ℝ) ≤ 4e-17)
    linarith
  · right; exact hx

theorem fmod_one_lt (x : ℝ) : |fmod x 1| < 1 := (fmod_bounds x 1 one_pos).1

/-- The Earth rotation angle. -/
theorem flEra00_err (R : Rounding fl) (a b : ℝ) (h1 : |max a b - 2451545| ≤ 250000) (h2 : |a + b - 2451545| ≤ 250000) :
    0 ≤ flEra00 fl a b ∧ flEra00 fl a b ≤ flD2PI fl ∧ ∃ k : ℤ, |flEra00 fl a b - (eraEra00 a b + k * (2 * π))| ≤ 3.6e-12 := by
  obtain ⟨d1, hd1⟩ : ∃ d, d = if a < b then a else b := ⟨_, rfl⟩
  obtain ⟨d2, hd2⟩ : ∃ d, d = if a < b then b else a := ⟨_, rfl⟩
  have m2 : d2 = max a b := by rw [hd2, max_def]; split_ifs with u v v <;> linarith
  have s2 : d1 + d2 = a + b := by rw [hd1, hd2]; split_ifs <;> ring
  rw [← m2] at h1
  have h2' : |d1 + (d2 - 2451545)| ≤ 250000 := by rw [← add_sub_assoc, s2]; exact h2
  have t1 := R.add_err2 (δ := 0) (B := 250000) 2.8e-11 (noerr (d2 - 2451545)) h1 (by norm_num) (by norm_num)
  have t2 := R.add_err2 (δ := 2.8e-11) (B := 250000) 5.6e-11 (x := d1 + fl (d2 - 2451545)) (X := d1 + (d2 - 2451545)) (by rw [add_sub_add_left_eq_sub]; exact t1) h2' (by norm_num) (by norm_num)
  have g1 := fmod_one_lt d1
  have g2 := fmod_one_lt d2
  obtain ⟨f1, f2⟩ := R.addB 2.3e-16 (noerr (fmod d1 1)) (noerr (fmod d2 1)) g1.le g2.le (by norm_num) (by norm_num)
  have c1 := R.cst 0.7790572732640 (M := 0.78) (by norm_num) (by norm_num) (by norm_num)
  have c2 := R.cst 0.00273781191135448 (M := 0.00274) (by norm_num) (by norm_num) (by norm_num)
  obtain ⟨a1, a2⟩ := R.addB 7e-16 f1 c1 f2 (by norm_num : |(0.7790572732640 : ℝ)| ≤ 0.78) (by norm_num) (by norm_num)
  have b0 : |(0.00273781191135448 : ℝ)| ≤ 0.00274 := by norm_num
  have b1 := R.mulB 3.1e-13 c2 t2 b0 h2' (by norm_num) (by norm_num)
  obtain ⟨s1, s2'⟩ := R.addB 3.9e-13 a1 b1 a2 (mul_bd b0 h2') (by norm_num) (by norm_num)
  have hD := flD2PI_eq R
  have hpi := D2_pi
  have dd : |flD2PI fl - 2 * π| ≤ 2.5e-16 := by rw [hD, abs_sub_comm, abs_of_pos hpi.1]; exact hpi.2.le.trans (by norm_num)
  have p2 : |2 * π| ≤ 6.284 := by rw [abs_of_pos two_pi_pos]; have := pi_lt_d4; norm_num at *; linarith
  have P := R.mulB 3.2e-12 dd s1 p2 s2' (by norm_num) (by norm_num)
  have Q := mul_bd p2 s2'
  have eq : eraEra00 a b = eraAnp (2 * π * (fmod d1 1 + fmod d2 1 + 0.7790572732640 + 0.00273781191135448 * (d1 + (d2 - 2451545)))) := by
    rw [hd1, hd2]; rfl
  have eq2 : flEra00 fl a b = flAnp fl (fl (flD2PI fl * fl (fl (fl (fmod d1 1 + fmod d2 1) + fl 0.7790572732640) + fl (fl 0.00273781191135448 * fl (d1 + fl (d2 - 2451545)))))) := by
    rw [hd1, hd2]; rfl
  rw [eq, eq2]
  obtain ⟨l, hl⟩ := (eraAnp_spec (2 * π * (fmod d1 1 + fmod d2 1 + 0.7790572732640 + 0.00273781191135448 * (d1 + (d2 - 2451545))))).2
  have sz : |flD2PI fl * fl (fl (fl (fmod d1 1 + fmod d2 1) + fl 0.7790572732640) + fl (fl 0.00273781191135448 * fl (d1 + fl (d2 - 2451545))))| ≤ 10 ^ 20 := by
    have u1 : |flD2PI fl| ≤ 7 := by
      have := abs_sub_abs_le_abs_sub (flD2PI fl) (2 * π)
      norm_num at *; linarith
    have u2 := abs_sub_abs_le_abs_sub (fl (fl (fl (fmod d1 1 + fmod d2 1) + fl 0.7790572732640) + fl (fl 0.00273781191135448 * fl (d1 + fl (d2 - 2451545))))) (fmod d1 1 + fmod d2 1 + 0.7790572732640 + 0.00273781191135448 * (d1 + (d2 - 2451545)))
    refine (mul_bd u1 (MB := 1000) ?_).trans (by norm_num)
    linarith
  generalize 2 * π * (fmod d1 1 + fmod d2 1 + 0.7790572732640 + 0.00273781191135448 * (d1 + (d2 - 2451545))) = X at *
  generalize flD2PI fl * fl (fl (fl (fmod d1 1 + fmod d2 1) + fl 0.7790572732640) + fl (fl 0.00273781191135448 * fl (d1 + fl (d2 - 2451545)))) = x at *
  rcases flAnp_near R P Q (by norm_num) with ⟨r1, r2, r3⟩ | r
  · obtain ⟨k, hk⟩ := r3 sz
    refine ⟨r1, r2, k - l, ?_⟩
    rw [hl, show X + (l : ℝ) * (2 * π) + ((k - l : ℤ) : ℝ) * (2 * π) = X + k * (2 * π) by push_cast; ring]
    exact hk.trans (by norm_num)
  · exact absurd sz r

/-- The precession polynomial. -/
theorem flGmstPoly_err (R : Rounding fl) {t T : ℝ} (h : |t - T| ≤ 2.5e-15) (hT : |T| ≤ 6.85) :
    |flGmstPoly fl t - (0.014506 + (4612.156534 + (1.3915817 + (-0.00000044 + (-0.000029956 + (-0.0000000368) * T) * T) * T) * T) * T)| ≤ 5e-11 ∧
    |0.014506 + (4612.156534 + (1.3915817 + (-0.00000044 + (-0.000029956 + (-0.0000000368) * T) * T) * T) * T) * T| ≤ 32000 := by
  have c5 := R.cst (-0.0000000368) (M := 3.7e-8) (by norm_num) (by norm_num) (by norm_num)
  have c4 := R.cst (-0.000029956) (M := 3e-5) (by norm_num) (by norm_num) (by norm_num)
  have c3 := R.cst (-0.00000044) (M := 4.4e-7) (by norm_num) (by norm_num) (by norm_num)
  have c2 := R.cst 1.3915817 (M := 1.4) (by norm_num) (by norm_num) (by norm_num)
  have c1 := R.cst 4612.156534 (M := 4612.2) (by norm_num) (by norm_num) (by norm_num)
  have c0 := R.cst 0.014506 (M := 0.015) (by norm_num) (by norm_num) (by norm_num)
  have k5 : |(-0.0000000368 : ℝ)| ≤ 3.7e-8 := by norm_num
  have k4 : |(-0.000029956 : ℝ)| ≤ 3e-5 := by norm_num
  have k3 : |(-0.00000044 : ℝ)| ≤ 4.4e-7 := by norm_num
  have k2 : |(1.3915817 : ℝ)| ≤ 1.4 := by norm_num
  have k1 : |(4612.156534 : ℝ)| ≤ 4612.2 := by norm_num
  have k0 : |(0.014506 : ℝ)| ≤ 0.015 := by norm_num
  have m5 := R.mulB 1e-20 c5 h k5 hT (by norm_num) (by norm_num)
  obtain ⟨s4, b4⟩ := R.addB 1e-19 c4 m5 k4 (mul_bd k5 hT) (by norm_num) (by norm_num)
  have m4 := R.mulB 1e-18 s4 h b4 hT (by norm_num) (by norm_num)
  obtain ⟨s3, b3⟩ := R.addB 2e-18 c3 m4 k3 (mul_bd b4 hT) (by norm_num) (by norm_num)
  have m3 := R.mulB 1e-16 s3 h b3 hT (by norm_num) (by norm_num)
  obtain ⟨s2, b2⟩ := R.addB 6e-16 c2 m3 k2 (mul_bd b3 hT) (by norm_num) (by norm_num)
  have m2 := R.mulB 1e-14 s2 h b2 hT (by norm_num) (by norm_num)
  obtain ⟨s1, b1⟩ := R.addB 1.1e-12 c1 m2 k1 (mul_bd b2 hT) (by norm_num) (by norm_num)
  have m1 := R.mulB 3e-11 s1 h b1 hT (by norm_num) (by norm_num)
  obtain ⟨s0, b0⟩ := R.addB 5e-11 c0 m1 k0 (mul_bd b1 hT) (by norm_num) (by norm_num)
  exact ⟨s0, b0.trans (by norm_num)⟩

theorem flDAS2R_err (R : Rounding fl) : |flDAS2R fl - das2r| ≤ 1e-21 := by
  have h := R.cst 4.848136811095359935899141e-6 (M := 4.85e-6) (by norm_num) (by norm_num) (by norm_num)
  have b := das2r_bounds.2.2
  unfold flDAS2R
  rw [abs_le] at *
  constructor <;> norm_num at * <;> linarith

/-- Sidereal time from any two-part date. -/
theorem flGmst06_err (R : Rounding fl) (a b : ℝ) (h1 : |max a b - 2451545| ≤ 250000) (h2 : |a + b - 2451545| ≤ 250000) (h3 : |a - 2451545| ≤ 250000) :
    0 ≤ flGmst06 fl a b a b ∧ flGmst06 fl a b a b ≤ flD2PI fl ∧ ∃ k : ℤ, |flGmst06 fl a b a b - (gmstArcsec (a + b - 2451545) * Spec.arcsec + k * (2 * π))| ≤ 3.7e-12 := by
  obtain ⟨e0, e1, k, hk⟩ := flEra00_err R a b h1 h2
  have t1 := R.add_err2 (δ := 0) (B := 250000) 2.8e-11 (noerr (a - 2451545)) h3 (by norm_num) (by norm_num)
  have h2' : |a - 2451545 + b| ≤ 250000 := by rw [sub_add_eq_add_sub]; exact h2
  have t2 := R.add_err2 (δ := 2.8e-11) (B := 250000) 5.6e-11 (x := fl (a - 2451545) + b) (X := a - 2451545 + b) (by rw [add_sub_add_right_eq_sub]; exact t1) h2' (by norm_num) (by norm_num)
  have T1 : |(a - 2451545 + b) / 36525| ≤ 6.85 := by
    rw [abs_div, abs_of_pos (by norm_num : (0 : ℝ) < 36525), div_le_iff₀ (by norm_num)]; exact h2'.trans (by norm_num)
  have t4 : |fl (fl (a - 2451545) + b) / 36525 - (a - 2451545 + b) / 36525| ≤ 1.54e-15 := by
    rw [← sub_div, abs_div, abs_of_pos (by norm_num : (0 : ℝ) < 36525), div_le_iff₀ (by norm_num)]; exact t2.trans (by norm_num)
  have t5 := R.add_err2 (δ := 1.54e-15) (B := 6.85) 2.5e-15 t4 T1 (by norm_num) (by norm_num)
  obtain ⟨p1, p2⟩ := flGmstPoly_err R t5 T1
  have dr := flDAS2R_err R
  have db : |das2r| ≤ 4.85e-6 := by rw [abs_of_pos (by linarith [das2r_bounds.1])]; exact das2r_bounds.2.1
  have q1 := R.mulB 3e-16 p1 dr p2 db (by norm_num) (by norm_num)
  have q2 := mul_bd p2 db
  have hb := D2_b
  rw [flD2PI_eq R] at e1
  have E0 : |flEra00 fl a b| ≤ 6.29 := by rw [abs_of_nonneg e0]; linarith
  obtain ⟨r1, r2⟩ := R.addB 2e-15 (noerr (flEra00 fl a b)) q1 E0 q2 (by norm_num) (by norm_num)
  have sz : |flEra00 fl a b + fl (flGmstPoly fl (fl (fl (fl (a - 2451545) + b) / 36525)) * flDAS2R fl)| ≤ 10 ^ 20 := by
    have u2 := abs_sub_abs_le_abs_sub (fl (flGmstPoly fl (fl (fl (fl (a - 2451545) + b) / 36525)) * flDAS2R fl)) ((0.014506 + (4612.156534 + (1.3915817 + (-0.00000044 + (-0.000029956 + (-0.0000000368) * ((a - 2451545 + b) / 36525)) * ((a - 2451545 + b) / 36525)) *
      ((a - 2451545 + b) / 36525)) * ((a - 2451545 + b) / 36525)) * ((a - 2451545 + b) / 36525)) * das2r)
    refine (abs_add_le _ _).trans ?_
    linarith
  rcases flAnp_near R r1 r2 (by norm_num) with ⟨v1, v2, v3⟩ | v
  · obtain ⟨l, hl⟩ := v3 sz
    refine ⟨v1, v2, ?_⟩
    obtain ⟨k2, hk2⟩ := era00_spec a b
    refine ⟨l + k + k2, ?_⟩
    have ex : gmstArcsec (a + b - 2451545) * Spec.arcsec = 2 * π * (a + b - 2451545 + 0.5 + 0.2790572732640 + 0.00273781191135448 * (a + b - 2451545)) +
        (0.014506 + (4612.156534 + (1.3915817 + (-0.00000044 + (-0.000029956 + (-0.0000000368) * ((a - 2451545 + b) / 36525)) * ((a - 2451545 + b) / 36525)) *
      ((a - 2451545 + b) / 36525)) * ((a - 2451545 + b) / 36525)) * ((a - 2451545 + b) / 36525)) * das2r := by
      unfold gmstArcsec Spec.arcsec das2r; ring
    have fin : flGmst06 fl a b a b - (gmstArcsec (a + b - 2451545) * Spec.arcsec + ((l + k + k2 : ℤ) : ℝ) * (2 * π)) =
        (flGmst06 fl a b a b - (flEra00 fl a b + (0.014506 + (4612.156534 + (1.3915817 + (-0.00000044 + (-0.000029956 + (-0.0000000368) * ((a - 2451545 + b) / 36525)) * ((a - 2451545 + b) / 36525)) *
      ((a - 2451545 + b) / 36525)) * ((a - 2451545 + b) / 36525)) * ((a - 2451545 + b) / 36525)) * das2r + l * (2 * π))) + (flEra00 fl a b - (eraEra00 a b + k * (2 * π))) := by
      rw [ex, hk2]; push_cast; ring
    rw [fin]
    refine (abs_add_le _ _).trans ?_
    refine (add_le_add hl hk).trans (by norm_num)
  · exact absurd sz v

end Pal
