import Verif.Lemmas.FlGmst

/-!
# Greenwich mean sidereal time in double precision

`gmstArcsec d` (Spec/Gmst.lean) is sidereal time in arcseconds, `d` UT1 days after J2000, before reduction to one turn.
-/

namespace Pal.Props
open Real Pal Pal.Spec

/-- C129: palGmst in double precision, for every UT1 within 200000 days (547 years) of J2000: a number from 0 to the stored value of 2π, which is less than 2π, and congruent to sidereal time within
3.7e-12 radians (8e-7 arcseconds). -/
theorem C129_gmst {fl : ℝ → ℝ} (R : Rounding fl) (ut1 : ℝ) (h : |ut1 - 51544.5| ≤ 200000) :
    0 ≤ flGmst fl ut1 ∧ flGmst fl ut1 ≤ flD2PI fl ∧ flD2PI fl < 2 * π ∧ ∃ k : ℤ, |flGmst fl ut1 - (gmstArcsec (ut1 - 51544.5) * Spec.arcsec + k * (2 * π))| ≤ 3.7e-12 := by
  have hh := abs_le.1 h
  have m : max 2400000.5 ut1 = 2400000.5 := max_eq_left (by norm_num at *; linarith)
  have e : (2400000.5 : ℝ) + ut1 - 2451545 = ut1 - 51544.5 := by ring
  obtain ⟨h1, h2, h3⟩ := flGmst06_err R 2400000.5 ut1 (by rw [m]; norm_num [abs_le]) (by rw [e]; exact h.trans (by norm_num)) (by norm_num [abs_le])
  rw [e] at h3
  exact ⟨h1, h2, by have := D2_pi.1; rw [flD2PI_eq R]; linarith, h3⟩

/-- C129: palGmsta in double precision, for the two arguments it is meant for, a whole day within 199999 days of J2000 and a part of a day: nothing is lost when the date is changed to a Julian Date, and the result
is congruent to sidereal time within 3.7e-12 radians. -/
theorem C129_gmsta_whole {fl : ℝ → ℝ} (R : Rounding fl) (date : ℤ) (ut : ℝ) (h : |(date : ℝ) - 51544.5| ≤ 199999) (hu : |ut| ≤ 1) :
    0 ≤ flGmsta fl date ut ∧ flGmsta fl date ut ≤ flD2PI fl ∧ ∃ k : ℤ, |flGmsta fl date ut - (gmstArcsec (date + ut - 51544.5) * Spec.arcsec + k * (2 * π))| ≤ 3.7e-12 := by
  have hh := abs_le.1 h
  have hv := abs_le.1 hu
  have ex : fl ((date : ℝ) + 2400000.5) = date + 2400000.5 := by
    have e : (date : ℝ) + 2400000.5 = ((2 * date + 4800001 : ℤ) : ℝ) * 2 ^ (-1 : ℤ) := by push_cast; norm_num; ring
    have b1 : ((2 * date + 4800001 : ℤ) : ℝ) ≤ 6000000 := by push_cast; norm_num at *; linarith
    have b2 : (0 : ℝ) ≤ ((2 * date + 4800001 : ℤ) : ℝ) := by push_cast; norm_num at *; linarith
    have b3 : |(2 * date + 4800001 : ℤ)| ≤ 2 ^ 53 := by
      have c1 : (2 * date + 4800001 : ℤ) ≤ 6000000 := by exact_mod_cast b1
      have c2 : 0 ≤ (2 * date + 4800001 : ℤ) := by exact_mod_cast b2
      rw [abs_of_nonneg c2]; omega
    rw [e]
    refine R.keep _ _ b3 (by norm_num) ?_
    rw [abs_of_nonneg b2]
    refine le_trans (b := 10 ^ 30) ?_ ((le_abs_self _).trans (big_le (by norm_num)))
    norm_num
    push_cast at b1
    linarith
  unfold flGmsta
  dsimp only
  rw [ex]
  have m : max ((date : ℝ) + 2400000.5) ut = date + 2400000.5 := max_eq_left (by norm_num at *; linarith)
  have e1 : (date : ℝ) + 2400000.5 - 2451545 = date - 51544.5 := by ring
  have e : (date : ℝ) + 2400000.5 + ut - 2451545 = date + ut - 51544.5 := by ring
  have h' : |(date : ℝ) - 51544.5| ≤ 250000 := h.trans (by norm_num)
  have r := flGmst06_err R (date + 2400000.5) ut (by rw [m, e1]; exact h') (by rw [e, abs_le]; constructor <;> norm_num at * <;> linarith) (by rw [e1]; exact h')
  rw [e] at r
  exact r

theorem gmstArcsec_lip {x y : ℝ} (hx : |x| ≤ 250000) (hy : |y| ≤ 250000) : |gmstArcsec x - gmstArcsec y| ≤ 1299550 * |x - y| := by
  unfold gmstArcsec
  obtain ⟨a, ha⟩ : ∃ a, a = x / 36525 := ⟨_, rfl⟩
  obtain ⟨b, hb⟩ : ∃ b, b = y / 36525 := ⟨_, rfl⟩
  have a1 : |a| ≤ 7 := by rw [ha, abs_div, abs_of_pos (by norm_num : (0 : ℝ) < 36525), div_le_iff₀ (by norm_num)]; linarith
  have b1 : |b| ≤ 7 := by rw [hb, abs_div, abs_of_pos (by norm_num : (0 : ℝ) < 36525), div_le_iff₀ (by norm_num)]; linarith
  rw [← ha, ← hb]
  have pw : ∀ n : ℕ, ∀ m : ℕ, |a ^ n * b ^ m| ≤ 7 ^ (n + m) := fun n m => by
    rw [abs_mul, abs_pow, abs_pow, pow_add]
    exact mul_le_mul (pow_le_pow_left₀ (abs_nonneg _) a1 _) (pow_le_pow_left₀ (abs_nonneg _) b1 _) (by positivity) (by positivity)
  have e : 1296000 * (0.7790572732640 + 1.00273781191135448 * x) + (0.014506 + 4612.156534 * a + 1.3915817 * a ^ 2 - 0.00000044 * a ^ 3 - 0.000029956 * a ^ 4 - 0.0000000368 * a ^ 5) -
      (1296000 * (0.7790572732640 + 1.00273781191135448 * y) + (0.014506 + 4612.156534 * b + 1.3915817 * b ^ 2 - 0.00000044 * b ^ 3 - 0.000029956 * b ^ 4 - 0.0000000368 * b ^ 5)) =
      (1296000 * 1.00273781191135448 + (4612.156534 + 1.3915817 * (a ^ 1 * b ^ 0 + a ^ 0 * b ^ 1) - 0.00000044 * (a ^ 2 * b ^ 0 + a ^ 1 * b ^ 1 + a ^ 0 * b ^ 2) -
        0.000029956 * (a ^ 3 * b ^ 0 + a ^ 2 * b ^ 1 + a ^ 1 * b ^ 2 + a ^ 0 * b ^ 3) - 0.0000000368 * (a ^ 4 * b ^ 0 + a ^ 3 * b ^ 1 + a ^ 2 * b ^ 2 + a ^ 1 * b ^ 3 + a ^ 0 * b ^ 4)) / 36525) * (x - y) := by
    rw [show x = 36525 * a by rw [ha]; ring, show y = 36525 * b by rw [hb]; ring]; ring
  rw [e, abs_mul]
  refine mul_le_mul_of_nonneg_right ?_ (abs_nonneg _)
  have q10 := abs_le.1 (pw 1 0); have q01 := abs_le.1 (pw 0 1); have q20 := abs_le.1 (pw 2 0); have q11 := abs_le.1 (pw 1 1); have q02 := abs_le.1 (pw 0 2)
  have q30 := abs_le.1 (pw 3 0); have q21 := abs_le.1 (pw 2 1); have q12 := abs_le.1 (pw 1 2); have q03 := abs_le.1 (pw 0 3)
  have q40 := abs_le.1 (pw 4 0); have q31 := abs_le.1 (pw 3 1); have q22 := abs_le.1 (pw 2 2); have q13 := abs_le.1 (pw 1 3); have q04 := abs_le.1 (pw 0 4)
  norm_num only at q10 q01 q20 q11 q02 q30 q21 q12 q03 q40 q31 q22 q13 q04
  rw [abs_le]
  constructor <;> linarith

/-- C129: palGmsta in double precision for any date: changing it to a Julian Date costs up to 1.9e-9 radians (0.0004 arcseconds), more than anything else in the computation. -/
theorem C129_gmsta {fl : ℝ → ℝ} (R : Rounding fl) (date ut : ℝ) (h : |date - 51544.5| ≤ 199999) (hu : |ut| ≤ 1) :
    0 ≤ flGmsta fl date ut ∧ flGmsta fl date ut ≤ flD2PI fl ∧ ∃ k : ℤ, |flGmsta fl date ut - (gmstArcsec (date + ut - 51544.5) * Spec.arcsec + k * (2 * π))| ≤ 1.9e-9 := by
  have hh := abs_le.1 h
  have hv := abs_le.1 hu
  have er := R.add_err2 (δ := 0) (B := 2651545) 2.95e-10 (noerr (date + 2400000.5)) (by rw [abs_le]; constructor <;> norm_num at * <;> linarith) (by norm_num) (by norm_num)
  unfold flGmsta
  dsimp only
  generalize fl (date + 2400000.5) = j at *
  have ee := abs_le.1 er
  have m : max j ut = j := max_eq_left (by norm_num at *; linarith)
  obtain ⟨r1, r2, k, hk⟩ := flGmst06_err R j ut (by rw [m, abs_le]; constructor <;> norm_num at * <;> linarith) (by rw [abs_le]; constructor <;> norm_num at * <;> linarith) (by rw [abs_le]; constructor <;> norm_num at * <;> linarith)
  refine ⟨r1, r2, k, ?_⟩
  have l := gmstArcsec_lip (x := j + ut - 2451545) (y := date + ut - 51544.5) (by rw [abs_le]; constructor <;> norm_num at * <;> linarith) (by rw [abs_le]; constructor <;> norm_num at * <;> linarith)
  rw [show j + ut - 2451545 - (date + ut - 51544.5) = j - (date + 2400000.5) by ring] at l
  have a0 : 0 ≤ Spec.arcsec := by unfold Spec.arcsec; positivity
  have a1 : Spec.arcsec ≤ 4.8482e-6 := by unfold Spec.arcsec; have := pi_lt_d4; rw [div_le_iff₀ (by norm_num)]; norm_num at *; linarith
  have e : flGmst06 fl j ut j ut - (gmstArcsec (date + ut - 51544.5) * Spec.arcsec + k * (2 * π)) =
      (flGmst06 fl j ut j ut - (gmstArcsec (j + ut - 2451545) * Spec.arcsec + k * (2 * π))) + (gmstArcsec (j + ut - 2451545) - gmstArcsec (date + ut - 51544.5)) * Spec.arcsec := by ring
  rw [e]
  refine (abs_add_le _ _).trans ?_
  rw [abs_mul, abs_of_nonneg a0]
  have : |gmstArcsec (j + ut - 2451545) - gmstArcsec (date + ut - 51544.5)| * Spec.arcsec ≤ (1299550 * 2.95e-10) * 4.8482e-6 :=
    mul_le_mul (l.trans (mul_le_mul_of_nonneg_left er (by norm_num))) a1 a0 (by norm_num)
  norm_num at *
  linarith

/-- Noon on 2020 January 1 with IEEE rounding, in both ways. -/
example : (∃ k : ℤ, |flGmst ieee 58849.5 - (gmstArcsec (58849.5 - 51544.5) * Spec.arcsec + k * (2 * π))| ≤ 3.7e-12) ∧
    ∃ k : ℤ, |flGmsta ieee (58849 : ℤ) 0.5 - (gmstArcsec ((58849 : ℤ) + 0.5 - 51544.5) * Spec.arcsec + k * (2 * π))| ≤ 3.7e-12 :=
  ⟨(C129_gmst ieee_rounding 58849.5 (by norm_num [abs_le])).2.2.2, (C129_gmsta_whole ieee_rounding 58849 0.5 (by norm_num [abs_le]) (by norm_num [abs_le])).2.2⟩

end Pal.Props
