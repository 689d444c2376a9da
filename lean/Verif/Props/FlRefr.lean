import Verif.Lemmas.FlRefz
import Verif.Props.FlSphere

/-!
# Refraction in double precision

The reference is the model over the real numbers (palRefv, palRefz), whose own meaning is C35, C80 and C81.
-/

namespace Pal.Props
open Real Pal.Spec

/-- C125: palRefv in double precision, for every vector of length at most 1.0004 (any elevation, also below the horizon) and any refraction constants up to 5e-4 and 5e-7 (103 and 0.1 arcsec): every component is that of exact
arithmetic with the same constants to 1e-15. -/
theorem C125_refv {fl : ℝ → ℝ} (R : Rounding fl) (vu : Vec3) (refa refb : ℝ) (hv : len vu ≤ 1.0004) (ha : |refa| ≤ 5e-4) (hb : |refb| ≤ 5e-7) (i : Fin 3) :
    |flRefv fl vu refa refb i - palRefv vu refa refb i| ≤ 1e-15 := flRefv_err R vu refa refb hv ha hb i

/-- A vector 1.7 degrees below the horizon and typical constants, with IEEE rounding. -/
example (i : Fin 3) : |flRefv ieee ![0, 0.9995, -0.03] 2.9e-4 (-3.2e-7) i - palRefv ![0, 0.9995, -0.03] 2.9e-4 (-3.2e-7) i| ≤ 1e-15 :=
  C125_refv ieee_rounding _ _ _ (by refine Real.sqrt_le_iff.2 ⟨by norm_num, ?_⟩; rw [Fin.sum_univ_three]; simp; norm_num) (by norm_num) (by norm_num) i

/-- The elevation used beyond 83 degrees, as computed. -/
theorem flRefz_elev {fl : ℝ → ℝ} (R : Rounding fl) {zu : ℝ} (h1 : 1.44 ≤ zu) (h2 : zu ≤ 10) :
    |fl (90 - if 93 < fl (zu * flDr2d fl) then 93 else fl (zu * flDr2d fl)) - (90 - min 93 (zu * (180 / π)))| ≤ 2.5e-14 := by
  have p1 := Real.pi_gt_d20
  have p2 := Real.pi_lt_d20
  have c := R.cst 57.295779513082320876798154814105170332405472466564 (M := 57.3) (by norm_num) (by norm_num) (by norm_num)
  have D : |180 / π - 57.295779513082320876| ≤ 1e-16 := by
    rw [abs_le]
    constructor
    · rw [le_sub_iff_add_le, le_div_iff₀ Real.pi_pos]; norm_num at *; nlinarith
    · rw [sub_le_iff_le_add, div_le_iff₀ Real.pi_pos]; norm_num at *; nlinarith
  have h : |flDr2d fl - 180 / π| ≤ 6.5e-15 := by
    unfold flDr2d
    obtain ⟨d1, d2⟩ := abs_le.1 D
    obtain ⟨c1, c2⟩ := abs_le.1 c
    rw [abs_le]; constructor <;> norm_num at * <;> linarith
  obtain ⟨D1, D2⟩ := abs_le.1 D
  have hD : |180 / π| ≤ 57.3 := by rw [abs_le]; constructor <;> norm_num at * <;> linarith
  have ite : (if 93 < fl (zu * flDr2d fl) then 93 else fl (zu * flDr2d fl)) = min 93 (fl (zu * flDr2d fl)) := by
    split_ifs with h
    · rw [min_eq_left h.le]
    · rw [min_eq_right (not_lt.1 h)]
  rw [ite]
  rcases le_or_gt zu 1.7 with hz | hz
  · have m := R.mulB (MA := 1.7) 2.2e-14 (noerr zu) h (by rw [abs_of_nonneg (by norm_num at *; linarith)]; exact hz) hD (by norm_num) (by norm_num)
    have mm : |min 93 (fl (zu * flDr2d fl)) - min 93 (zu * (180 / π))| ≤ 2.2e-14 := (abs_min_sub_min_le_max _ _ _ _).trans (by rw [sub_self, abs_zero]; exact max_le (by norm_num) m)
    have lo : 82 ≤ min 93 (zu * (180 / π)) := le_min (by norm_num) (by
      have : (1.44 : ℝ) * 57.2957 ≤ zu * (180 / π) := mul_le_mul h1 (by norm_num at *; linarith) (by norm_num) (by linarith)
      norm_num at *; linarith)
    have hi := min_le_left 93 (zu * (180 / π))
    refine R.add_err2 (δ := 2.2e-14) (B := 8) 2.5e-14 ?_ (by rw [abs_le]; constructor <;> linarith) (by norm_num) (by norm_num)
    rw [show 90 - min 93 (fl (zu * flDr2d fl)) - (90 - min 93 (zu * (180 / π))) = -(min 93 (fl (zu * flDr2d fl)) - min 93 (zu * (180 / π))) by ring, abs_neg]
    exact mm
  · have m := R.mulB (MA := 10) 2e-13 (noerr zu) h (by rw [abs_of_nonneg (by norm_num at *; linarith)]; exact h2) hD (by norm_num) (by norm_num)
    have big : (1.7 : ℝ) * 57.2957 ≤ zu * (180 / π) := mul_le_mul hz.le (by norm_num at *; linarith) (by norm_num) (by norm_num at *; linarith)
    have m1 := (abs_le.1 m).1
    rw [min_eq_left (by norm_num at *; linarith), min_eq_left (by norm_num at *; linarith)]
    exact R.add_err2 (δ := 0) (B := 3) 2.5e-14 (noerr (90 - 93)) (by norm_num) (by norm_num) (by norm_num)

/-- C125: palRefz in double precision, for every zenith distance from -83 degrees up to 10 radians (both models, the point where one hands over to the other and the range where the refraction is held at its 93 degree value) and
any refraction constants up to 5e-4 and 5e-7: the refracted zenith distance is that of exact arithmetic with the same constants to 6.4e-14 radians. -/
theorem C125_refz {fl : ℝ → ℝ} (R : Rounding fl) {L : Libm} (hL : LibmOK L) (zu refa refb : ℝ) (h1 : -1.4486 ≤ zu) (h2 : zu ≤ 10) (ha : |refa| ≤ 5e-4) (hb : |refb| ≤ 5e-7) :
    |flRefz fl L zu refa refb - palRefz zu refa refb| ≤ 6.4e-14 := by
  have p1 := Real.pi_gt_d20
  have p2 := Real.pi_lt_d20
  have hz : |zu| ≤ 10 := by rw [abs_le]; constructor <;> norm_num at * <;> linarith
  have c := R.cst 0.017453292519943295769236907684886127134428718885417 (M := 0.0175) (by norm_num) (by norm_num) (by norm_num)
  have h : |flDd2r fl - π / 180| ≤ 2e-18 := by
    unfold flDd2r
    have e : |(0.017453292519943295769236907684886127134428718885417 : ℝ) - π / 180| ≤ 1e-20 := by
      rw [abs_le]; constructor <;> norm_num at * <;> linarith
    have := abs_sub_le (fl 0.017453292519943295769236907684886127134428718885417) 0.017453292519943295769236907684886127134428718885417 (π / 180)
    norm_num at *; linarith
  have hp : |π / 180| ≤ 0.01746 := by rw [abs_le]; constructor <;> norm_num at * <;> linarith
  have z83 := R.mulB 3.4e-16 (noerr 83) h (by norm_num : |(83 : ℝ)| ≤ 83) hp (by norm_num) (by norm_num)
  unfold flRefz palRefz
  dsimp only
  generalize fl (83 * flDd2r fl) = b at *
  have hB1 : 83 * (π / 180) ≤ 1.448624 := by norm_num at *; linarith
  have hB2 : 1.448623 ≤ 83 * (π / 180) := by norm_num at *; linarith
  have hB3 : 83 * (π / 180) * (180 / π) = 83 := by have := Real.pi_pos.ne'; field_simp
  have dl : 57 ≤ 180 / π := by rw [le_div_iff₀ Real.pi_pos]; norm_num at *; linarith
  have du : 180 / π ≤ 58 := by rw [div_le_iff₀ Real.pi_pos]; norm_num at *; linarith
  generalize 83 * (π / 180) = B at *
  have ite : (if zu < b then zu else b) = min zu b := by
    split_ifs with h
    · rw [min_eq_left h.le]
    · rw [min_eq_right (not_lt.1 h)]
  rw [ite]
  have hx : |min zu b - min zu B| ≤ 3.4e-16 := (abs_min_sub_min_le_max _ _ _ _).trans (by rw [sub_self, abs_zero]; exact max_le (by norm_num) z83)
  have hX : |min zu B| ≤ 1.44863 := by
    rw [abs_le]; exact ⟨le_min (by norm_num at *; linarith) (by norm_num at *; linarith), (min_le_right _ _).trans (by norm_num at *; linarith)⟩
  obtain ⟨r1, r2⟩ := flRefz_low R hL hx hX ha hb
  have q1 : zu > min zu b ↔ b < zu := by rw [gt_iff_lt, min_lt_iff]; simp
  have q2 : zu > min zu B ↔ B < zu := by rw [gt_iff_lt, min_lt_iff]; simp
  simp only [q1, q2]
  generalize flRefzSecond fl L (min zu b) refa refb (flRefzFirst fl L (min zu b) refa refb) = r at *
  generalize min zu B - (min zu B - refzStep (min zu B) refa refb (min zu B)) + refzStep (min zu B) refa refb (min zu B - refzStep (min zu B) refa refb (min zu B)) = V at *
  obtain ⟨b1, b2⟩ := abs_le.1 z83
  have E0 : ∀ zz : ℝ, -3 ≤ 90 - min 93 zz := fun zz => by have := min_le_left (93 : ℝ) zz; linarith
  -- it is enough to bound the two refractions
  suffices key : |(if b < zu then fl (fl (fl (r / flRef83 fl) * fl (fl (fl 0.55445 + fl (-fl 0.01133 * fl (90 - if 93 < fl (zu * flDr2d fl) then 93 else fl (zu * flDr2d fl)))) +
        fl (fl 0.00202 * fl (fl (90 - if 93 < fl (zu * flDr2d fl) then 93 else fl (zu * flDr2d fl)) * fl (90 - if 93 < fl (zu * flDr2d fl) then 93 else fl (zu * flDr2d fl)))))) /
        fl (fl (1 + fl (fl 0.28385 * fl (90 - if 93 < fl (zu * flDr2d fl) then 93 else fl (zu * flDr2d fl)))) +
        fl (fl 0.02390 * fl (fl (90 - if 93 < fl (zu * flDr2d fl) then 93 else fl (zu * flDr2d fl)) * fl (90 - if 93 < fl (zu * flDr2d fl) then 93 else fl (zu * flDr2d fl)))))) else r) -
      (if B < zu then V / refzHigh 7 * (0.55445 + -0.01133 * (90 - min 93 (zu * (180 / π))) + 0.00202 * ((90 - min 93 (zu * (180 / π))) * (90 - min 93 (zu * (180 / π))))) /
        (1 + 0.28385 * (90 - min 93 (zu * (180 / π))) + 0.02390 * ((90 - min 93 (zu * (180 / π))) * (90 - min 93 (zu * (180 / π))))) else V)| ≤ 6.1e-14 ∧ |(if B < zu then V / refzHigh 7 * (0.55445 + -0.01133 * (90 - min 93 (zu * (180 / π))) + 0.00202 * ((90 - min 93 (zu * (180 / π))) * (90 - min 93 (zu * (180 / π))))) /
        (1 + 0.28385 * (90 - min 93 (zu * (180 / π))) + 0.02390 * ((90 - min 93 (zu * (180 / π))) * (90 - min 93 (zu * (180 / π))))) else V)| ≤ 1 by
    refine R.add_err2 (δ := 6.1e-14) (B := 11) 6.4e-14 ?_ ?_ (by norm_num) (by norm_num)
    · rw [sub_sub_sub_cancel_left, abs_sub_comm]; exact key.1
    · exact (abs_sub _ _).trans (by have := key.2; linarith)
  by_cases i1 : b < zu <;> by_cases i2 : B < zu
  · -- both beyond
    rw [if_pos i1, if_pos i2]
    have m : 83 ≤ min 93 (zu * (180 / π)) := le_min (by norm_num) (by rw [← hB3]; exact mul_le_mul_of_nonneg_right i2.le (by linarith))
    obtain ⟨k1, k2⟩ := flRefz_high R r1 r2 ((flRefz_elev R (by norm_num at *; linarith) h2).trans (by norm_num)) (E0 (zu * (180 / π))) (by linarith)
    exact ⟨k1.trans (by norm_num), k2.trans (by norm_num)⟩
  · -- computed beyond, exact not
    rw [if_pos i1, if_neg i2]
    have i2' := not_lt.1 i2
    have z1 : |zu * (180 / π) - 83| ≤ 2.1e-14 := by
      rw [← hB3, ← sub_mul, abs_mul, abs_of_pos (by linarith : 0 < 180 / π)]
      have : |zu - B| ≤ 3.4e-16 := by rw [abs_le]; constructor <;> linarith
      exact (mul_le_mul this du (by linarith) (by norm_num)).trans (by norm_num)
    have ev := flRefz_elev R (fl := fl) (zu := zu) (by norm_num at *; linarith) h2
    rw [min_eq_right (by have := (abs_le.1 z1).2; norm_num at *; linarith)] at ev
    have hh : V / refzHigh 7 * (0.55445 + -0.01133 * 7 + 0.00202 * (7 * 7)) / (1 + 0.28385 * 7 + 0.02390 * (7 * 7)) = V := by unfold refzHigh; norm_num; ring
    have key := flRefz_high R r1 r2 (e := fl (90 - if 93 < fl (zu * flDr2d fl) then 93 else fl (zu * flDr2d fl))) (E := 7) (by
      have := abs_sub_le (fl (90 - if 93 < fl (zu * flDr2d fl) then 93 else fl (zu * flDr2d fl))) (90 - zu * (180 / π)) 7
      rw [show 90 - zu * (180 / π) - 7 = -(zu * (180 / π) - 83) by ring, abs_neg] at this
      norm_num at *; linarith) (by norm_num) le_rfl
    rw [hh] at key
    obtain ⟨key1, -⟩ := key
    exact ⟨key1.trans (by norm_num), r2.trans (by norm_num)⟩
  · -- exact beyond, computed not
    rw [if_neg i1, if_pos i2]
    have i1' := not_lt.1 i1
    have z1 : |zu * (180 / π) - 83| ≤ 2.1e-14 := by
      rw [← hB3, ← sub_mul, abs_mul, abs_of_pos (by linarith : 0 < 180 / π)]
      have : |zu - B| ≤ 3.4e-16 := by rw [abs_le]; constructor <;> linarith
      exact (mul_le_mul this du (by linarith) (by norm_num)).trans (by norm_num)
    obtain ⟨z2, z3⟩ := abs_le.1 z1
    have m : min 93 (zu * (180 / π)) = zu * (180 / π) := min_eq_right (by norm_num at *; linarith)
    rw [m]
    have z4 : 83 ≤ zu * (180 / π) := by rw [← hB3]; exact mul_le_mul_of_nonneg_right i2.le (by linarith)
    have := refzHigh_near r2 (E := 90 - zu * (180 / π)) (by norm_num at *; linarith) (by linarith)
    have t := abs_sub_le r V (V / refzHigh 7 * (0.55445 + -0.01133 * (90 - zu * (180 / π)) + 0.00202 * ((90 - zu * (180 / π)) * (90 - zu * (180 / π)))) /
        (1 + 0.28385 * (90 - zu * (180 / π)) + 0.02390 * ((90 - zu * (180 / π)) * (90 - zu * (180 / π)))))
    have u := abs_sub_le (V / refzHigh 7 * (0.55445 + -0.01133 * (90 - zu * (180 / π)) + 0.00202 * ((90 - zu * (180 / π)) * (90 - zu * (180 / π)))) /
        (1 + 0.28385 * (90 - zu * (180 / π)) + 0.02390 * ((90 - zu * (180 / π)) * (90 - zu * (180 / π))))) V 0
    rw [sub_zero, sub_zero, abs_sub_comm _ V] at u
    generalize V / refzHigh 7 * (0.55445 + -0.01133 * (90 - zu * (180 / π)) + 0.00202 * ((90 - zu * (180 / π)) * (90 - zu * (180 / π)))) /
        (1 + 0.28385 * (90 - zu * (180 / π)) + 0.02390 * ((90 - zu * (180 / π)) * (90 - zu * (180 / π)))) = W at *
    clear z1 z2 z3 z4 m hB1 hB2 hB3 dl du hx hX
    constructor <;> norm_num at * <;> linarith
  · rw [if_neg i1, if_neg i2]
    exact ⟨r1.trans (by norm_num), r2.trans (by norm_num)⟩

/-- A zenith distance of 86 degrees and typical constants, with IEEE rounding and a library that rounds the exact values. -/
example : |flRefz ieee roundedLibm 1.5 2.9e-4 (-3.2e-7) - palRefz 1.5 2.9e-4 (-3.2e-7)| ≤ 6.4e-14 :=
  C125_refz ieee_rounding roundedLibm_ok 1.5 2.9e-4 (-3.2e-7) (by norm_num) (by norm_num) (by norm_num) (by norm_num)

end Pal.Props
