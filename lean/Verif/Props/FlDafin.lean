import Verif.Model.FlDafin
import Verif.Lemmas.FlGmst
import Verif.Props.FlSphere

/-!
# Sexagesimal text to radians in double precision: property C153
-/

namespace Pal.Props
open Real Pal
variable {fl : ℝ → ℝ}

theorem truncR_natCast (n : ℕ) : (truncR (n : ℝ) : ℝ) = n := by unfold truncR; rw [if_pos (Nat.cast_nonneg n)]; simp

theorem truncR_neg_natCast (n : ℕ) : (truncR (-(n : ℝ)) : ℝ) = -n := by
  unfold truncR
  split_ifs with h
  · have : (n : ℝ) = 0 := le_antisymm (by linarith) (Nat.cast_nonneg n)
    rw [this]; simp
  · rw [Int.ceil_neg, Int.floor_natCast]; push_cast; rfl

theorem fl_nat (R : Rounding fl) {n : ℕ} (h : n ≤ 10 ^ 14) : fl n = n := by
  have := R.int (n : ℤ) (by rw [abs_of_nonneg (Int.natCast_nonneg n)]; exact_mod_cast h.trans (by norm_num))
  simpa using this

theorem fl_neg_nat (R : Rounding fl) {n : ℕ} (h : n ≤ 10 ^ 14) : fl (-(n : ℝ)) = -n := by rw [R.odd, fl_nat R h]

/-- C153 (decoding) Text with whole degrees (up to 10⁹, of either sign, the sign of a zero included), whole arcminutes below 60 and arcseconds up to 59.999999999999 is accepted by palDafin in double precision, and the angle is right to 5.5e-16 of itself. -/
theorem C153_decodes (R : Rounding fl) (neg : Bool) (d m : ℕ) (S : ℝ) (hd : d ≤ 10 ^ 9) (hm : m < 60) (h0 : 0 ≤ S) (hS : S ≤ 59.999999999999) :
    ∃ a, flDafin fl (if neg then -1 else 0) 0 0 (if neg then -(d : ℝ) else d) m S = (0, some a) ∧
      |a - (if neg then -1 else 1) * ((3600 * d + 60 * m + S) * Spec.arcsec)| ≤ 5.5e-16 * ((3600 * d + 60 * m + S) * Spec.arcsec) + 1e-190 := by
  have hD : fl (if neg then -(d : ℝ) else d) = if neg then -(d : ℝ) else d := by
    cases neg
    · exact fl_nat R (hd.trans (by norm_num))
    · exact fl_neg_nat R (hd.trans (by norm_num))
  have hM : fl (m : ℝ) = m := fl_nat R (by omega)
  have aD : |(if neg then -(d : ℝ) else d)| = d := by
    cases neg <;> simp
  have tD : (truncR (if neg then -(d : ℝ) else d) : ℝ) = if neg then -(d : ℝ) else d := by
    cases neg
    · exact truncR_natCast d
    · exact truncR_neg_natCast d
  have Sb : |S| ≤ 60 := by rw [abs_of_nonneg h0]; norm_num at *; linarith
  have s1 := R.err (x := S) (Sb.trans (by norm_num))
  rw [abs_of_nonneg h0] at s1
  have z : (1 : ℝ) / 10 ^ 200 ≤ 1e-199 := by norm_num
  have s60 : fl S < 60 := by
    have u := (abs_le.1 s1).2
    have v : (1e-199 : ℝ) ≤ 1e-14 := by norm_num
    generalize (1 : ℝ) / 10 ^ 200 = t at *
    generalize (1e-199 : ℝ) = t' at *
    norm_num at *; linarith
  have st : flDafinStatus (if neg then -1 else 0) 0 0 (if neg then -(d : ℝ) else d) m (fl S) = 0 := by
    have m60 : ¬ ((m : ℝ) ≥ 60) := not_le.2 (by exact_mod_cast hm)
    unfold flDafinStatus
    rw [tD, truncR_natCast, if_neg (by cases neg <;> simp), if_neg (by simp), if_neg (by simp), if_neg (by cases neg <;> simp), if_neg (by simp), if_neg (by simp), if_neg (by simp [hm]), if_neg (not_le.2 s60)]
  have e1 : fl (60 * |(if neg then -(d : ℝ) else d)|) = 60 * d := by
    rw [aD]
    have := fl_nat R (n := 60 * d) (by omega)
    push_cast at this
    exact this
  have e2 : fl (60 * (d : ℝ) + m) = 60 * d + m := by
    have := fl_nat R (n := 60 * d + m) (by omega)
    push_cast at this
    exact this
  have e3 : fl (60 * (60 * (d : ℝ) + m)) = 60 * (60 * d + m) := by
    have := fl_nat R (n := 60 * (60 * d + m)) (by omega)
    push_cast at this
    exact this
  refine ⟨_, by unfold flDafin; dsimp only; rw [hD, hM, st, if_pos le_rfl], ?_⟩
  unfold flDafinAngle
  dsimp only
  rw [e1, e2, e3]
  obtain ⟨N, hN⟩ : ∃ N : ℝ, N = 60 * (60 * d + m) := ⟨_, rfl⟩
  have N0 : 0 ≤ N := by rw [hN]; positivity
  have N1 : N ≤ 1e14 := by
    have u1 : (d : ℝ) ≤ 1000000000 := by exact_mod_cast hd.trans (by norm_num)
    have u2 : (m : ℝ) ≤ 60 := by exact_mod_cast hm.le
    rw [hN]
    calc 60 * (60 * (d : ℝ) + m) ≤ 60 * (60 * 1000000000 + 60) := by linarith
      _ ≤ 1e14 := by norm_num
  rw [← hN, show (3600 * (d : ℝ) + 60 * m + S) = N + S by rw [hN]; ring]
  have fin : |fl (flDAS2R fl * fl (N + fl S)) - (N + S) * Spec.arcsec| ≤ 5.5e-16 * ((N + S) * Spec.arcsec) + 1e-190 := by
    have dr := flDAS2R_err R
    have d0 := das2r_bounds.1
    have d1 := das2r_bounds.2.1
    show |_ - (N + S) * das2r| ≤ _ * ((N + S) * das2r) + _
    generalize flDAS2R fl = c at *
    generalize fl S = s at *
    generalize (1 : ℝ) / 10 ^ 200 = t at z s1
    have tS : (1e-199 : ℝ) ≤ 1e-100 := by norm_num
    obtain ⟨T, hT⟩ : ∃ T, T = N + S := ⟨_, rfl⟩
    have T0 : 0 ≤ T := by rw [hT]; linarith
    have T1 : T ≤ 1.01e14 := by rw [hT]; norm_num at *; linarith
    have x0 : |N + s - T| ≤ 1.1103e-16 * T + 1e-199 := by
      rw [hT, add_sub_add_left_eq_sub]
      refine s1.trans ?_
      have : 0 ≤ 1.1103e-16 * N := by positivity
      generalize (1e-199 : ℝ) = t' at *
      linarith
    have x1 : |N + s| ≤ T * 1.0000001 + 1e-100 := by
      have := abs_sub_abs_le_abs_sub (N + s) T
      rw [abs_of_nonneg T0] at this
      generalize (1e-199 : ℝ) = t' at *
      generalize (1e-100 : ℝ) = t'' at *
      linarith
    have r1 := R.err (x := N + s) (x1.trans (by norm_num at *; linarith))
    have x2 : |fl (N + s) - T| ≤ 2.2208e-16 * T + 1e-197 := by
      have a := abs_sub_le (fl (N + s)) (N + s) T
      have u1 : |N + s| ≤ T * 1.0000001 + 1e-199 := by
        have := abs_sub_abs_le_abs_sub (N + s) T
        rw [abs_of_nonneg T0] at this
        generalize (1e-199 : ℝ) = t' at *
        linarith
      have z1 : (1 : ℝ) / 10 ^ 200 ≤ 1e-199 := by norm_num
      have z2 : 3 * (1e-199 : ℝ) ≤ 1e-197 := by norm_num
      have z3 : (0 : ℝ) ≤ 1e-199 := by norm_num
      generalize (1 : ℝ) / 10 ^ 200 = t1 at *
      generalize (1e-199 : ℝ) = t' at *
      generalize (1e-197 : ℝ) = t'' at *
      linarith
    generalize fl (N + s) = y at *
    have cb : |c| ≤ 4.86e-6 := by
      have := abs_sub_abs_le_abs_sub c das2r
      rw [abs_of_pos (by linarith : 0 < das2r)] at this
      norm_num at *; linarith
    have x3 : |c * y - T * das2r| ≤ 4.86e-6 * (2.2208e-16 * T + 1e-197) + 1e-21 * T := by
      have e : c * y - T * das2r = c * (y - T) + (c - das2r) * T := by ring
      rw [e]
      refine (abs_add_le _ _).trans ?_
      rw [abs_mul, abs_mul, abs_of_nonneg T0]
      exact add_le_add (mul_le_mul cb x2 (abs_nonneg _) (by norm_num)) (mul_le_mul_of_nonneg_right dr T0)
    have Tl : 4.84e-6 * T ≤ T * das2r := by rw [mul_comm]; exact mul_le_mul_of_nonneg_left d0 T0
    have Tu : T * das2r ≤ 4.85e-6 * T := by rw [mul_comm (4.85e-6)]; exact mul_le_mul_of_nonneg_left d1 T0
    have TT : 0 ≤ T * das2r := mul_nonneg T0 (by linarith)
    rw [← hT]
    generalize T * das2r = W at *
    have x4 : |c * y| ≤ 1.0000001 * W + 1e-197 := by
      have := abs_sub_abs_le_abs_sub (c * y) W
      rw [abs_of_nonneg TT] at this
      have z3 : (0 : ℝ) ≤ 1e-197 := by norm_num
      generalize (1e-197 : ℝ) = t' at *
      linarith
    have z4 : (1e-197 : ℝ) ≤ 1 := by norm_num
    have r2 := R.err (x := c * y) (x4.trans (by norm_num at *; linarith))
    have a := abs_sub_le (fl (c * y)) (c * y) W
    have z1 : (1 : ℝ) / 10 ^ 200 ≤ 1e-197 := by norm_num
    have z2 : 3 * (1e-197 : ℝ) ≤ 1e-190 := by norm_num
    have z3 : (0 : ℝ) ≤ 1e-197 := by norm_num
    generalize (1 : ℝ) / 10 ^ 200 = t1 at *
    generalize (1e-197 : ℝ) = t' at *
    generalize (1e-190 : ℝ) = t'' at *
    linarith
  cases neg
  · simpa using fin
  · simp only [if_true]
    rw [if_pos (by norm_num), show -fl (flDAS2R fl * fl (N + fl S)) - -1 * ((N + S) * Spec.arcsec) = -(fl (flDAS2R fl * fl (N + fl S)) - (N + S) * Spec.arcsec) by ring, abs_neg]
    exact fin

/-- C153 (just below sixty) Arcseconds written with enough nines, within 3.5e-15 of sixty, are below 60 but are rejected as out of range by palDafin in double precision (status −3), because the conversion of the text rounds them to 60. -/
theorem C153_sixty (R : Rounding fl) (neg : Bool) (d m : ℕ) (S : ℝ) (hd : d ≤ 10 ^ 9) (hm : m < 60) (h0 : 60 - 3.5e-15 ≤ S) (hS : S < 60) :
    (flDafin fl (if neg then -1 else 0) 0 0 (if neg then -(d : ℝ) else d) m S).1 = -3 := by
  have e : fl S = 60 := by
    rw [R.eq_best S 8444249301319680 (-47) (by rw [abs_of_pos (by norm_num at *; linarith)]; norm_num at *; linarith) (by norm_num) (by norm_num) (by norm_num) (by rw [abs_lt]; constructor <;> norm_num at * <;> linarith)]
    norm_num
  have hD : fl (if neg then -(d : ℝ) else d) = if neg then -(d : ℝ) else d := by
    cases neg
    · exact fl_nat R (hd.trans (by norm_num))
    · exact fl_neg_nat R (hd.trans (by norm_num))
  have tD : (truncR (if neg then -(d : ℝ) else d) : ℝ) = if neg then -(d : ℝ) else d := by
    cases neg
    · exact truncR_natCast d
    · exact truncR_neg_natCast d
  unfold flDafin flDafinStatus
  dsimp only
  rw [hD, fl_nat R (by omega), e, tD, truncR_natCast, if_neg (by cases neg <;> simp), if_neg (by simp), if_neg (by simp), if_neg (by cases neg <;> simp), if_neg (by simp), if_neg (by simp), if_neg (by simp [hm]), if_pos le_rfl]

/-- With IEEE doubles: "-0 17 59.9" is minus 1079.9 arcseconds; "12 34 59.9999999999999999" is rejected. -/
example : (∃ a, flDafin ieee (if true then -1 else 0) 0 0 (if true then -((0 : ℕ) : ℝ) else (0 : ℕ)) (17 : ℕ) 59.9 = (0, some a) ∧ a < 0) ∧
    (flDafin ieee (if false then -1 else 0) 0 0 (if false then -((12 : ℕ) : ℝ) else (12 : ℕ)) (34 : ℕ) 59.9999999999999999).1 = -3 := by
  constructor
  · obtain ⟨a, h1, h2⟩ := C153_decodes ieee_rounding true 0 17 59.9 (by norm_num) (by norm_num) (by norm_num) (by norm_num)
    refine ⟨a, h1, ?_⟩
    have d0 : 4.84e-6 ≤ Spec.arcsec := das2r_bounds.1
    have := (abs_le.1 h2).2
    have z : (1e-190 : ℝ) ≤ 1e-30 := by norm_num
    generalize (1e-190 : ℝ) = t at *
    norm_num at *; linarith
  · exact C153_sixty ieee_rounding false 12 34 _ (by norm_num) (by norm_num) (by norm_num) (by norm_num)

end Pal.Props
