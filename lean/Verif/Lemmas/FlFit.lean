import Verif.Model.FlFit
import Verif.Lemmas.Flt

/-! # Rounding errors of plate models -/

namespace Pal
variable {fl : ℝ → ℝ}

set_option exponentiation.threshold 2000 in
theorem Rounding.errL (R : Rounding fl) {x : ℝ} (hx : |x| ≤ 10 ^ 250) : |fl x - x| ≤ 1.1103e-16 * |x| + 1 / 10 ^ 200 := by
  have h := R.near x (hx.trans (by norm_num))
  refine h.trans ?_
  have h1 : |x| / 2 ^ 53 ≤ 1.1103e-16 * |x| := by
    rw [div_le_iff₀ (by norm_num)]
    have := abs_nonneg x
    norm_num; linarith
  have h2 : (1 : ℝ) / 2 ^ 1075 ≤ 1 / 10 ^ 200 := by norm_num
  linarith

/-- A rounded difference of two rounded products. -/
theorem Rounding.det (R : Rounding fl) (p q : ℝ) (hp : |p| ≤ 10 ^ 240) (hq : |q| ≤ 10 ^ 240) :
    |fl (fl p - fl q) - (p - q)| ≤ 2.2208e-16 * (|p| + |q|) + 1 / 10 ^ 199 := by
  have h1 := R.errL (hp.trans (by norm_num))
  have h2 := R.errL (hq.trans (by norm_num))
  have t1 : |fl p - fl q| ≤ (|p| + |q|) + (|fl p - p| + |fl q - q|) := by
    have e : fl p - fl q = (p - q) + ((fl p - p) - (fl q - q)) := by ring
    rw [e]
    refine (abs_add_le _ _).trans ?_
    have := abs_sub p q
    have := abs_sub (fl p - p) (fl q - q)
    linarith
  have h3 := R.errL (x := fl p - fl q) (by
    refine t1.trans ?_
    norm_num at h1 h2 hp hq ⊢
    linarith)
  have t2 : |fl (fl p - fl q) - (p - q)| ≤ |fl (fl p - fl q) - (fl p - fl q)| + (|fl p - p| + |fl q - q|) := by
    have e : fl (fl p - fl q) - (p - q) = (fl (fl p - fl q) - (fl p - fl q)) + ((fl p - p) - (fl q - q)) := by ring
    rw [e]
    refine (abs_add_le _ _).trans ?_
    have := abs_sub (fl p - p) (fl q - q)
    linarith
  have n1 := abs_nonneg p
  have n2 := abs_nonneg q
  norm_num at h1 h2 h3 ⊢
  linarith

/-- A sum of a constant and two products, from left to right. -/
theorem flLin_err (R : Rounding fl) (a b c x y : ℝ) (ha : |a| ≤ 10 ^ 240) (hb : |b * x| ≤ 10 ^ 240) (hc : |c * y| ≤ 10 ^ 240) :
    |flLin fl a b c x y - (a + b * x + c * y)| ≤ 3.3312e-16 * (|a| + |b * x| + |c * y|) + 1 / 10 ^ 199 := by
  unfold flLin
  generalize b * x = p at *
  generalize c * y = q at *
  have h1 := R.errL (hb.trans (by norm_num))
  have h2 := R.errL (hc.trans (by norm_num))
  have n0 := abs_nonneg a
  have n1 := abs_nonneg p
  have n2 := abs_nonneg q
  have t1 : |a + fl p| ≤ |a| + |p| + |fl p - p| := by
    rw [show a + fl p = a + p + (fl p - p) by ring]
    refine (abs_add_le _ _).trans ?_
    have := abs_add_le a p
    linarith
  have h3 := R.errL (x := a + fl p) (by
    refine t1.trans ?_
    norm_num at h1 h2 ha hb hc ⊢
    linarith)
  have t2 : |fl (a + fl p) + fl q| ≤ |a| + |p| + |q| + (|fl (a + fl p) - (a + fl p)| + |fl p - p| + |fl q - q|) := by
    rw [show fl (a + fl p) + fl q = a + p + q + ((fl (a + fl p) - (a + fl p)) + (fl p - p) + (fl q - q)) by ring]
    refine (abs_add_le _ _).trans ?_
    have := abs_add_three a p q
    have := abs_add_three (fl (a + fl p) - (a + fl p)) (fl p - p) (fl q - q)
    linarith
  have h4 := R.errL (x := fl (a + fl p) + fl q) (by
    refine t2.trans ?_
    norm_num at *
    linarith)
  have t3 : |fl (fl (a + fl p) + fl q) - (a + p + q)| ≤ |fl (fl (a + fl p) + fl q) - (fl (a + fl p) + fl q)| + (|fl (a + fl p) - (a + fl p)| + |fl p - p| + |fl q - q|) := by
    rw [show fl (fl (a + fl p) + fl q) - (a + p + q) = (fl (fl (a + fl p) + fl q) - (fl (a + fl p) + fl q)) + ((fl (a + fl p) - (a + fl p)) + (fl p - p) + (fl q - q)) by ring]
    refine (abs_add_le _ _).trans ?_
    have := abs_add_three (fl (a + fl p) - (a + fl p)) (fl p - p) (fl q - q)
    linarith
  norm_num at h1 h2 h3 h4 ⊢
  linarith

/-- A rounded quotient of approximate quantities. -/
theorem Rounding.quot (R : Rounding fl) {n N d D α e : ℝ} (hn : |n - N| ≤ α) (hd : |d - D| ≤ e * |D|) (he : e ≤ 1 / 1000) (hD : D ≠ 0)
    (hm : (α + |N|) / |D| ≤ 10 ^ 240) : |fl (n / d) - N / D| ≤ 1.0012 * (α + (e + 1.1104e-16) * |N|) / |D| + 1 / 10 ^ 200 := by
  have Dp := abs_pos.2 hD
  have e0 : 0 ≤ e := by
    by_contra h
    push Not at h
    have := (abs_nonneg _).trans hd
    have := mul_neg_of_neg_of_pos h Dp
    linarith
  have α0 := (abs_nonneg _).trans hn
  have N0 := abs_nonneg N
  have dl : 0.999 * |D| ≤ |d| := by
    have a := abs_sub_abs_le_abs_sub D d
    rw [abs_sub_comm] at a
    have := mul_le_mul_of_nonneg_right he Dp.le
    linarith
  have dp : 0 < |d| := by linarith
  have d0 := abs_pos.1 dp
  have s : |n / d - N / D| ≤ 1.00101 * ((α + e * |N|) / |D|) := by
    have : n / d - N / D = ((n - N) * D - N * (d - D)) / (d * D) := by field_simp; ring
    rw [this, abs_div, abs_mul d, div_le_iff₀ (mul_pos dp Dp)]
    have k1 : |(n - N) * D - N * (d - D)| ≤ (α + e * |N|) * |D| := by
      refine (abs_sub _ _).trans ?_
      rw [abs_mul, abs_mul]
      have u1 := mul_le_mul_of_nonneg_right hn Dp.le
      have u2 := mul_le_mul_of_nonneg_left hd N0
      linarith
    have k2 : 1.00101 * ((α + e * |N|) / |D|) * (|d| * |D|) = 1.00101 * (α + e * |N|) * |d| := by field_simp
    rw [k2]
    have w : 0 ≤ α + e * |N| := add_nonneg α0 (mul_nonneg e0 N0)
    have u3 := mul_le_mul_of_nonneg_left dl w
    have u4 := mul_nonneg w Dp.le
    linarith
  have q0 : |N / D| = |N| / |D| := abs_div _ _
  have A0 : 0 ≤ α / |D| := div_nonneg α0 Dp.le
  have B0 : 0 ≤ |N| / |D| := div_nonneg N0 Dp.le
  have E0 : e * (|N| / |D|) ≤ 1 / 1000 * (|N| / |D|) := mul_le_mul_of_nonneg_right he B0
  have E1 : 0 ≤ e * (|N| / |D|) := mul_nonneg e0 B0
  have sp : (α + e * |N|) / |D| = α / |D| + e * (|N| / |D|) := by ring
  have sp2 : 1.0012 * (α + (e + 1.1104e-16) * |N|) / |D| = 1.0012 * (α / |D| + e * (|N| / |D|) + 1.1104e-16 * (|N| / |D|)) := by ring
  have sp3 : (α + |N|) / |D| = α / |D| + |N| / |D| := by ring
  rw [sp3] at hm
  rw [sp] at s
  have t : |n / d| ≤ |N| / |D| + |n / d - N / D| := by
    have := abs_sub_abs_le_abs_sub (n / d) (N / D)
    rw [q0] at this; linarith
  have h := R.errL (x := n / d) (by
    refine t.trans ?_
    norm_num at *
    linarith)
  have f : |fl (n / d) - N / D| ≤ |fl (n / d) - n / d| + |n / d - N / D| := by
    rw [show fl (n / d) - N / D = (fl (n / d) - n / d) + (n / d - N / D) by ring]
    exact abs_add_le _ _
  rw [sp2]
  generalize α / |D| = A at *
  generalize |N| / |D| = B at *
  generalize e * B = E at *
  norm_num at h s ⊢
  linarith

/-- The determinant of a plate model, relative to itself. -/
theorem flDet_err (R : Rounding fl) {p q K : ℝ} (hp : |p| ≤ 10 ^ 60) (hq : |q| ≤ 10 ^ 60) (hK : |p| + |q| ≤ K * |p - q|) (hK1 : K ≤ 10 ^ 12) (hD : 1 / 10 ^ 60 ≤ |p - q|) :
    1 ≤ K ∧ |fl (fl p - fl q) - (p - q)| ≤ 2.221e-16 * K * |p - q| ∧ fl (fl p - fl q) ≠ 0 ∧ p - q ≠ 0 := by
  have h := R.det p q (hp.trans (by norm_num)) (hq.trans (by norm_num))
  have Dp : 0 < |p - q| := lt_of_lt_of_le (by norm_num) hD
  have k1 : 1 ≤ K := by
    have := (abs_sub p q).trans hK
    by_contra hc
    push Not at hc
    have := mul_lt_mul_of_pos_right hc Dp
    linarith
  have a := mul_le_mul_of_nonneg_right k1 Dp.le
  have e : |fl (fl p - fl q) - (p - q)| ≤ 2.221e-16 * K * |p - q| := by
    generalize |p - q| = D at *
    refine h.trans ?_
    rw [mul_assoc]
    generalize K * D = E at *
    norm_num at hD hK a ⊢
    linarith
  refine ⟨k1, e, fun h0 => ?_, abs_pos.1 Dp⟩
  rw [h0, zero_sub, abs_neg] at e
  have := mul_le_mul_of_nonneg_right (mul_le_mul_of_nonneg_left hK1 (by norm_num : (0 : ℝ) ≤ 2.221e-16)) Dp.le
  norm_num at this e
  linarith

theorem coefA (R : Rounding fl) {d D K N1 N2 : ℝ} (hd : |d - D| ≤ 2.221e-16 * K * |D|) (k1 : 1 ≤ K) (hK1 : K ≤ 10 ^ 12) (hD : 1 / 10 ^ 60 ≤ |D|) (h1 : |N1| ≤ 10 ^ 60) (h2 : |N2| ≤ 10 ^ 60) :
    |fl (fl (fl N1 - fl N2) / d) - (N1 - N2) / D| ≤ 6e-16 * K * ((|N1| + |N2|) / |D|) + 1 / 10 ^ 130 := by
  have Dp : 0 < |D| := lt_of_lt_of_le (by norm_num) hD
  have n := R.det N1 N2 (h1.trans (by norm_num)) (h2.trans (by norm_num))
  have s := abs_sub N1 N2
  have s1 := abs_nonneg N1
  have s2 := abs_nonneg N2
  have s3 := abs_nonneg (N1 - N2)
  have r : 1 / |D| ≤ 10 ^ 60 := by
    rw [div_le_iff₀ Dp]
    have := mul_le_mul_of_nonneg_left hD (by norm_num : (0 : ℝ) ≤ 10 ^ 60)
    norm_num at this ⊢
    linarith
  have q := R.quot n hd (by norm_num at *; linarith) (abs_pos.1 Dp) (by
    rw [div_eq_mul_one_div]
    refine (mul_le_mul (b := 10 ^ 62) ?_ r (by positivity) (by norm_num)).trans (by norm_num)
    norm_num at h1 h2 ⊢
    linarith)
  refine q.trans ?_
  rw [div_eq_mul_one_div, div_eq_mul_one_div (|N1| + |N2|)]
  have r0 : 0 ≤ 1 / |D| := by positivity
  generalize 1 / |D| = r' at *
  have m1 := mul_le_mul_of_nonneg_right s r0
  have m0 := mul_nonneg s3 r0
  have m2 : 0 ≤ (|N1| + |N2|) * r' := by positivity
  have e : 1.0012 * (2.2208e-16 * (|N1| + |N2|) + 1 / 10 ^ 199 + (2.221e-16 * K + 1.1104e-16) * |N1 - N2|) * r' =
      1.0012 * (2.2208e-16 * ((|N1| + |N2|) * r') + 1 / 10 ^ 199 * r' + (2.221e-16 * K + 1.1104e-16) * (|N1 - N2| * r')) := by ring
  rw [e]
  generalize (|N1| + |N2|) * r' = S at *
  generalize |N1 - N2| * r' = T at *
  have m3 := mul_le_mul_of_nonneg_left m1 (by linarith : (0 : ℝ) ≤ 2.221e-16 * K + 1.1104e-16)
  have m4 := mul_le_mul_of_nonneg_right k1 m2
  rw [one_mul] at m4
  have m5 : 6e-16 * K * S = 6e-16 * (K * S) := by ring
  have m6 : (2.221e-16 * K + 1.1104e-16) * S = 2.221e-16 * (K * S) + 1.1104e-16 * S := by ring
  rw [m5]
  rw [m6] at m3
  generalize K * S = U at *
  generalize (2.221e-16 * K + 1.1104e-16) * T = V at *
  norm_num at m3 r ⊢
  linarith

theorem coefB (R : Rounding fl) {d D K N : ℝ} (hd : |d - D| ≤ 2.221e-16 * K * |D|) (k1 : 1 ≤ K) (hK1 : K ≤ 10 ^ 12) (hD : 1 / 10 ^ 60 ≤ |D|) (h1 : |N| ≤ 10 ^ 60) :
    |fl (N / d) - N / D| ≤ 4e-16 * K * |N / D| + 1 / 10 ^ 130 := by
  have Dp : 0 < |D| := lt_of_lt_of_le (by norm_num) hD
  have s3 := abs_nonneg N
  have r : 1 / |D| ≤ 10 ^ 60 := by
    rw [div_le_iff₀ Dp]
    have := mul_le_mul_of_nonneg_left hD (by norm_num : (0 : ℝ) ≤ 10 ^ 60)
    norm_num at this ⊢
    linarith
  have n : |N - N| ≤ 0 := by simp
  have q := R.quot n hd (by norm_num at *; linarith) (abs_pos.1 Dp) (by
    rw [div_eq_mul_one_div]
    refine (mul_le_mul (b := 10 ^ 62) ?_ r (by positivity) (by norm_num)).trans (by norm_num)
    norm_num at h1 ⊢
    linarith)
  refine q.trans ?_
  rw [abs_div]
  have m2 : 0 ≤ |N| / |D| := by positivity
  have e : 1.0012 * (0 + (2.221e-16 * K + 1.1104e-16) * |N|) / |D| = 1.0012 * (2.221e-16 * (K * (|N| / |D|)) + 1.1104e-16 * (|N| / |D|)) := by ring
  rw [e, mul_assoc]
  generalize |N| / |D| = S at *
  have m4 := mul_le_mul_of_nonneg_right k1 m2
  rw [one_mul] at m4
  generalize K * S = U at *
  norm_num at m4 ⊢
  linarith

theorem prodErr {q Q x X κ S : ℝ} (hq : |q - Q| ≤ κ * |Q| + 1 / 10 ^ 130) (hx : |x - X| ≤ 3.34e-16 * S + 1 / 10 ^ 199) (hX : |X| ≤ S) (k0 : 0 ≤ κ) (k1 : κ ≤ 4.1e-4)
    (hQ : |Q| ≤ 10 ^ 91) (hS : S ≤ 10 ^ 61) : |q * x - Q * X| ≤ (1.001 * κ + 3.34e-16) * (|Q| * S) + 1 / 10 ^ 68 := by
  have S0 := (abs_nonneg _).trans hX
  have Q0 := abs_nonneg Q
  have xb : |x| ≤ 1.0001 * S + 1 / 10 ^ 199 := by
    have := abs_sub_abs_le_abs_sub x X
    have : 3.34e-16 * S ≤ 0.0001 * S := mul_le_mul_of_nonneg_right (by norm_num) S0
    norm_num at *
    linarith
  have e : q * x - Q * X = (q - Q) * x + Q * (x - X) := by ring
  rw [e]
  refine (abs_add_le _ _).trans ?_
  rw [abs_mul, abs_mul]
  have a := mul_le_mul hq xb (abs_nonneg _) (by positivity)
  have b := mul_le_mul_of_nonneg_left hx Q0
  refine (add_le_add a b).trans ?_
  have e2 : (κ * |Q| + 1 / 10 ^ 130) * (1.0001 * S + 1 / 10 ^ 199) + |Q| * (3.34e-16 * S + 1 / 10 ^ 199) =
      1.0001 * (κ * (|Q| * S)) + (κ * |Q|) * (1 / 10 ^ 199) + 1 / 10 ^ 130 * (1.0001 * S) + 1 / 10 ^ 130 * (1 / 10 ^ 199) + 3.34e-16 * (|Q| * S) + |Q| * (1 / 10 ^ 199) := by ring
  have e3 : (1.001 * κ + 3.34e-16) * (|Q| * S) = 1.001 * (κ * (|Q| * S)) + 3.34e-16 * (|Q| * S) := by ring
  rw [e2, e3]
  have w : 0 ≤ κ * (|Q| * S) := by positivity
  have w2 : κ * |Q| ≤ 4.1e-4 * 10 ^ 91 := mul_le_mul k1 hQ Q0 (by norm_num)
  generalize κ * (|Q| * S) = U at *
  generalize |Q| * S = V at *
  generalize κ * |Q| = W at *
  norm_num at w2 hQ hS ⊢
  linarith

/-- Going back with approximate coefficients from an approximate point. -/
theorem flBack_err (R : Rounding fl) {P p Q q T t X x Y y K Pm Sx Sy : ℝ} (k1 : 1 ≤ K) (hK1 : K ≤ 10 ^ 12) (hP : |P| ≤ Pm) (hPm : Pm ≤ |Q| * Sx + |T| * Sy)
    (hp : |p - P| ≤ 6e-16 * K * Pm + 1 / 10 ^ 130) (hq : |q - Q| ≤ 4e-16 * K * |Q| + 1 / 10 ^ 130) (ht : |t - T| ≤ 4e-16 * K * |T| + 1 / 10 ^ 130)
    (hx : |x - X| ≤ 3.34e-16 * Sx + 1 / 10 ^ 199) (hX : |X| ≤ Sx) (hy : |y - Y| ≤ 3.34e-16 * Sy + 1 / 10 ^ 199) (hY : |Y| ≤ Sy)
    (hQ : |Q| ≤ 10 ^ 91) (hT : |T| ≤ 10 ^ 91) (hSx : Sx ≤ 10 ^ 61) (hSy : Sy ≤ 10 ^ 61) :
    |flLin fl p q t x y - (P + Q * X + T * Y)| ≤ 2.1e-15 * K * (|Q| * Sx + |T| * Sy) + 1 / 10 ^ 60 := by
  have k0 : 0 ≤ 4e-16 * K := by positivity
  have k2 : 4e-16 * K ≤ 4.1e-4 := by norm_num at *; linarith
  have a := prodErr hq hx hX k0 k2 hQ hSx
  have b := prodErr ht hy hY k0 k2 hT hSy
  have Sx0 := (abs_nonneg _).trans hX
  have Sy0 := (abs_nonneg _).trans hY
  have P0 := (abs_nonneg _).trans hP
  have U0 : 0 ≤ |Q| * Sx := by positivity
  have V0 : 0 ≤ |T| * Sy := by positivity
  have U1 : |Q| * Sx ≤ 10 ^ 91 * 10 ^ 61 := mul_le_mul hQ hSx Sx0 (by norm_num)
  have V1 : |T| * Sy ≤ 10 ^ 91 * 10 ^ 61 := mul_le_mul hT hSy Sy0 (by norm_num)
  have qx : |Q * X| ≤ |Q| * Sx := by rw [abs_mul]; exact mul_le_mul_of_nonneg_left hX (abs_nonneg _)
  have ty : |T * Y| ≤ |T| * Sy := by rw [abs_mul]; exact mul_le_mul_of_nonneg_left hY (abs_nonneg _)
  have b1 := abs_sub_abs_le_abs_sub p P
  have b2 := abs_sub_abs_le_abs_sub (q * x) (Q * X)
  have b3 := abs_sub_abs_le_abs_sub (t * y) (T * Y)
  have e1 : 6e-16 * K * Pm = 6e-16 * (K * Pm) := by ring
  have e2 : (1.001 * (4e-16 * K) + 3.34e-16) * (|Q| * Sx) = 4.004e-16 * (K * (|Q| * Sx)) + 3.34e-16 * (|Q| * Sx) := by ring
  have e3 : (1.001 * (4e-16 * K) + 3.34e-16) * (|T| * Sy) = 4.004e-16 * (K * (|T| * Sy)) + 3.34e-16 * (|T| * Sy) := by ring
  have e4 : 2.1e-15 * K * (|Q| * Sx + |T| * Sy) = 2.1e-15 * (K * (|Q| * Sx) + K * (|T| * Sy)) := by ring
  rw [e1] at hp
  rw [e2] at a
  rw [e3] at b
  rw [e4]
  have u1 : K * (|Q| * Sx) ≤ 10 ^ 12 * (|Q| * Sx) := mul_le_mul_of_nonneg_right hK1 U0
  have v1 : K * (|T| * Sy) ≤ 10 ^ 12 * (|T| * Sy) := mul_le_mul_of_nonneg_right hK1 V0
  have u2 : 1 * (|Q| * Sx) ≤ K * (|Q| * Sx) := mul_le_mul_of_nonneg_right k1 U0
  have v2 : 1 * (|T| * Sy) ≤ K * (|T| * Sy) := mul_le_mul_of_nonneg_right k1 V0
  have w2 : K * Pm ≤ K * (|Q| * Sx) + K * (|T| * Sy) := by
    rw [← mul_add]; exact mul_le_mul_of_nonneg_left hPm (by linarith)
  have w1 : K * Pm ≤ 10 ^ 12 * Pm := mul_le_mul_of_nonneg_right hK1 P0
  rw [one_mul] at u2 v2
  have split : |flLin fl p q t x y - (P + Q * X + T * Y)| ≤ |flLin fl p q t x y - (p + q * x + t * y)| + (|p - P| + |q * x - Q * X| + |t * y - T * Y|) := by
    rw [show flLin fl p q t x y - (P + Q * X + T * Y) = (flLin fl p q t x y - (p + q * x + t * y)) + ((p - P) + (q * x - Q * X) + (t * y - T * Y)) by ring]
    refine (abs_add_le _ _).trans ?_
    have := abs_add_three (p - P) (q * x - Q * X) (t * y - T * Y)
    linarith
  generalize K * Pm = KP at *
  generalize K * (|Q| * Sx) = KU at *
  generalize K * (|T| * Sy) = KV at *
  generalize |Q| * Sx = U at *
  generalize |T| * Sy = V at *
  norm_num at hp a b u1 v1 w1 U1 V1
  have L := flLin_err R p q t x y (le_trans (by linarith : _ ≤ (10 : ℝ) ^ 170) (by norm_num)) (le_trans (by linarith : _ ≤ (10 : ℝ) ^ 170) (by norm_num)) (le_trans (by linarith : _ ≤ (10 : ℝ) ^ 170) (by norm_num))
  linarith

end Pal
