import Verif.Lemmas.FlSexa
import Mathlib.Analysis.SpecialFunctions.Pow.Real

/-! # Relative errors of positive quantities -/

namespace Pal

/-- `x` is the positive number `X` with a relative error of at most `e`. -/
structure Near (e x X : ℝ) : Prop where
  pos : 0 < X
  e0 : 0 ≤ e
  e1 : e ≤ 1 / 1000
  err : |x - X| ≤ e * X

theorem le_of_sq_le_sq' {x y : ℝ} (h : x ^ 2 ≤ y ^ 2) (hy : 0 ≤ y) : x ≤ y := le_of_pow_le_pow_left₀ (by norm_num) hy h

namespace Near
variable {e e1 e2 x y X Y : ℝ}

theorem lo (h : Near e x X) : (1 - e) * X ≤ x := by have := abs_le.1 h.err; linarith
theorem hi (h : Near e x X) : x ≤ (1 + e) * X := by have := abs_le.1 h.err; linarith
theorem lo' (h : Near e x X) : 0.999 * X ≤ x := le_trans (mul_le_mul_of_nonneg_right (by linarith [h.e1]) h.pos.le) h.lo
theorem hi' (h : Near e x X) : x ≤ 1.001 * X := h.hi.trans (mul_le_mul_of_nonneg_right (by linarith [h.e1]) h.pos.le)
theorem xpos (h : Near e x X) : 0 < x := lt_of_lt_of_le (mul_pos (by norm_num) h.pos) h.lo'

theorem refl (h : 0 < X) : Near 0 X X := ⟨h, le_rfl, by norm_num, by simp⟩

theorem mono (h : Near e x X) (h1 : e ≤ e1) (h2 : e1 ≤ 1 / 1000) : Near e1 x X :=
  ⟨h.pos, h.e0.trans h1, h2, h.err.trans (mul_le_mul_of_nonneg_right h1 h.pos.le)⟩

theorem mul (e : ℝ) (h : Near e1 x X) (k : Near e2 y Y) (he : e1 + 1.001 * e2 ≤ e) (he' : e ≤ 1 / 1000) : Near e (x * y) (X * Y) := by
  refine ⟨mul_pos h.pos k.pos, by linarith [h.e0, k.e0], he', ?_⟩
  have a : x * y - X * Y = (x - X) * Y + x * (y - Y) := by ring
  rw [a]
  refine (abs_add_le _ _).trans ?_
  rw [abs_mul, abs_mul, abs_of_pos k.pos, abs_of_pos h.xpos]
  have b1 := mul_le_mul_of_nonneg_right h.err k.pos.le
  have b2 : x * |y - Y| ≤ (1.001 * X) * (e2 * Y) := mul_le_mul h.hi' k.err (abs_nonneg _) (mul_nonneg (by norm_num) h.pos.le)
  have b3 : (e1 + 1.001 * e2) * (X * Y) ≤ e * (X * Y) := mul_le_mul_of_nonneg_right he (mul_pos h.pos k.pos).le
  linarith

theorem div (e : ℝ) (h : Near e1 x X) (k : Near e2 y Y) (he : 1.002 * (e1 + e2) ≤ e) (he' : e ≤ 1 / 1000) : Near e (x / y) (X / Y) := by
  have Yp := k.pos
  have Xp := h.pos
  have yp := k.xpos
  refine ⟨div_pos Xp Yp, by linarith [h.e0, k.e0], he', ?_⟩
  have a : x / y - X / Y = ((x - X) * Y - X * (y - Y)) / (y * Y) := by field_simp; ring
  rw [a, abs_div, abs_of_pos (mul_pos yp Yp), div_le_iff₀ (mul_pos yp Yp)]
  have b0 : |(x - X) * Y - X * (y - Y)| ≤ (e1 + e2) * (X * Y) := by
    refine (abs_sub _ _).trans ?_
    rw [abs_mul, abs_mul, abs_of_pos Yp, abs_of_pos Xp]
    have b1 := mul_le_mul_of_nonneg_right h.err Yp.le
    have b2 := mul_le_mul_of_nonneg_left k.err Xp.le
    linarith
  have b4 : e * (X / Y) * (y * Y) = e * X * y := by field_simp
  rw [b4]
  refine b0.trans ?_
  have b5 : e * X * (0.999 * Y) ≤ e * X * y := mul_le_mul_of_nonneg_left k.lo' (mul_nonneg (by linarith [h.e0, k.e0]) Xp.le)
  have b6 : (1.002 * (e1 + e2)) * (X * Y) ≤ e * (X * Y) := mul_le_mul_of_nonneg_right he (mul_pos Xp Yp).le
  have b7 : 0 ≤ (e1 + e2) * (X * Y) := mul_nonneg (by linarith [h.e0, k.e0]) (mul_pos Xp Yp).le
  linarith

theorem add (e : ℝ) (h : Near e1 x X) (k : Near e2 y Y) (he : e1 ≤ e) (he2 : e2 ≤ e) (he' : e ≤ 1 / 1000) : Near e (x + y) (X + Y) := by
  refine ⟨add_pos h.pos k.pos, h.e0.trans he, he', ?_⟩
  have a : x + y - (X + Y) = (x - X) + (y - Y) := by ring
  rw [a]
  refine (abs_add_le _ _).trans ?_
  have b1 := mul_le_mul_of_nonneg_right he h.pos.le
  have b2 := mul_le_mul_of_nonneg_right he2 k.pos.le
  linarith [h.err, k.err]

theorem sqrt (h : Near e x X) : Near e (√x) (√X) := by
  have s := Real.sqrt_pos.2 h.pos
  refine ⟨s, h.e0, h.e1, ?_⟩
  have a1 := Real.mul_self_sqrt h.pos.le
  have a2 := Real.mul_self_sqrt h.xpos.le
  have s2 := Real.sqrt_nonneg x
  have a : |√x - √X| * (√x + √X) ≤ e * √X * √X := by
    rw [← abs_of_pos (by linarith : 0 < √x + √X), ← abs_mul, show (√x - √X) * (√x + √X) = √x * √x - √X * √X by ring, a1, a2, mul_assoc, a1]
    exact h.err
  have b : |√x - √X| * √X ≤ |√x - √X| * (√x + √X) := mul_le_mul_of_nonneg_left (by linarith) (abs_nonneg _)
  exact le_of_mul_le_mul_right (b.trans a) s

theorem fl {f : ℝ → ℝ} (R : Rounding f) (e1 : ℝ) (h : Near e x X) (h0 : 1 / 10 ^ 90 ≤ X) (h1 : X ≤ 10 ^ 29) (he : e + 1.1116e-16 ≤ e1) (he' : e1 ≤ 1 / 1000) : Near e1 (f x) X := by
  refine ⟨h.pos, by linarith [h.e0], he', ?_⟩
  have r := R.rel (x := x) (by
    rw [abs_of_pos h.xpos]
    refine le_trans ?_ h.lo'
    have := mul_le_mul_of_nonneg_left h0 (show (0 : ℝ) ≤ 0.999 by norm_num)
    refine le_trans (by norm_num) this) (by
    rw [abs_of_pos h.xpos]
    refine h.hi'.trans ?_
    have := mul_le_mul_of_nonneg_left h1 (show (0 : ℝ) ≤ 1.001 by norm_num)
    refine le_trans this (by norm_num))
  rw [abs_of_pos h.xpos] at r
  have a : f x - X = (f x - x) + (x - X) := by ring
  rw [a]
  refine (abs_add_le _ _).trans ?_
  have b1 := mul_le_mul_of_nonneg_left h.hi' (show (0 : ℝ) ≤ 1.1104e-16 by norm_num)
  have b2 := mul_le_mul_of_nonneg_right he h.pos.le
  have b3 := h.pos
  linarith [h.err]

end Near

end Pal
