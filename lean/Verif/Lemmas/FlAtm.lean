import Verif.Model.FlAtm
import Verif.Lemmas.FlMap
import Mathlib.Analysis.Calculus.MeanValue
import Mathlib.Analysis.SpecialFunctions.Pow.Deriv

/-!
# The model atmosphere in double precision: error bounds
-/

namespace Pal
open Real
variable {fl : ℝ → ℝ}

/-- A rounded quotient with explicit bounds. -/
theorem Rounding.divB (R : Rounding fl) {a A b B α β m Q : ℝ} (ε : ℝ) (ha : |a - A| ≤ α) (hb : |b - B| ≤ β) (hm : 0 < m) (hm1 : m + β ≤ B) (hQ : |A / B| ≤ Q) (h29 : Q + (α + Q * β) / m ≤ 10 ^ 29)
    (he : (α + Q * β) / m + 1.1103e-16 * (Q + (α + Q * β) / m) + 1e-190 ≤ ε) : |fl (a / b) - A / B| ≤ ε := by
  refine R.add_err2 (δ := (α + Q * β) / m) (B := Q) ε ?_ hQ h29 he
  have β0 := (abs_nonneg _).trans hb
  have B0 : 0 < B := by linarith
  have b1 : m ≤ b := by have := abs_le.1 hb; linarith
  have b0 : 0 < b := by linarith
  have e : a / b - A / B = ((a - A) - A / B * (b - B)) / b := by field_simp; ring
  rw [e, abs_div, abs_of_pos b0]
  have n : |a - A - A / B * (b - B)| ≤ α + Q * β := by
    refine (abs_sub _ _).trans ?_
    rw [abs_mul]
    have := mul_le_mul hQ hb (abs_nonneg _) ((abs_nonneg _).trans hQ)
    linarith
  exact div_le_div₀ ((abs_nonneg _).trans n) n hm b1

/-- A power is Lipschitz on (0, 1.00001]. -/
theorem rpow_lip {x X g : ℝ} (hx : 0 < x) (hx1 : x ≤ 1.00001) (hX : 0 < X) (hX1 : X ≤ 1.00001) (hg : 1 ≤ g) (hg1 : g ≤ 33) : |x ^ g - X ^ g| ≤ 33.1 * |x - X| := by
  have d : ∀ y ∈ Set.Ioc (0 : ℝ) 1.00001, HasDerivWithinAt (fun y : ℝ => y ^ g) (g * y ^ (g - 1)) (Set.Ioc 0 1.00001) y := fun y hy =>
    (Real.hasDerivAt_rpow_const (Or.inl hy.1.ne')).hasDerivWithinAt
  have b : ∀ y ∈ Set.Ioc (0 : ℝ) 1.00001, ‖g * y ^ (g - 1)‖ ≤ 33.1 := by
    intro y hy
    have y0 := rpow_nonneg hy.1.le (g - 1)
    rw [Real.norm_eq_abs, abs_of_nonneg (mul_nonneg (by linarith) y0)]
    have p1 : y ^ (g - 1) ≤ 1.00001 ^ (g - 1) := rpow_le_rpow hy.1.le hy.2 (by linarith)
    have p2 : (1.00001 : ℝ) ^ (g - 1) ≤ 1.00001 ^ (32 : ℝ) := rpow_le_rpow_of_exponent_le (by norm_num) (by linarith)
    have p3 : (1.00001 : ℝ) ^ (32 : ℝ) ≤ 1.0004 := by
      rw [show (32 : ℝ) = ((32 : ℕ) : ℝ) by norm_num, rpow_natCast]; norm_num
    have := mul_le_mul hg1 (p1.trans (p2.trans p3)) y0 (by norm_num)
    exact this.trans (by norm_num)
  have := Convex.norm_image_sub_le_of_norm_hasDerivWithin_le d b (convex_Ioc 0 1.00001) (x := X) (y := x) ⟨hX, hX1⟩ ⟨hx, hx1⟩
  simpa [Real.norm_eq_abs] using this

/-- The library power of a computed number. -/
theorem pw_err {pw : ℝ → ℝ → ℝ} (hp : PowOK pw) {x X g : ℝ} (h : |x - X| ≤ 1.4e-15) (hX : 0.2 ≤ X) (hX1 : X ≤ 1) (hg : 1 ≤ g) (hg1 : g ≤ 33) : |pw x g - X ^ g| ≤ 4.7e-14 ∧ |X ^ g| ≤ 1 := by
  have h' := abs_le.1 h
  have x0 : 0 < x := by linarith
  have x1 : x ≤ 1.00001 := by linarith
  have l := rpow_lip x0 x1 (by linarith : 0 < X) (by linarith) hg hg1
  have X0 := rpow_nonneg (by linarith : (0 : ℝ) ≤ X) g
  have X1 := rpow_le_one (by linarith : (0 : ℝ) ≤ X) hX1 (by linarith : 0 ≤ g)
  refine ⟨?_, by rwa [abs_of_nonneg X0]⟩
  have q := hp x g x0.le
  have := abs_sub_le (pw x g) (x ^ g) (X ^ g)
  have u : x ^ g ≤ 1.001 := by
    have := abs_le.1 l
    linarith
  linarith

/-- The library exponential of a computed number. -/
theorem ex_err {ex : ℝ → ℝ} (he : ExpOK ex) {x X δ : ℝ} (h : |x - X| ≤ δ) (hX : X ≤ 0) (hδ : δ ≤ 1e-6) : |ex x - exp X| ≤ 1.00001 * δ + 2.4e-16 ∧ |exp X| ≤ 1 := by
  have X0 := exp_pos X
  have X1 : exp X ≤ 1 := exp_le_one_iff.2 hX
  refine ⟨?_, by rwa [abs_of_pos X0]⟩
  have d0 := (abs_nonneg _).trans h
  have h' := abs_le.1 h
  have e1 : |exp (x - X) - 1| ≤ 1.00001 * δ := by
    have a := Real.abs_exp_sub_one_sub_id_le (x := x - X) (by linarith)
    have b : (x - X) ^ 2 ≤ 1e-6 * δ := by rw [← sq_abs, sq]; exact mul_le_mul (h.trans hδ) h (abs_nonneg _) (by norm_num)
    have := abs_add_le (exp (x - X) - 1 - (x - X)) (x - X)
    rw [sub_add_cancel] at this
    linarith
  have e2 : exp x - exp X = exp X * (exp (x - X) - 1) := by rw [mul_sub, ← exp_add]; ring_nf
  have e3 : |exp x - exp X| ≤ 1.00001 * δ := by
    rw [e2, abs_mul, abs_of_pos X0]
    have := mul_le_mul X1 e1 (abs_nonneg _) (by norm_num)
    linarith
  have e4 : exp x ≤ 1.0001 := by have := abs_le.1 e3; linarith
  have := he x
  have := abs_sub_le (ex x) (exp x) (exp X)
  linarith

end Pal
