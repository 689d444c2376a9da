import Verif.Model.FlAngle
import Verif.Lemmas.FlSexa
import Mathlib.Analysis.Real.Pi.Bounds

/-! # Helper lemmas for angles in double precision -/

namespace Pal

theorem absmul {x p : ℝ} (hp : 0 < p) : |x| * p = |x * p| := by rw [abs_mul, abs_of_pos hp]

/-- The double nearest to a number. -/
theorem Rounding.eq_best {fl : ℝ → ℝ} (R : Rounding fl) (x : ℝ) (m e : ℤ) (hx : |x| ≤ 10 ^ 30) (hm : 2 ^ 52 < m) (hm2 : m ≤ 2 ^ 53) (he : -1074 ≤ e) (h : |m * 2 ^ e - x| < 2 ^ e / 2) :
    fl x = m * 2 ^ e := by
  obtain ⟨m', e', h1, h2, h3⟩ := R.rep x (big_le hx)
  have hb := R.best x (big_le hx) m e (by rw [abs_of_pos (by omega)]; exact hm2) he
  have hp : (0 : ℝ) < 2 ^ e := by positivity
  have hp' : (0 : ℝ) < 2 ^ e' := by positivity
  have hmr : (2 : ℝ) ^ 52 + 1 ≤ m := by exact_mod_cast (show (2 : ℤ) ^ 52 + 1 ≤ m by omega)
  have hd : |(m' : ℝ) * 2 ^ e' - m * 2 ^ e| < 2 ^ e := by
    rw [← h3]
    calc |fl x - m * 2 ^ e| ≤ |fl x - x| + |x - m * 2 ^ e| := abs_sub_le _ _ _
      _ < 2 ^ e := by rw [abs_sub_comm x]; linarith
  have hd' := abs_lt.1 hd
  have hlow : (2 : ℝ) ^ 52 * 2 ^ e < m' * 2 ^ e' := by nlinarith
  have hee : e ≤ e' := by
    by_contra hc
    have h4 : (2 : ℝ) ^ e' ≤ 2 ^ (e - 1) := zpow_le_zpow_right₀ (by norm_num) (by omega)
    rw [zpow_sub₀ (by norm_num), zpow_one] at h4
    have h5 : (m' : ℝ) ≤ 2 ^ 53 := by exact_mod_cast (abs_le.1 h1).2
    have : (m' : ℝ) * 2 ^ e' ≤ 2 ^ 53 * (2 ^ e / 2) := mul_le_mul h5 h4 hp'.le (by norm_num)
    nlinarith
  obtain ⟨n, hn⟩ := Int.eq_ofNat_of_zero_le (show 0 ≤ e' - e by omega)
  have e1 : (m' : ℝ) * 2 ^ e' = ((m' * 2 ^ n : ℤ) : ℝ) * 2 ^ e := by
    have : e' = n + e := by omega
    rw [this, zpow_add₀ (by norm_num)]; push_cast; rw [zpow_natCast]; ring
  rw [e1, ← sub_mul, abs_mul, abs_of_pos hp] at hd
  have hd2 : |((m' * 2 ^ n : ℤ) : ℝ) - m| < 1 := by
    by_contra hc
    have : 1 * (2 : ℝ) ^ e ≤ |((m' * 2 ^ n : ℤ) : ℝ) - m| * 2 ^ e := mul_le_mul_of_nonneg_right (by linarith) hp.le
    linarith
  have hd3 : |m' * 2 ^ n - m| < 1 := by exact_mod_cast hd2
  have : m' * 2 ^ n = m := by have := abs_lt.1 hd3; omega
  rw [h3, e1, this]

/-- The stored value of 2π. -/
noncomputable def D2 : ℝ := 884279719003555 / 2 ^ 47

theorem flPal2PI_eq {fl : ℝ → ℝ} (R : Rounding fl) : flPal2PI fl = D2 := by
  unfold flPal2PI D2
  rw [R.eq_best _ 7074237752028440 (-50) (by rw [abs_of_pos (by norm_num)]; norm_num) (by norm_num) (by norm_num) (by norm_num) (by rw [abs_lt]; constructor <;> norm_num)]
  norm_num

theorem flD2PI_eq {fl : ℝ → ℝ} (R : Rounding fl) : flD2PI fl = D2 := by
  unfold flD2PI D2
  rw [R.eq_best _ 7074237752028440 (-50) (by rw [abs_of_pos (by norm_num)]; norm_num) (by norm_num) (by norm_num) (by norm_num) (by rw [abs_lt]; constructor <;> norm_num)]
  norm_num

theorem flPalPI_eq {fl : ℝ → ℝ} (R : Rounding fl) : flPalPI fl = D2 / 2 := by
  unfold flPalPI D2
  rw [R.eq_best _ 7074237752028440 (-51) (by rw [abs_of_pos (by norm_num)]; norm_num) (by norm_num) (by norm_num) (by norm_num) (by rw [abs_lt]; constructor <;> norm_num)]
  norm_num

theorem D2_pos : 0 < D2 := by unfold D2; norm_num
theorem D2_b : 6.28 < D2 ∧ D2 < 6.29 := by unfold D2; constructor <;> norm_num

/-- 2π exceeds its stored value by a quarter of a unit in the last place. -/
theorem D2_pi : 0 < 2 * Real.pi - D2 ∧ 2 * Real.pi - D2 < 2.45e-16 := by
  have h1 := Real.pi_gt_d20
  have h2 := Real.pi_lt_d20
  unfold D2
  constructor <;> norm_num at * <;> linarith

theorem fmod_bounds (x y : ℝ) (hy : 0 < y) : |fmod x y| < y ∧ |fmod x y| ≤ |x| ∧ (0 ≤ x → 0 ≤ fmod x y) ∧ (x ≤ 0 → fmod x y ≤ 0) ∧ |(truncR (x / y) : ℝ)| * y ≤ |x| := by
  unfold fmod truncR
  split_ifs with h
  · have hx : 0 ≤ x := by
      by_contra hc
      have := div_neg_of_neg_of_pos (not_le.1 hc) hy
      linarith
    have f1 := Int.floor_le (x / y)
    have f2 := Int.lt_floor_add_one (x / y)
    have f3 : (0 : ℝ) ≤ ⌊x / y⌋ := by exact_mod_cast Int.floor_nonneg.2 h
    have g1 : y * ⌊x / y⌋ ≤ x := by rw [mul_comm]; exact (le_div_iff₀ hy).1 f1
    have g2 : x < y * (⌊x / y⌋ + 1) := by rw [mul_comm]; exact (div_lt_iff₀ hy).1 f2
    have g3 : 0 ≤ y * ⌊x / y⌋ := mul_nonneg hy.le f3
    rw [abs_of_nonneg (by linarith : 0 ≤ x - y * ⌊x / y⌋), abs_of_nonneg hx, abs_of_nonneg f3]
    exact ⟨by linarith, by linarith, fun _ => by linarith, fun h => by linarith, by linarith⟩
  · have h := not_le.1 h
    have hx : x < 0 := by
      by_contra hc
      have := div_nonneg (not_lt.1 hc) hy.le
      linarith
    have f1 := Int.le_ceil (x / y)
    have f2 := Int.ceil_lt_add_one (x / y)
    have f3 : (⌈x / y⌉ : ℝ) ≤ 0 := by
      have : ⌈x / y⌉ ≤ 0 := Int.ceil_le.2 (by push_cast; exact h.le)
      exact_mod_cast this
    have g1 : x ≤ y * ⌈x / y⌉ := by rw [mul_comm]; exact (div_le_iff₀ hy).1 f1
    have g2 : y * (⌈x / y⌉ - 1) < x := by rw [mul_comm]; exact (lt_div_iff₀ hy).1 (by linarith)
    have g3 : y * ⌈x / y⌉ ≤ 0 := mul_nonpos_of_nonneg_of_nonpos hy.le f3
    rw [abs_of_nonpos (by linarith : x - y * ⌈x / y⌉ ≤ 0), abs_of_neg hx, abs_of_nonpos f3]
    exact ⟨by linarith, by linarith, fun h => by linarith, fun _ => by linarith, by linarith⟩

/-- A number that leaves a whole number of turns and is no larger is a double too. -/
theorem double_congr {fl : ℝ → ℝ} (R : Rounding fl) (a r : ℝ) (k : ℤ) (ha : fl a = a) (hab : |a| ≤ 2 ^ 1000) (hr : r = a - k * D2) (h1 : |r| ≤ |a|) (h2 : |r| ≤ D2) : fl r = r := by
  obtain ⟨m, e, hm, he, hae⟩ := R.rep a hab
  rw [ha] at hae
  rcases le_or_gt (-47) e with h | h
  · obtain ⟨n, hn⟩ := Int.eq_ofNat_of_zero_le (show 0 ≤ e + 47 by omega)
    have e1 : r = ((m * 2 ^ n - k * 884279719003555 : ℤ) : ℝ) * 2 ^ (-47 : ℤ) := by
      rw [hr, hae]
      have : e = n + (-47) := by omega
      rw [this, zpow_add₀ (by norm_num)]
      unfold D2
      push_cast; rw [zpow_natCast]; ring
    have hp : (0 : ℝ) < 2 ^ (-47 : ℤ) := by positivity
    have hint : |m * 2 ^ n - k * 884279719003555| ≤ 2 ^ 53 := by
      have h3 : |((m * 2 ^ n - k * 884279719003555 : ℤ) : ℝ)| * 2 ^ (-47 : ℤ) ≤ D2 := by
        rw [absmul hp, ← e1]; exact h2
      have h4 : D2 = 884279719003555 * 2 ^ (-47 : ℤ) := by unfold D2; norm_num
      rw [h4] at h3
      have h5 := le_of_mul_le_mul_right h3 hp
      have h6 : |((m * 2 ^ n - k * 884279719003555 : ℤ) : ℝ)| ≤ 2 ^ 53 := h5.trans (by norm_num)
      exact_mod_cast h6
    rw [e1]
    refine R.keep _ _ hint (by norm_num) ?_
    rw [absmul hp, ← e1]
    exact h1.trans hab
  · obtain ⟨n, hn⟩ := Int.eq_ofNat_of_zero_le (show 0 ≤ -47 - e by omega)
    have e1 : r = ((m - k * 884279719003555 * 2 ^ n : ℤ) : ℝ) * 2 ^ e := by
      rw [hr, hae]
      have h4 : D2 = 884279719003555 * 2 ^ (-47 : ℤ) := by unfold D2; norm_num
      have : (-47 : ℤ) = n + e := by omega
      rw [h4, this, zpow_add₀ (by norm_num)]
      push_cast; rw [zpow_natCast]; ring
    have hp : (0 : ℝ) < 2 ^ e := by positivity
    have hint : |m - k * 884279719003555 * 2 ^ n| ≤ 2 ^ 53 := by
      have h3 : |((m - k * 884279719003555 * 2 ^ n : ℤ) : ℝ)| * 2 ^ e ≤ |(m : ℝ)| * 2 ^ e := by
        rw [absmul hp, absmul hp, ← e1, ← hae]; exact h1
      have h5 := le_of_mul_le_mul_right h3 hp
      have h6 : |m - k * 884279719003555 * 2 ^ n| ≤ |m| := by exact_mod_cast h5
      exact h6.trans hm
    rw [e1]
    refine R.keep _ _ hint he ?_
    rw [absmul hp, ← e1]
    exact h1.trans hab

end Pal

namespace Pal

/-- Rounding adds little to an absolute error. -/
theorem Rounding.add_err {fl : ℝ → ℝ} (R : Rounding fl) {x X δ B : ℝ} (δ' : ℝ) (h : |x - X| ≤ δ) (hX : |X| ≤ B) (hB : 1 ≤ B) (hu : B + δ ≤ 10 ^ 29) (hd : δ + 1.1104e-16 * (B + δ) ≤ δ') :
    |fl x - X| ≤ δ' := by
  have d0 : 0 ≤ δ := (abs_nonneg _).trans h
  have hx : |x| ≤ B + δ := by
    have := abs_add_le X (x - X)
    rw [add_sub_cancel] at this
    linarith
  have e := R.err (x := x) (hx.trans (hu.trans (by norm_num)))
  have z : (1 : ℝ) / 10 ^ 200 ≤ 1e-20 := by norm_num
  generalize (1 : ℝ) / 10 ^ 200 = z' at *
  have h1 : (1.1103e-16 : ℝ) * |x| ≤ 1.1103e-16 * (B + δ) := mul_le_mul_of_nonneg_left hx (by norm_num)
  have := abs_sub_le (fl x) x X
  norm_num at *
  linarith

end Pal
