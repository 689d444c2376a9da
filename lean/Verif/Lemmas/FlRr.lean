import Verif.Lemmas.FlSmall
import Verif.Lemmas.FlMap
import Verif.Model.FlMoon

/-!
# Errors counted in roundings, relative to a bound of the size of the exact value
-/

namespace Pal
open Real

/-- `x` is `X` to `k` roundings of a number of size `M`, and `X` is no larger than `M`. -/
structure Rr (k M x X : ℝ) : Prop where
  k0 : 0 ≤ k
  k1 : k ≤ 1e10
  M0 : 1e-60 ≤ M
  M1 : M ≤ 1e28
  bd : |X| ≤ M
  err : |x - X| ≤ k * 1.12e-16 * M

namespace Rr

variable {fl : ℝ → ℝ} {L : Libm} {k k1 k2 M M1 M2 x X y Y : ℝ}

theorem Mpos (h : Rr k M x X) : 0 < M := lt_of_lt_of_le (by norm_num) h.M0

theorem xbd (h : Rr k M x X) : |x| ≤ 1.00001 * M := by
  have := abs_add_le (x - X) X
  rw [sub_add_cancel] at this
  have a : k * 1.12e-16 * M ≤ 1e10 * 1.12e-16 * M := mul_le_mul_of_nonneg_right (mul_le_mul_of_nonneg_right h.k1 (by norm_num)) h.Mpos.le
  have := h.err
  have := h.bd
  have := h.Mpos
  linarith

/-- Rounding a number known to k roundings. -/
theorem round (R : Rounding fl) (k' : ℝ) (h : Rr k M x X) (hk : k + 1 ≤ k') (hk' : k' ≤ 1e10) : Rr k' M (fl x) X := by
  refine ⟨by linarith [h.k0], hk', h.M0, h.M1, h.bd, ?_⟩
  have b := h.xbd
  have e := R.err (x := x) (b.trans (le_trans (b := 1e29) (by linarith [h.M1]) (by norm_num)))
  have := abs_sub_le (fl x) x X
  have t : (1 : ℝ) / 10 ^ 200 ≤ 1e-20 * M := le_trans (b := 1e-20 * 1e-60) (by norm_num) (by linarith [h.M0])
  have m := h.Mpos
  have q : (k + 1) * 1.12e-16 * M ≤ k' * 1.12e-16 * M := mul_le_mul_of_nonneg_right (mul_le_mul_of_nonneg_right hk (by norm_num)) m.le
  have := h.err
  generalize (1 : ℝ) / 10 ^ 200 = z at *
  linarith

theorem exact (h : |X| ≤ M) (h0 : 1e-60 ≤ M) (h1 : M ≤ 1e28) : Rr 0 M X X := ⟨le_rfl, by norm_num, h0, h1, h, by simp⟩

theorem cst (R : Rounding fl) (c : ℝ) (h : |c| ≤ M) (h0 : 1e-60 ≤ M) (h1 : M ≤ 1e28) : Rr 1 M (fl c) c := (exact h h0 h1).round R 1 (by norm_num) (by norm_num)

/-- A larger bound. -/
theorem weak (k' M' : ℝ) (h : Rr k M x X) (hM : M ≤ M') (hM' : M' ≤ 1e28) (hk : k * M ≤ k' * M') (hk' : k' ≤ 1e10) : Rr k' M' x X := by
  have m := h.Mpos
  have m' : 0 < M' := lt_of_lt_of_le m hM
  refine ⟨?_, hk', h.M0.trans hM, hM', h.bd.trans hM, ?_⟩
  · by_contra c
    push Not at c
    have : k' * M' < 0 := mul_neg_of_neg_of_pos c m'
    linarith [mul_nonneg h.k0 m.le]
  · have := h.err
    linarith

theorem neg (h : Rr k M x X) : Rr k M (-x) (-X) := ⟨h.k0, h.k1, h.M0, h.M1, by rw [abs_neg]; exact h.bd, by rw [neg_sub_neg, abs_sub_comm]; exact h.err⟩

/-- A product before rounding. -/
theorem mul0 (k M : ℝ) (h : Rr k1 M1 x X) (g : Rr k2 M2 y Y) (hk : 1.00001 * (k1 + k2) ≤ k) (hk' : k ≤ 1e10) (hM : M1 * M2 ≤ M) (hM0 : 1e-60 ≤ M) (hM1 : M ≤ 1e28) : Rr k M (x * y) (X * Y) := by
  have p1 := h.Mpos
  have p2 := g.Mpos
  have P : 0 < M1 * M2 := mul_pos p1 p2
  refine ⟨by linarith [h.k0, g.k0], hk', hM0, hM1, ?_, ?_⟩
  · rw [abs_mul]; exact (mul_le_mul h.bd g.bd (abs_nonneg _) p1.le).trans hM
  · rw [show x * y - X * Y = x * (y - Y) + (x - X) * Y by ring]
    refine (abs_add_le _ _).trans ?_
    rw [abs_mul, abs_mul]
    have a := mul_le_mul h.xbd g.err (abs_nonneg _) (by linarith)
    have b := mul_le_mul h.err g.bd (abs_nonneg _) (mul_nonneg (mul_nonneg h.k0 (by norm_num)) p1.le)
    have q : 1.00001 * (k1 + k2) * (M1 * M2) ≤ k * M := mul_le_mul hk hM P.le (by linarith [h.k0, g.k0])
    have r := mul_nonneg h.k0 P.le
    nlinarith only [a, b, q, r]

theorem mul (R : Rounding fl) (k M : ℝ) (h : Rr k1 M1 x X) (g : Rr k2 M2 y Y) (hk : 1.00001 * (k1 + k2) + 1 ≤ k) (hk' : k ≤ 1e10) (hM : M1 * M2 ≤ M) (hM0 : 1e-60 ≤ M) (hM1 : M ≤ 1e28) : Rr k M (fl (x * y)) (X * Y) :=
  (mul0 (k - 1) M h g (by linarith) (by linarith) hM hM0 hM1).round R k (by linarith) hk'

theorem add (R : Rounding fl) (k M : ℝ) (h : Rr k1 M1 x X) (g : Rr k2 M2 y Y) (hk : k1 * M1 + k2 * M2 ≤ (k - 1) * M) (hk1 : 1 ≤ k) (hk' : k ≤ 1e10) (hM : M1 + M2 ≤ M) (hM1 : M ≤ 1e28) : Rr k M (fl (x + y)) (X + Y) := by
  refine Rr.round (k := k - 1) R k ⟨by linarith, by linarith, by linarith [h.M0, g.Mpos], hM1, ?_, ?_⟩ (by linarith) hk'
  · exact (abs_add_le _ _).trans (by linarith [h.bd, g.bd])
  · rw [show x + y - (X + Y) = (x - X) + (y - Y) by ring]
    refine (abs_add_le _ _).trans ?_
    have := h.err
    have := g.err
    nlinarith only [h.err, g.err, hk]

theorem sub (R : Rounding fl) (k M : ℝ) (h : Rr k1 M1 x X) (g : Rr k2 M2 y Y) (hk : k1 * M1 + k2 * M2 ≤ (k - 1) * M) (hk1 : 1 ≤ k) (hk' : k ≤ 1e10) (hM : M1 + M2 ≤ M) (hM1 : M ≤ 1e28) : Rr k M (fl (x - y)) (X - Y) := by
  rw [sub_eq_add_neg, sub_eq_add_neg]
  exact add R k M h g.neg hk hk1 hk' hM hM1

theorem sin (hL : LibmOK L) (k' : ℝ) (h : Rr k M x X) (hk : k * M + 2.06 ≤ k') (hk' : k' ≤ 1e10) : Rr k' 1 (L.sin x) (Real.sin X) := by
  refine ⟨by linarith [mul_nonneg h.k0 h.Mpos.le], hk', by norm_num, by norm_num, abs_sin_le_one _, ?_⟩
  have a := hL.sin x
  have b := abs_sin_sub_sin_le x X
  have := abs_sub_le (L.sin x) (Real.sin x) (Real.sin X)
  have := h.err
  linarith

theorem cos (hL : LibmOK L) (k' : ℝ) (h : Rr k M x X) (hk : k * M + 2.06 ≤ k') (hk' : k' ≤ 1e10) : Rr k' 1 (L.cos x) (Real.cos X) := by
  refine ⟨by linarith [mul_nonneg h.k0 h.Mpos.le], hk', by norm_num, by norm_num, abs_cos_le_one _, ?_⟩
  have a := hL.cos x
  have b := abs_cos_sub_cos_le x X
  have := abs_sub_le (L.cos x) (Real.cos x) (Real.cos X)
  have := h.err
  linarith

/-- A quotient by a number that is at least `m`. -/
theorem div (R : Rounding fl) (k M m : ℝ) (h : Rr k1 M1 x X) (g : Rr k2 M2 y Y) (m0 : 0 < m) (hm : m ≤ |Y|) (hs : k2 * 1.12e-16 * M2 ≤ 1e-5 * m) (hk : 1.00003 * (k1 * M1 / m + k2 * M2 * M1 / m / m) ≤ (k - 1) * M)
    (hk1 : 1 ≤ k) (hk' : k ≤ 1e10) (hM : M1 / m ≤ M) (hM0 : 1e-60 ≤ M) (hM1 : M ≤ 1e28) : Rr k M (fl (x / y)) (X / Y) := by
  have Yp : 0 < |Y| := lt_of_lt_of_le m0 hm
  have p1 := h.Mpos
  have y1 : 0.99999 * |Y| ≤ |y| := by
    have := abs_sub_abs_le_abs_sub Y y
    rw [abs_sub_comm] at this
    linarith [g.err]
  have yp : 0 < |y| := by linarith
  have bX : |X / Y| ≤ M1 / m := by rw [abs_div]; exact div_le_div₀ p1.le h.bd m0 hm
  refine Rr.round (k := k - 1) R k ⟨by linarith, by linarith, hM0, hM1, bX.trans hM, ?_⟩ (by linarith) hk'
  have e : x / y - X / Y = ((x - X) - X / Y * (y - Y)) / y := by
    have : y ≠ 0 := abs_pos.1 yp
    have : Y ≠ 0 := abs_pos.1 Yp
    field_simp
    ring
  rw [e, abs_div, div_le_iff₀ yp]
  have a := abs_sub (x - X) (X / Y * (y - Y))
  rw [abs_mul] at a
  have b := mul_le_mul bX g.err (abs_nonneg _) (by positivity)
  have c := h.err
  have lhs : |x - X - X / Y * (y - Y)| ≤ 1.12e-16 * (k1 * M1 + k2 * M2 * M1 / m) := by
    refine (a.trans (add_le_add c b)).trans (le_of_eq ?_)
    ring
  have d : 1.00003 * (k1 * M1 + k2 * M2 * M1 / m) ≤ (k - 1) * M * m := by
    have := mul_le_mul_of_nonneg_right hk m0.le
    rw [show 1.00003 * (k1 * M1 / m + k2 * M2 * M1 / m / m) * m = 1.00003 * (k1 * M1 + k2 * M2 * M1 / m) by field_simp] at this
    exact this
  have kM : 0 ≤ (k - 1) * M := mul_nonneg (by linarith) (by linarith)
  have f : (k - 1) * M * (0.99999 * m) ≤ (k - 1) * M * |y| := mul_le_mul_of_nonneg_left (by linarith) kM
  have f2 : 0 ≤ (k - 1) * M * m := mul_nonneg kM m0.le
  nlinarith only [lhs, d, f, f2]

end Rr

end Pal
