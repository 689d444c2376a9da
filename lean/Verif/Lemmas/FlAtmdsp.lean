import Verif.Model.FlAtmdsp
import Verif.Lemmas.FlRefr
import Verif.Lemmas.FlMap
import Verif.Lemmas.FlFit
import Verif.Lemmas.FlPcd5

/-!
# palAtmdsp in double precision: error bounds
-/

namespace Pal
open Real

variable {fl : ℝ → ℝ} {pw : ℝ → ℝ → ℝ}

/-- A stored constant. -/
theorem near_cst (R : Rounding fl) {c : ℝ} (h0 : 1 / 10 ^ 90 ≤ c) (h1 : c ≤ 10 ^ 29) : Near 1.112e-16 (fl c) c :=
  (Near.refl (lt_of_lt_of_le (by positivity) h0)).fl R 1.112e-16 h0 h1 (by norm_num) (by norm_num)

/-- W2 of exact arithmetic. -/
noncomputable def atmdspW2 (wl : ℝ) : ℝ :=
  77.5317e-6 + (0.43909e-6 + 0.00367e-6 / (max wl 0.1 * max wl 0.1)) / (max wl 0.1 * max wl 0.1)

/-- W1 of exact arithmetic. -/
noncomputable def atmdspW1 (tdk rh : ℝ) : ℝ := 11.2684e-6 * (min (max rh 0) 1 * (10 : ℝ) ^ (-8.7115 + 0.03477 * min (max tdk 100) 500))

theorem atmdspDn_eq (tdk pmb rh wl : ℝ) : atmdspDn tdk pmb rh wl = (atmdspW2 wl * min (max pmb 0) 10000 - atmdspW1 tdk rh) / min (max tdk 100) 500 := rfl

theorem flAtmdspW2_near (R : Rounding fl) (wl : ℝ) (h : wl ≤ 100) : Near 1.25e-15 (flAtmdspW2 fl wl) (atmdspW2 wl) ∧ 7.75e-5 ≤ atmdspW2 wl ∧ atmdspW2 wl ≤ 1.6e-4 := by
  have c := near_cst R (c := 0.1) (by norm_num) (by norm_num)
  have w0 : (0.1 : ℝ) ≤ max wl 0.1 := le_max_right _ _
  have w1 : max wl 0.1 ≤ 100 := max_le h (by norm_num)
  have nw : Near 1.112e-16 (max wl (fl 0.1)) (max wl 0.1) := by
    refine ⟨by linarith, by norm_num, by norm_num, ?_⟩
    refine (abs_max_sub_max_le_max _ _ _ _).trans ?_
    rw [sub_self, abs_zero]
    refine max_le (by positivity) (c.err.trans ?_)
    exact mul_le_mul_of_nonneg_left w0 (by norm_num)
  unfold flAtmdspW2 atmdspW2
  dsimp only
  generalize max wl (fl 0.1) = x at *
  generalize max wl 0.1 = X at *
  have q0 : (0.01 : ℝ) ≤ X * X := by nlinarith only [w0]
  have q1 : X * X ≤ 10000 := by nlinarith only [w0, w1]
  have nq := (nw.mul 2.23e-16 nw (by norm_num) (by norm_num)).fl R 3.35e-16 (le_trans (by norm_num) q0) (q1.trans (by norm_num)) (by norm_num) (by norm_num)
  generalize fl (x * x) = q at *
  generalize X * X = Q at *
  have Q0 : 0 < Q := by linarith
  have k1 := near_cst R (c := 0.00367e-6) (by norm_num) (by norm_num)
  have d0 : (1e-14 : ℝ) ≤ 0.00367e-6 / Q := by rw [le_div_iff₀ Q0]; linarith
  have d1 : (0.00367e-6 : ℝ) / Q ≤ 3.67e-7 := by rw [div_le_iff₀ Q0]; linarith
  have n1 := (k1.div 4.472e-16 nq (by norm_num) (by norm_num)).fl R 5.584e-16 (le_trans (by norm_num) d0) (d1.trans (by norm_num)) (by norm_num) (by norm_num)
  have k2 := near_cst R (c := 0.43909e-6) (by norm_num) (by norm_num)
  have n2 := (k2.add 5.584e-16 n1 (by norm_num) (by norm_num) (by norm_num)).fl R 6.7e-16 (by refine le_trans (b := 1e-7) (by norm_num) (by linarith)) (by refine le_trans (b := 1) (by linarith) (by norm_num)) (by norm_num) (by norm_num)
  generalize fl (fl 0.43909e-6 + fl (fl 0.00367e-6 / q)) = u at *
  obtain ⟨U, hU⟩ : ∃ U, U = 0.43909e-6 + 0.00367e-6 / Q := ⟨_, rfl⟩
  rw [← hU] at n2 ⊢
  have e0 : (1e-12 : ℝ) ≤ U / Q := by rw [le_div_iff₀ Q0]; linarith
  have e1 : U / Q ≤ 8.1e-5 := by rw [div_le_iff₀ Q0]; linarith
  have n3 := (n2.div 1.01e-15 nq (by norm_num) (by norm_num)).fl R 1.122e-15 (le_trans (by norm_num) e0) (e1.trans (by norm_num)) (by norm_num) (by norm_num)
  have k3 := near_cst R (c := 77.5317e-6) (by norm_num) (by norm_num)
  have n4 := (k3.add 1.122e-15 n3 (by norm_num) (by norm_num) (by norm_num)).fl R 1.25e-15 (by refine le_trans (b := 1e-5) (by norm_num) (by linarith)) (by refine le_trans (b := 1) (by linarith) (by norm_num)) (by norm_num) (by norm_num)
  exact ⟨n4, by linarith, by linarith⟩

/-- The saturation pressure. -/
theorem flPsat_near (R : Rounding fl) (hp : PowOK pw) {T : ℝ} (h0 : 100 ≤ T) (h1 : T ≤ 500) :
    Near 1.45e-14 (pw 10 (fl (-fl 8.7115 + fl (fl 0.03477 * T)))) ((10 : ℝ) ^ (-8.7115 + 0.03477 * T)) ∧ (10 : ℝ) ^ (-8.7115 + 0.03477 * T) ≤ 10 ^ 9 ∧ 1 / 10 ^ 9 ≤ (10 : ℝ) ^ (-8.7115 + 0.03477 * T) := by
  have c1 := R.cst 8.7115 (M := 8.7115) (by norm_num) (by norm_num) (by norm_num)
  have c2 := R.cst 0.03477 (M := 0.03477) (by norm_num) (by norm_num) (by norm_num)
  have m := R.mulB (a := fl 0.03477) (A := 0.03477) (b := T) (B := T) (α := 1.1104e-16 * 0.03477) (β := 0) (MA := 0.03477) (MB := 500) 3.9e-15 (by linarith) (by simp) (by norm_num) (by rw [abs_of_nonneg (by linarith)]; exact h1) (by norm_num) (by norm_num)
  have s : |fl (-fl 8.7115 + fl (fl 0.03477 * T)) - (-8.7115 + 0.03477 * T)| ≤ 6e-15 := by
    refine R.add_err2 (δ := 4.9e-15) (B := 8.7) _ ?_ ?_ (by norm_num) (by norm_num)
    · rw [show -fl 8.7115 + fl (fl 0.03477 * T) - (-8.7115 + 0.03477 * T) = (fl (fl 0.03477 * T) - 0.03477 * T) - (fl 8.7115 - 8.7115) by ring]
      have := abs_sub (fl (fl 0.03477 * T) - 0.03477 * T) (fl 8.7115 - 8.7115)
      linarith
    · rw [abs_le]; constructor <;> linarith
  obtain ⟨y, hy⟩ : ∃ y, y = -8.7115 + 0.03477 * T := ⟨_, rfl⟩
  rw [← hy] at s ⊢
  have yl : -9 ≤ y := by linarith
  have yh : y ≤ 9 := by linarith
  generalize fl (-fl 8.7115 + fl (fl 0.03477 * T)) = y' at *
  have P0 : 0 < (10 : ℝ) ^ y := rpow_pos_of_pos (by norm_num) _
  have ratio : |(10 : ℝ) ^ y' - (10 : ℝ) ^ y| ≤ 1.41e-14 * (10 : ℝ) ^ y := by
    have e : (10 : ℝ) ^ y' - (10 : ℝ) ^ y = (10 : ℝ) ^ y * (exp (log 10 * (y' - y)) - 1) := by
      rw [← rpow_def_of_pos (by norm_num : (0 : ℝ) < 10), rpow_sub (by norm_num)]
      field_simp
    rw [e, abs_mul, abs_of_pos P0, mul_comm]
    refine mul_le_mul_of_nonneg_right ?_ P0.le
    have l10 : log 10 ≤ 2.331 := by
      rw [show (10 : ℝ) = 2 * 5 by norm_num, log_mul (by norm_num) (by norm_num)]
      have a := log_two_lt_d9
      have b : log 5 ≤ 1.637 := by
        rw [show (5 : ℝ) = 2 ^ 2 * 1.25 by norm_num, log_mul (by norm_num) (by norm_num), log_pow]
        have := log_le_sub_one_of_pos (x := 1.25) (by norm_num)
        push_cast
        linarith
      linarith
    have l0 : 0 ≤ log 10 := log_nonneg (by norm_num)
    have z : |log 10 * (y' - y)| ≤ 2.331 * 6e-15 := by
      rw [abs_mul, abs_of_nonneg l0]; exact mul_le_mul l10 s (abs_nonneg _) (by norm_num)
    have q := abs_exp_sub_one_sub_id_le (x := log 10 * (y' - y)) (z.trans (by norm_num))
    have q2 : (log 10 * (y' - y)) ^ 2 ≤ 1e-20 := by
      rw [← sq_abs]
      exact (pow_le_pow_left₀ (abs_nonneg _) z 2).trans (by norm_num)
    have := abs_add_le (exp (log 10 * (y' - y)) - 1 - log 10 * (y' - y)) (log 10 * (y' - y))
    rw [sub_add_cancel] at this
    linarith
  have pk := hp 10 y' (by norm_num)
  have hi : (10 : ℝ) ^ y ≤ 10 ^ 9 := by
    rw [← rpow_natCast]; exact rpow_le_rpow_of_exponent_le (by norm_num) (by push_cast; exact yh)
  have lo : 1 / 10 ^ 9 ≤ (10 : ℝ) ^ y := by
    have : (1 : ℝ) / 10 ^ 9 = (10 : ℝ) ^ (-9 : ℝ) := by rw [rpow_neg (by norm_num), one_div, ← rpow_natCast]; norm_num
    rw [this]; exact rpow_le_rpow_of_exponent_le (by norm_num) yl
  refine ⟨⟨P0, by norm_num, by norm_num, ?_⟩, hi, lo⟩
  have r := abs_le.1 ratio
  have := abs_sub_le (pw 10 y') ((10 : ℝ) ^ y') ((10 : ℝ) ^ y)
  linarith

theorem flAtmdspW1_err (R : Rounding fl) (hp : PowOK pw) (tdk rh : ℝ) : |flAtmdspW1 fl pw tdk rh - atmdspW1 tdk rh| ≤ 1.5e-14 * atmdspW1 tdk rh + 1e-190 ∧ 0 ≤ atmdspW1 tdk rh ∧ atmdspW1 tdk rh ≤ 10 ^ 5 := by
  obtain ⟨n, hi, lo⟩ := flPsat_near R hp (T := min (max tdk 100) 500) (le_min (le_max_right _ _) (by norm_num)) (min_le_right _ _)
  have r0 : 0 ≤ min (max rh 0) 1 := le_min (le_max_right _ _) (by norm_num)
  have r1 : min (max rh 0) 1 ≤ 1 := min_le_right _ _
  unfold flAtmdspW1 atmdspW1
  dsimp only
  generalize pw 10 (fl (-fl 8.7115 + fl (fl 0.03477 * min (max tdk 100) 500))) = p at *
  generalize (10 : ℝ) ^ (-8.7115 + 0.03477 * min (max tdk 100) 500) = P at *
  generalize min (max rh 0) 1 = r at *
  have t0 : (0 : ℝ) < 1 / 10 ^ 200 := by positivity
  have t1 : (1 : ℝ) / 10 ^ 200 ≤ 1e-195 := by norm_num
  have n9 : (10 : ℝ) ^ 9 = 1000000000 := by norm_num
  rw [n9] at hi
  have P0 := n.pos
  have rP : 0 ≤ r * P := mul_nonneg r0 P0.le
  have rP1 : r * P ≤ 1000000000 := by nlinarith only [r0, r1, hi, P0]
  have e1 : |r * p - r * P| ≤ 1.45e-14 * (r * P) := by
    rw [← mul_sub, abs_mul, abs_of_nonneg r0]
    have := mul_le_mul_of_nonneg_left n.err r0
    linarith
  have b1 : |r * p| ≤ 1.0001 * (r * P) := by
    have := abs_add_le (r * p - r * P) (r * P)
    rw [sub_add_cancel, abs_of_nonneg rP] at this
    linarith
  have e2 := R.err (x := r * p) (by refine b1.trans (le_trans (b := 10000000000) (by linarith) (by norm_num)))
  have e3 : |fl (r * p) - r * P| ≤ 1.4615e-14 * (r * P) + 1 / 10 ^ 200 := by
    have := abs_sub_le (fl (r * p)) (r * p) (r * P)
    linarith
  have k := near_cst R (c := 11.2684e-6) (by norm_num) (by norm_num)
  have kk := abs_le.1 k.err
  generalize fl (r * p) = x at *
  generalize r * P = X at *
  generalize (1 : ℝ) / 10 ^ 200 = t at *
  have e4 : |fl 11.2684e-6 * x - 11.2684e-6 * X| ≤ 11.2684e-6 * (1.473e-14 * X) + t := by
    rw [show fl 11.2684e-6 * x - 11.2684e-6 * X = fl 11.2684e-6 * (x - X) + (fl 11.2684e-6 - 11.2684e-6) * X by ring]
    refine (abs_add_le _ _).trans ?_
    rw [abs_mul, abs_mul, abs_of_nonneg rP, abs_of_pos k.xpos]
    have a1 := mul_le_mul_of_nonneg_left e3 k.xpos.le
    have a2 := mul_le_mul_of_nonneg_right k.err rP
    have a3 : fl 11.2684e-6 * (1.4615e-14 * X + t) ≤ 11.2684e-6 * (1 + 1.112e-16) * (1.4615e-14 * X + t) := mul_le_mul_of_nonneg_right (by linarith) (by positivity)
    linarith
  have b4 : |fl 11.2684e-6 * x| ≤ 11.2684e-6 * (1.0001 * X) + t := by
    have := abs_add_le (fl 11.2684e-6 * x - 11.2684e-6 * X) (11.2684e-6 * X)
    rw [sub_add_cancel, abs_of_nonneg (by positivity : (0 : ℝ) ≤ 11.2684e-6 * X)] at this
    linarith
  have e5 := R.err (x := fl 11.2684e-6 * x) (by refine b4.trans (le_trans (b := 1000000) (by linarith) (by norm_num)))
  refine ⟨?_, by positivity, ?_⟩
  · have := abs_sub_le (fl (fl 11.2684e-6 * x)) (fl 11.2684e-6 * x) (11.2684e-6 * X)
    have t2 : (1 : ℝ) / 10 ^ 200 ≤ 1e-195 := by norm_num
    have t3 : (1e-195 : ℝ) * 100 ≤ 1e-190 := by norm_num
    generalize (1 : ℝ) / 10 ^ 200 = t' at *
    generalize (1e-195 : ℝ) = t'' at *
    generalize (1e-190 : ℝ) = t''' at *
    linarith
  · refine le_trans (b := 11.2684e-6 * 1000000000) (by linarith) (by norm_num)

/-- The refractivity, where the water vapour accounts for at most half of the rest. -/
theorem flAtmdspDn_near (R : Rounding fl) (hp : PowOK pw) (tdk pmb rh wl : ℝ) (hw : wl ≤ 100) (hpm : 1e-6 ≤ pmb) (hm : 2 * atmdspW1 tdk rh ≤ 7.75e-5 * min pmb 10000) :
    Near 1.9e-14 (flAtmdspDn fl pw tdk pmb rh wl) (atmdspDn tdk pmb rh wl) ∧ 7e-14 ≤ atmdspDn tdk pmb rh wl ∧ atmdspDn tdk pmb rh wl ≤ 0.016 := by
  obtain ⟨n2, l2, u2⟩ := flAtmdspW2_near R wl hw
  obtain ⟨n1, p1, u1⟩ := flAtmdspW1_err R hp tdk rh
  rw [atmdspDn_eq]
  unfold flAtmdspDn
  dsimp only
  rw [max_eq_left (by linarith : (0 : ℝ) ≤ pmb)]
  have T0 : (100 : ℝ) ≤ min (max tdk 100) 500 := le_min (le_max_right _ _) (by norm_num)
  have T1 : min (max tdk 100) 500 ≤ (500 : ℝ) := min_le_right _ _
  have p0 : (1e-6 : ℝ) ≤ min pmb 10000 := le_min hpm (by norm_num)
  have pM : min pmb 10000 ≤ (10000 : ℝ) := min_le_right _ _
  generalize min (max tdk 100) 500 = T at *
  generalize min pmb 10000 = p at *
  generalize atmdspW2 wl = W at *
  generalize flAtmdspW2 fl wl = w at *
  generalize atmdspW1 tdk rh = V at *
  generalize flAtmdspW1 fl pw tdk rh = v at *
  have A0 : 7.75e-5 * p ≤ W * p := mul_le_mul_of_nonneg_right l2 (by linarith)
  have A1 : W * p ≤ 1.6 := by nlinarith only [l2, u2, p0, pM]
  have np : Near 1.362e-15 (fl (w * p)) (W * p) := by
    refine ((n2.mul 1.25e-15 (Near.refl (X := p) (by linarith)) (by norm_num) (by norm_num)).fl R 1.362e-15 (le_trans (b := 1e-12) (by norm_num) (by linarith)) (A1.trans (by norm_num)) (by norm_num) (by norm_num))
  generalize fl (w * p) = a at *
  generalize W * p = A at *
  have hz : (1e-190 : ℝ) ≤ 1e-30 * (1e-6 * 7.75e-5) := by norm_num
  have nd : Near 1.775e-14 (a - v) (A - V) := by
    refine ⟨by linarith, by norm_num, by norm_num, ?_⟩
    rw [show a - v - (A - V) = (a - A) - (v - V) by ring]
    have := abs_sub (a - A) (v - V)
    have := np.err
    generalize (1e-190 : ℝ) = z at *
    linarith
  have nf := nd.fl R 1.788e-14 (le_trans (b := 1e-12) (by norm_num) (by linarith)) (by refine le_trans (b := 2) (by linarith) (by norm_num)) (by norm_num) (by norm_num)
  have Tp : 0 < T := by linarith
  have q0 : 7e-14 ≤ (A - V) / T := by rw [le_div_iff₀ Tp]; linarith
  have q1 : (A - V) / T ≤ 0.016 := by rw [div_le_iff₀ Tp]; linarith
  exact ⟨(nf.div 1.8e-14 (Near.refl Tp) (by norm_num) (by norm_num)).fl R 1.9e-14 (le_trans (by norm_num) q0) (q1.trans (by norm_num)) (by norm_num) (by norm_num), q0, q1⟩

end Pal

namespace Pal
open Real

variable {fl : ℝ → ℝ} {pw : ℝ → ℝ → ℝ}

/-- A number as large as the smallest double does not round to zero. -/
theorem fl_ne_zero_of_ge (R : Rounding fl) {z : ℝ} (h : (2 : ℝ) ^ (-1074 : ℤ) ≤ |z|) (hz : |z| ≤ 10 ^ 30) : fl z ≠ 0 := by
  intro e
  have t0 : (0 : ℝ) < (2 : ℝ) ^ (-1074 : ℤ) := zpow_pos (by norm_num) _
  have b := fun m hm => R.best z (big_le hz) m (-1074) hm le_rfl
  rw [e] at b
  have b1 := b 1 (by norm_num)
  have b2 := b (-1) (by norm_num)
  push_cast at b1 b2
  generalize (2 : ℝ) ^ (-1074 : ℤ) = t at *
  rcases le_total 0 z with s | s
  · rw [abs_of_nonneg s] at h
    rw [zero_sub, abs_neg, abs_of_nonneg s, abs_of_nonpos (by linarith)] at b1
    linarith
  · rw [abs_of_nonpos s] at h
    rw [zero_sub, abs_neg, abs_of_nonpos s, abs_of_nonneg (by linarith)] at b2
    linarith

theorem dbl_ge {m e : ℤ} (he : -1074 ≤ e) (h0 : (m : ℝ) * 2 ^ e ≠ 0) : (2 : ℝ) ^ (-1074 : ℤ) ≤ |(m : ℝ) * 2 ^ e| := by
  have m0 : m ≠ 0 := fun h => h0 (by rw [h]; simp)
  have a : (1 : ℝ) ≤ |(m : ℝ)| := by exact_mod_cast Int.one_le_abs m0
  rw [abs_mul, abs_of_pos (zpow_pos (by norm_num : (0 : ℝ) < 2) e)]
  have b : (2 : ℝ) ^ (-1074 : ℤ) ≤ 2 ^ e := zpow_le_zpow_right₀ (by norm_num) he
  have c : (0 : ℝ) < 2 ^ e := zpow_pos (by norm_num) _
  nlinarith only [a, b, c]

/-- Two different doubles have a difference that does not vanish by rounding. -/
theorem fl_sub_ne_zero (R : Rounding fl) {x y : ℝ} (hx : |x| ≤ 10 ^ 28) (hy : |y| ≤ 10 ^ 28) (dx : fl x = x) (dy : fl y = y) (h : x ≠ y) : fl (x - y) ≠ 0 ∧ fl (2 * fl (x - y)) ≠ 0 := by
  obtain ⟨m, e, -, he, ex⟩ := R.rep x (big_le (hx.trans (by norm_num)))
  obtain ⟨n, f, -, hf, ey⟩ := R.rep y (big_le (hy.trans (by norm_num)))
  rw [dx] at ex
  rw [dy] at ey
  have s : |x - y| ≤ 10 ^ 29 := (abs_sub _ _).trans (by linarith [hx, hy, (by norm_num : (10 : ℝ) ^ 28 + 10 ^ 28 ≤ 10 ^ 29)])
  have two : ∀ k : ℤ, -1074 ≤ k → (2 : ℝ) ^ k = ((2 ^ (k + 1074).toNat : ℤ) : ℝ) * 2 ^ (-1074 : ℤ) := fun k hk => by
    push_cast
    rw [← zpow_natCast, ← zpow_add₀ (by norm_num)]
    congr 1
    omega
  have r : x - y = ((m * 2 ^ (e + 1074).toNat - n * 2 ^ (f + 1074).toNat : ℤ) : ℝ) * 2 ^ (-1074 : ℤ) := by
    rw [ex, ey, two e he, two f hf]; push_cast; ring
  have a := fl_ne_zero_of_ge R (z := x - y) (by rw [r]; exact dbl_ge le_rfl (by rw [← r]; exact sub_ne_zero.2 h)) (s.trans (by norm_num))
  refine ⟨a, ?_⟩
  obtain ⟨k, g, -, hg, ed⟩ := R.rep (x - y) (big_le (s.trans (by norm_num)))
  have er := R.err (x := x - y) (s.trans (by norm_num))
  have dg := dbl_ge hg (ed ▸ a)
  rw [← ed] at dg
  have b : |fl (x - y)| ≤ 1.1 * 10 ^ 29 := by
    have := abs_add_le (fl (x - y) - (x - y)) (x - y)
    rw [sub_add_cancel] at this
    have : (1 : ℝ) / 10 ^ 200 ≤ 1 := by norm_num
    have : (1 : ℝ) ≤ 10 ^ 27 := by norm_num
    have : (10 : ℝ) ^ 29 = 100 * 10 ^ 27 := by norm_num
    linarith
  refine fl_ne_zero_of_ge R ?_ ?_
  · rw [abs_mul, abs_two]; linarith [abs_nonneg (fl (x - y))]
  · rw [abs_mul, abs_two]; refine (mul_le_mul_of_nonneg_left b (by norm_num)).trans (by norm_num)

/-- The refractivity is a double of moderate size whatever the arguments are. -/
theorem flAtmdspDn_dbl (R : Rounding fl) (hp : PowOK pw) (tdk pmb rh wl : ℝ) (hw : wl ≤ 100) :
    |flAtmdspDn fl pw tdk pmb rh wl| ≤ 10 ^ 20 ∧ fl (flAtmdspDn fl pw tdk pmb rh wl) = flAtmdspDn fl pw tdk pmb rh wl := by
  obtain ⟨n2, l2, u2⟩ := flAtmdspW2_near R wl hw
  obtain ⟨n1, p1, u1⟩ := flAtmdspW1_err R hp tdk rh
  unfold flAtmdspDn
  dsimp only
  have T0 : (100 : ℝ) ≤ min (max tdk 100) 500 := le_min (le_max_right _ _) (by norm_num)
  have p0 : (0 : ℝ) ≤ min (max pmb 0) 10000 := le_min (le_max_right _ _) (by norm_num)
  have pM : min (max pmb 0) 10000 ≤ (10000 : ℝ) := min_le_right _ _
  generalize min (max tdk 100) 500 = T at *
  generalize min (max pmb 0) 10000 = p at *
  have ne := abs_le.1 n2.err
  generalize atmdspW2 wl = W at *
  generalize flAtmdspW2 fl wl = w at *
  generalize atmdspW1 tdk rh = V at *
  generalize flAtmdspW1 fl pw tdk rh = v at *
  have t1 : (1 : ℝ) / 10 ^ 200 ≤ 1 := by norm_num
  have t2 : (1e-190 : ℝ) ≤ 1 := by norm_num
  have grow : ∀ {x b : ℝ}, |x| ≤ b → b ≤ 10 ^ 29 → |fl x| ≤ 2 * b + 1 := fun {x b} h hb => by
    have r := R.err (h.trans (hb.trans (by norm_num)))
    have := abs_add_le (fl x - x) x
    rw [sub_add_cancel] at this
    have := abs_nonneg x
    linarith
  have a1 : |w * p| ≤ 10 := by rw [abs_mul, abs_of_nonneg p0, abs_of_nonneg (by linarith)]; nlinarith only [ne, l2, u2, p0, pM]
  have a2 := grow a1 (by norm_num)
  have v1 : |v| ≤ 10 ^ 6 := by
    have := abs_add_le (v - V) V
    rw [sub_add_cancel, abs_of_nonneg p1] at this
    generalize (1e-190 : ℝ) = z at *
    have : (10 : ℝ) ^ 5 * 2 + 1 ≤ 10 ^ 6 := by norm_num
    linarith
  have a3 : |fl (w * p) - v| ≤ 10 ^ 7 := (abs_sub _ _).trans (by norm_num at v1 a2 ⊢; linarith)
  have a4 := grow a3 (by norm_num)
  have a5 : |fl (fl (w * p) - v) / T| ≤ 10 ^ 8 := by
    rw [abs_div, abs_of_nonneg (by linarith : (0 : ℝ) ≤ T), div_le_iff₀ (by linarith)]
    norm_num at a4 ⊢
    linarith
  refine ⟨(grow a5 (by norm_num)).trans (by norm_num), R.idem' (a5.trans (by norm_num))⟩

end Pal
