import Verif.Lemmas.FlMap
import Verif.Props.FlSphere

/-!
# Errors of palAmpqk in double precision
-/

namespace Pal
open Real Pal.Spec Matrix

/-- Normalisation in double precision of a slightly wrong vector. -/
theorem flPn_err {fl : ℝ → ℝ} (R : Rounding fl) {p P : Vec3} {e : ℝ} (hp : ∀ i, |p i - P i| ≤ e) (he : e ≤ 1e-13) (h1 : 0.99 ≤ len P) (h2 : len P ≤ 1.01) (i : Fin 3) : |(flPn fl p).2 i - (eraPn P).2 i| ≤ 1.7514 * e + 8e-16 := by
  have e0 := (abs_nonneg _).trans (hp 0)
  have l2 := len_le_of_comp hp
  have l3 := abs_le.1 ((len_rev_tri p P).trans l2)
  have p0 : 0.9899 ≤ len p := by norm_num at *; linarith
  have P0 : 0.9899 ≤ len P := by norm_num at *; linarith
  have p0' : 0 < len p := lt_of_lt_of_le (by norm_num) p0
  have P0' : 0 < len P := lt_of_lt_of_le (by norm_num) P0
  have u := unit_close p0' P0'
  have u2 : len (fun i => p i / len p - P i / len P) ≤ 1.7514 * e := by
    refine abs_le_of_sq_le_sq' (a := len (fun i => p i / len p - P i / len P)) ?_ (by positivity) |>.2
    have s1 := pow_le_pow_left₀ (len_nonneg _) l2 2
    have s2 : (0.9899 : ℝ) * 0.9899 ≤ len p * len P := mul_le_mul p0 P0 (by norm_num) p0'.le
    have s3 : (0.9899 : ℝ) * 0.9899 * len (fun i => p i / len p - P i / len P) ^ 2 ≤ len p * len P * len (fun i => p i / len p - P i / len P) ^ 2 := mul_le_mul_of_nonneg_right s2 (sq_nonneg _)
    have s4 : 0 ≤ e ^ 2 := sq_nonneg e
    rw [mul_pow] at s1 ⊢
    norm_num at *; linarith
  have n := (Props.C104_dvn R p (le_trans (by norm_num) p0) (le_trans (by norm_num at *; linarith : len p ≤ 2) (by norm_num))).2 i
  rw [pn_val P0'.ne']
  beta_reduce
  rw [inv_mul_eq_div]
  have a := comp_le_len (fun i => p i / len p - P i / len P) i
  have := abs_sub_le ((flPn fl p).2 i) (p i / len p) (P i / len P)
  norm_num at *; linarith

set_option maxHeartbeats 1000000 in
/-- One pass of the aberration loop in double precision. -/
theorem flAmpAberr_err {fl : ℝ → ℝ} (R : Rounding fl) {am : Amprms} (hv : len am.abv ≤ 1.1e-4) (ha : 0.99999998 ≤ am.ab1) (ha' : am.ab1 ≤ 1) {p2 P2 p1 P1 : Vec3} {e : ℝ} (hp2 : ∀ i, |p2 i - P2 i| ≤ e) (he : e ≤ 1e-14)
    (hl : |len P2 - 1| ≤ 2e-9) (hp1 : ∀ i, |p1 i - P1 i| ≤ 1e-14) (hP1 : len P1 ≤ 1.1) :
    (∀ i, |flAmpAberr fl am p2 p1 i - ampAberr am P2 P1 i| ≤ 1.7515 * e + 1.7e-15) ∧ len (ampAberr am P2 P1) = 1 ∧ len (fun i => ampAberr am P2 P1 i - P2 i) ≤ 5e-4 := by
  have t0 : (1e-190 : ℝ) ≤ 1e-40 := tiny190.2
  have e0 := (abs_nonneg _).trans (hp2 0)
  have hl' := abs_le.1 hl
  have s1 : |flPdp fl p1 am.abv - dot P1 am.abv| ≤ 2.1e-18 := by
    have := flPdp_err R (b := am.abv) (B := 1.1e-4) hp1 (by norm_num) (hP1.trans (by norm_num)) hv (by norm_num)
    generalize (1e-190 : ℝ) = t at *
    refine this.trans ?_
    norm_num at *; linarith
  have s2 : |dot P1 am.abv| ≤ 1.21e-4 := by
    have := dot_le_len P1 am.abv
    have h2 : len P1 * len am.abv ≤ 1.1 * 1.1e-4 := mul_le_mul hP1 hv (len_nonneg _) (by norm_num)
    norm_num at *; linarith
  have ex : ampAberr am P2 P1 = (eraPn (fun i => ((1 + dot P1 am.abv) * P2 i - (1 + dot P1 am.abv / (am.ab1 + 1)) * am.abv i) / am.ab1)).2 := by
    unfold ampAberr; dsimp only; rw [eraPdp_eq]
  have eo : flAmpAberr fl am p2 p1 = (flPn fl (fun i => fl (fl (fl (fl (1 + flPdp fl p1 am.abv) * p2 i) - fl (fl (1 + fl (flPdp fl p1 am.abv / fl (am.ab1 + 1))) * am.abv i)) / am.ab1))).2 := rfl
  rw [ex, eo]
  generalize flPdp fl p1 am.abv = s' at *
  generalize dot P1 am.abv = s at *
  have hvi : ∀ i, |am.abv i| ≤ 1.1e-4 := fun i => (comp_le_len am.abv i).trans hv
  have a0 : 0 < am.ab1 := by norm_num at *; linarith
  have k1 : |fl (am.ab1 + 1) - (am.ab1 + 1)| ≤ 2.3e-16 := by
    refine R.add_err2 (δ := 0) (B := 2) _ (by rw [sub_self, abs_zero]) ?_ (by norm_num) (by generalize (1e-190 : ℝ) = t at *; norm_num at *; linarith)
    rw [abs_of_nonneg] <;> norm_num at * <;> linarith
  have q1 := quot_err (by norm_num at *; linarith) k1 s1 (s2.trans (by norm_num))
  have k0 : 0 < am.ab1 + 1 := by norm_num at *; linarith
  have q2 : |s / (am.ab1 + 1)| ≤ 8e-5 := by
    rw [abs_div, abs_of_pos k0, div_le_iff₀ k0]; norm_num at *; linarith
  have q3 : |fl (s' / fl (am.ab1 + 1)) - s / (am.ab1 + 1)| ≤ 1.3e-18 := by
    refine R.add_err2 (B := 8e-5) _ q1 q2 (by norm_num) ?_
    generalize (1e-190 : ℝ) = t at *; norm_num at *; linarith
  generalize fl (s' / fl (am.ab1 + 1)) = z' at *
  generalize s / (am.ab1 + 1) = z at *
  have w := R.addB 1.2e-16 (noerr 1) q3 (MA := 1) (by rw [abs_one]) q2 (by norm_num) (by generalize (1e-190 : ℝ) = t at *; norm_num at *; linarith)
  have d := R.addB 1.2e-16 (noerr 1) s1 (MA := 1) (by rw [abs_one]) s2 (by norm_num) (by generalize (1e-190 : ℝ) = t at *; norm_num at *; linarith)
  have db : |1 + s| ≤ 1.000121 := d.2.trans (by norm_num)
  have hP2 : ∀ i, |P2 i| ≤ 1.0000001 := fun i => (comp_le_len P2 i).trans (by norm_num at *; linarith)
  have wv : ∀ i, |fl (fl (1 + z') * am.abv i) - (1 + z) * am.abv i| ≤ 5e-20 ∧ |(1 + z) * am.abv i| ≤ 1.11e-4 := fun i =>
    ⟨R.mulB _ w.1 (noerr (am.abv i)) w.2 (hvi i) (by norm_num) (by generalize (1e-190 : ℝ) = t at *; norm_num at *; linarith), (mul_bd w.2 (hvi i)).trans (by norm_num)⟩
  have dp : ∀ i, |fl (fl (1 + s') * p2 i) - (1 + s) * P2 i| ≤ 1.0002 * e + 2.32e-16 ∧ |(1 + s) * P2 i| ≤ 1.0002 := fun i =>
    ⟨R.mulB _ d.1 (hp2 i) db (hP2 i) (by norm_num at *; linarith) (by generalize (1e-190 : ℝ) = t at *; norm_num at *; linarith), (mul_bd db (hP2 i)).trans (by norm_num)⟩
  have nn : ∀ i, |fl (fl (fl (1 + s') * p2 i) - fl (fl (1 + z') * am.abv i)) - ((1 + s) * P2 i - (1 + z) * am.abv i)| ≤ 1.0003 * e + 3.45e-16 ∧ |(1 + s) * P2 i - (1 + z) * am.abv i| ≤ 1.001 := fun i => by
    have := R.subB (1.0003 * e + 3.45e-16) (dp i).1 (wv i).1 (dp i).2 (wv i).2 (by norm_num at *; linarith) (by generalize (1e-190 : ℝ) = t at *; norm_num at *; linarith)
    exact ⟨this.1, this.2.trans (by norm_num)⟩
  have ai : am.ab1⁻¹ ≤ 1.0000001 := by
    rw [inv_le_comm₀ a0 (by norm_num)]; norm_num at *; linarith
  have ai0 : 0 < am.ab1⁻¹ := inv_pos.2 a0
  have comp : ∀ i, |fl (fl (fl (fl (1 + s') * p2 i) - fl (fl (1 + z') * am.abv i)) / am.ab1) - ((1 + s) * P2 i - (1 + z) * am.abv i) / am.ab1| ≤ 1.00005 * e * 1.0003 + 4.6e-16 := fun i => by
    obtain ⟨n1, n2⟩ := nn i
    generalize fl (fl (fl (1 + s') * p2 i) - fl (fl (1 + z') * am.abv i)) = n at *
    generalize (1 + s) * P2 i - (1 + z) * am.abv i = N at *
    refine R.add_err2 (δ := (1.0003 * e + 3.45e-16) * 1.0000001) (B := 1.001 * 1.0000001) _ ?_ ?_ ?_ ?_
    · rw [← sub_div, div_eq_mul_inv, abs_mul, abs_of_pos ai0]; exact mul_le_mul n1 ai ai0.le (by positivity)
    · rw [div_eq_mul_inv, abs_mul, abs_of_pos ai0]; exact mul_le_mul n2 ai ai0.le (by norm_num)
    · norm_num at *; linarith
    · generalize (1e-190 : ℝ) = t at *; norm_num at *; linarith
  have near : len (fun i => ((1 + s) * P2 i - (1 + z) * am.abv i) / am.ab1 - P2 i) ≤ 2.4e-4 := by
    have ed : (fun i => ((1 + s) * P2 i - (1 + z) * am.abv i) / am.ab1 - P2 i) = fun i => ((1 + s - am.ab1) / am.ab1) * P2 i + (-(1 + z) / am.ab1) * am.abv i := by
      funext i; field_simp; ring
    rw [ed]
    refine (len_add_le (fun i => ((1 + s - am.ab1) / am.ab1) * P2 i) (fun i => (-(1 + z) / am.ab1) * am.abv i)).trans ?_
    rw [len_smul, len_smul]
    have b1 : |(1 + s - am.ab1) / am.ab1| ≤ 1.2103e-4 := by
      rw [abs_div, abs_of_pos a0, div_le_iff₀ a0]
      have := abs_le.1 s2
      rw [abs_le]; constructor <;> norm_num at * <;> linarith
    have b2 : |-(1 + z) / am.ab1| ≤ 1.0002 := by
      rw [abs_div, abs_of_pos a0, div_le_iff₀ a0, abs_neg]
      have := w.2
      norm_num at *; linarith
    have b3 := mul_le_mul b1 (by norm_num at *; linarith : len P2 ≤ 1.001) (len_nonneg _) (by norm_num)
    have b4 := mul_le_mul b2 hv (len_nonneg _) (by norm_num)
    norm_num at *; linarith
  have P20 : 0 < len P2 := by norm_num at *; linarith
  have hu : len (fun i => P2 i / len P2) = 1 := by
    have : (fun i => P2 i / len P2) = fun i => (len P2)⁻¹ * P2 i := by funext i; field_simp
    rw [this, len_smul, abs_of_pos (inv_pos.2 P20), inv_mul_cancel₀ P20.ne']
  have cu : len (fun i => P2 i - P2 i / len P2) ≤ 2e-9 := by
    have : (fun i => P2 i - P2 i / len P2) = fun i => (len P2 - 1) * (P2 i / len P2) := by funext i; field_simp
    rw [this, len_smul, hu, mul_one]; exact hl
  have tr := len_tri (fun i => ((1 + s) * P2 i - (1 + z) * am.abv i) / am.ab1) P2 (fun i => P2 i / len P2)
  have pn := pn_near hu (tr.trans (add_le_add near cu)) (by norm_num)
  refine ⟨fun i => ?_, pn.1, ?_⟩
  · have lr := abs_le.1 ((len_rev_tri _ P2).trans near)
    have := flPn_err R comp (by norm_num at *; linarith) (by norm_num at *; linarith) (by norm_num at *; linarith) i
    refine this.trans ?_
    norm_num at *; linarith
  · have t2 := len_tri (eraPn (fun i => ((1 + s) * P2 i - (1 + z) * am.abv i) / am.ab1)).2 (fun i => P2 i / len P2) P2
    have : len (fun i => P2 i / len P2 - P2 i) ≤ 2e-9 := by rw [len_sub_comm]; exact cu
    have pn2 := pn.2
    clear comp nn dp wv w d s1 s2 q1 q2 q3 near tr hp1 hp2 pn k1 ex eo cu
    norm_num at *; linarith

/-- A quotient whose numerator and denominator have small errors relative to d. -/
theorem quot_rel {n N w W d a : ℝ} (hd : 0 < d) (hn : |n - N| ≤ d * a) (hN : |N| ≤ 1.0001 * d) (hw : |w - W| ≤ 1.12e-16 * W) (hW : 0.9999 * d ≤ W) (_ : a ≤ 1e-10) : |n / w - N / W| ≤ 1.0002 * a + 1.121e-16 ∧ |N / W| ≤ 1.0003 := by
  have W0 : 0 < W := lt_of_lt_of_le (by positivity) hW
  have w' := abs_le.1 hw
  have w1 : (1 - 1e-9) * W ≤ w := by norm_num at *; linarith
  have w0 : 0 < w := lt_of_lt_of_le (mul_pos (by norm_num) W0) w1
  have a0 : 0 ≤ a := by
    have := (abs_nonneg _).trans hn
    by_contra h
    have : d * a < 0 := mul_neg_of_pos_of_neg hd (not_le.1 h)
    linarith
  have e : n / w - N / W = (n - N) / w + N * (W - w) / (w * W) := by field_simp; ring
  have h1 : |(n - N) / w| ≤ 1.00011 * a := by
    rw [abs_div, abs_of_pos w0, div_le_iff₀ w0]
    have : 1.00011 * a * ((1 - 1e-9) * (0.9999 * d)) ≤ 1.00011 * a * w := mul_le_mul_of_nonneg_left (le_trans (mul_le_mul_of_nonneg_left hW (by norm_num)) w1) (by positivity)
    have k : d * a ≤ 1.00011 * a * ((1 - 1e-9) * (0.9999 * d)) := by
      have : 0 ≤ a * d := by positivity
      norm_num at *; nlinarith
    linarith
  have hNW : |N / W| ≤ 1.0003 := by
    rw [abs_div, abs_of_pos W0, div_le_iff₀ W0]; norm_num at *; linarith
  have h2 : |N * (W - w) / (w * W)| ≤ 1.121e-16 := by
    rw [abs_div, abs_of_pos (mul_pos w0 W0), div_le_iff₀ (mul_pos w0 W0), abs_mul, abs_sub_comm]
    have b1 : |N| * |w - W| ≤ 1.0001 * d * (1.12e-16 * W) := mul_le_mul hN hw (abs_nonneg _) (by positivity)
    have b2 : (1 - 1e-9) * W * W ≤ w * W := mul_le_mul_of_nonneg_right w1 W0.le
    have b3 : 0.9999 * d * W ≤ W * W := mul_le_mul_of_nonneg_right hW W0.le
    have b4 : 0 < d * W := mul_pos hd W0
    norm_num at *; nlinarith
  refine ⟨?_, hNW⟩
  rw [e]
  have := abs_add_le ((n - N) / w) (N * (W - w) / (w * W))
  norm_num at *; linarith

/-- The deflection formula as a function of the denominator: it varies little. -/
theorem defl_var {g d d' P E : ℝ} (hg0 : 0 ≤ g) (hg : g ≤ 2.1e-8) (hd : 1e-3 ≤ d) (hd' : 0.999e-3 ≤ d') (hP : |P| ≤ 1.001) (hE : |E| ≤ 1.001) :
    |(d' * P - g * E) / (d' - g * (d' - 1)) - (d * P - g * E) / (d - g * (d - 1))| ≤ 0.043 * |d' - d| := by
  have W : 0.9999e-3 ≤ d - g * (d - 1) := by norm_num at *; nlinarith
  have W' : 0.9989e-3 ≤ d' - g * (d' - 1) := by norm_num at *; nlinarith
  have W0 : 0 < d - g * (d - 1) := lt_of_lt_of_le (by norm_num) W
  have W0' : 0 < d' - g * (d' - 1) := lt_of_lt_of_le (by norm_num) W'
  have e : (d' * P - g * E) / (d' - g * (d' - 1)) - (d * P - g * E) / (d - g * (d - 1)) = g * (d' - d) * (P + (1 - g) * E) / ((d - g * (d - 1)) * (d' - g * (d' - 1))) := by
    rw [div_sub_div _ _ W0'.ne' W0.ne', mul_comm (d - g * (d - 1))]
    congr 1; ring
  rw [e, abs_div, abs_mul, abs_mul, abs_of_nonneg hg0, abs_of_pos (mul_pos W0 W0'), div_le_iff₀ (mul_pos W0 W0')]
  have a1 : |P + (1 - g) * E| ≤ 2.002 := by
    have := abs_add_le P ((1 - g) * E)
    have h2 : |(1 - g) * E| ≤ 1 * 1.001 := by
      rw [abs_mul]
      refine mul_le_mul ?_ hE (abs_nonneg _) (by norm_num)
      rw [abs_le]; constructor <;> norm_num at * <;> linarith
    norm_num at *; linarith
  have a2 : g * |d' - d| * |P + (1 - g) * E| ≤ 2.1e-8 * |d' - d| * 2.002 := by gcongr
  have a3 : 0.9999e-3 * 0.9989e-3 ≤ (d - g * (d - 1)) * (d' - g * (d' - 1)) := mul_le_mul W W' (by norm_num) W0.le
  have a4 := mul_le_mul_of_nonneg_left a3 (show 0 ≤ 0.043 * |d' - d| by positivity)
  have a5 : (2.1e-8 : ℝ) * |d' - d| * 2.002 ≤ 0.043 * |d' - d| * (0.9999e-3 * 0.9989e-3) := by
    have h := abs_nonneg (d' - d)
    generalize |d' - d| = z at *
    norm_num at *; linarith
  linarith

set_option maxHeartbeats 1000000 in
/-- One pass of the deflection loop in double precision. -/
theorem flAmpDefl_err {fl : ℝ → ℝ} (R : Rounding fl) {am : Amprms} (hE : |len am.ehn - 1| ≤ 1e-9) (hg0 : 0 ≤ am.gr2e) (hg : am.gr2e ≤ 2.1e-8) {p1 P1 p P : Vec3} {e1 e : ℝ} (hp1 : ∀ i, |p1 i - P1 i| ≤ e1) (he1 : e1 ≤ 1e-14)
    (hl1 : len P1 = 1) (hp : ∀ i, |p i - P i| ≤ e) (he : e ≤ 2e-14) (hl : len P = 1) (hd : 1e-3 ≤ 1 + dot P am.ehn) :
    (∀ i, |flAmpDefl fl am p1 p i - ampDefl am P1 P i| ≤ 1.7519 * e1 + 0.14 * e + 1.7e-15) ∧ len (ampDefl am P1 P) = 1 ∧ len (fun i => ampDefl am P1 P i - P1 i) ≤ 1e-4 := by
  have t0 : (1e-190 : ℝ) ≤ 1e-40 := tiny190.2
  have tp : (0 : ℝ) < 1e-190 := tiny190.1
  have e0 := (abs_nonneg _).trans (hp 0)
  have e10 := (abs_nonneg _).trans (hp1 0)
  have hE' := abs_le.1 hE
  have c1 : |flPdp fl p am.ehn - dot P am.ehn| ≤ 1.7322 * e + 5.42e-16 := by
    have := flPdp_err R (b := am.ehn) (B := 1 + 1e-9) hp (he.trans (by norm_num)) (by rw [hl]; norm_num) (by linarith) (by norm_num)
    generalize (1e-190 : ℝ) = t at *
    refine this.trans ?_
    norm_num at *; linarith
  have cb : |dot P am.ehn| ≤ 1 + 1e-9 := by
    have := dot_le_len P am.ehn
    rw [hl, one_mul] at this
    linarith
  have cb' := abs_le.1 cb
  have ex : ampDefl am P1 P = (eraPn (fun i => ((1 + dot P am.ehn) * P1 i - am.gr2e * am.ehn i) / (1 + dot P am.ehn - am.gr2e * (1 + dot P am.ehn - 1)))).2 := by
    unfold ampDefl; dsimp only; rw [eraPdp_eq, add_sub_cancel_left]
  have eo : flAmpDefl fl am p1 p = (flPn fl (fun i => fl (fl (fl (fl (1 + flPdp fl p am.ehn) * p1 i) - fl (am.gr2e * am.ehn i)) / fl (fl (1 + flPdp fl p am.ehn) - fl (am.gr2e * flPdp fl p am.ehn))))).2 := rfl
  rw [ex, eo]
  have hEi : ∀ i, |am.ehn i| ≤ 1.001 := fun i => (comp_le_len am.ehn i).trans (by norm_num at *; linarith)
  have hPi : ∀ i, |P1 i| ≤ 1 := fun i => (comp_le_len P1 i).trans hl1.le
  have lE : len am.ehn ≤ 1.001 := by norm_num at *; linarith
  generalize flPdp fl p am.ehn = c' at *
  generalize dot P am.ehn = c at *
  generalize am.gr2e = g at *
  generalize am.ehn = E at *
  have c1' := abs_le.1 c1
  have d1 : |fl (1 + c') - (1 + c)| ≤ 1.7322 * e + 7.66e-16 := by
    refine R.add_err2 (δ := 1.7322 * e + 5.42e-16) (B := 2.0001) _ ?_ ?_ ?_ ?_
    · rwa [add_sub_add_left_eq_sub]
    · have := abs_add_le 1 c; rw [abs_one] at this; norm_num at *; linarith
    · norm_num at *; linarith
    · generalize (1e-190 : ℝ) = t at *; norm_num at *; linarith
  have d2 : |fl (1 + c') - (1 + c')| ≤ 2.3e-16 := by
    refine R.add_err2 (δ := 0) (B := 2.01) _ (noerr _) ?_ (by norm_num) (by generalize (1e-190 : ℝ) = t at *; norm_num at *; linarith)
    rw [abs_le]; constructor <;> norm_num at * <;> linarith
  have gc : |fl (g * c') - g * (fl (1 + c') - 1)| ≤ 1e-23 := by
    refine R.add_err2 (δ := 2.1e-8 * 2.3e-16) (B := 2.2e-8) _ ?_ ?_ (by norm_num) (by generalize (1e-190 : ℝ) = t at *; norm_num at *; linarith)
    · rw [← mul_sub, abs_mul, abs_of_nonneg hg0, show c' - (fl (1 + c') - 1) = -(fl (1 + c') - (1 + c')) by ring, abs_neg]
      exact mul_le_mul hg d2 (abs_nonneg _) (by norm_num)
    · have d1' := abs_le.1 d1
      rw [abs_mul, abs_of_nonneg hg0]
      have : |fl (1 + c') - 1| ≤ 1.001 := by rw [abs_le]; constructor <;> norm_num at * <;> linarith
      have := mul_le_mul hg this (abs_nonneg _) (by norm_num)
      norm_num at *; linarith
  have d1' := abs_le.1 d1
  have dlo : 0.9999e-3 ≤ fl (1 + c') := by norm_num at *; linarith
  have dhi : fl (1 + c') ≤ 2.01 := by norm_num at *; linarith
  generalize fl (1 + c') = d' at *
  have d0 : 0 < d' := lt_of_lt_of_le (by norm_num) dlo
  have Wlo : 0.9999 * d' ≤ d' - g * (d' - 1) := by
    have h2 : g * (d' - 1) ≤ 2.1e-8 * 1.01 := by
      by_cases h : 0 ≤ d' - 1
      · exact mul_le_mul hg (by norm_num at *; linarith) h (by norm_num)
      · have := mul_nonpos_of_nonneg_of_nonpos hg0 (not_le.1 h).le; norm_num at *; linarith
    norm_num at *; linarith
  have Whi : d' - g * (d' - 1) ≤ 2.02 := by
    have h2 : -(2.1e-8) ≤ g * (d' - 1) := by nlinarith
    norm_num at *; linarith
  have wr : |fl (d' - fl (g * c')) - (d' - g * (d' - 1))| ≤ 1.12e-16 * (d' - g * (d' - 1)) := by
    refine R.add_err2 (δ := 1e-23) (B := d' - g * (d' - 1)) _ ?_ ?_ ?_ ?_
    · rw [show d' - fl (g * c') - (d' - g * (d' - 1)) = -(fl (g * c') - g * (d' - 1)) by ring, abs_neg]; exact gc
    · rw [abs_of_nonneg (le_trans (by positivity) Wlo)]
    · norm_num at *; linarith
    · generalize (1e-190 : ℝ) = t at *; norm_num at *; linarith
  have gE : ∀ i, |fl (g * E i) - g * E i| ≤ 3e-24 ∧ |g * E i| ≤ 2.11e-8 := fun i =>
    ⟨R.mulB _ (noerr g) (noerr (E i)) (MA := 2.1e-8) (by rw [abs_of_nonneg hg0]; exact hg) (hEi i) (by norm_num) (by generalize (1e-190 : ℝ) = t at *; norm_num at *; linarith),
      (mul_bd (MA := 2.1e-8) (by rw [abs_of_nonneg hg0]; exact hg) (hEi i)).trans (by norm_num)⟩
  have dp : ∀ i, |fl (d' * p1 i) - d' * P1 i| ≤ d' * (e1 + 1.1104e-16) ∧ |d' * P1 i| ≤ d' := fun i => by
    have hb : |d' * P1 i| ≤ d' := by rw [abs_mul, abs_of_pos d0]; exact mul_le_of_le_one_right d0.le (hPi i)
    refine ⟨R.add_err2 (δ := d' * e1) (B := d') _ ?_ hb ?_ ?_, hb⟩
    · rw [← mul_sub, abs_mul, abs_of_pos d0]; exact mul_le_mul_of_nonneg_left (hp1 i) d0.le
    · have := mul_le_mul_of_nonneg_left he1 d0.le
      norm_num at *; linarith
    · have h3 := mul_le_mul_of_nonneg_left he1 d0.le
      generalize (1e-190 : ℝ) = t at *
      rw [mul_add d' e1]
      generalize d' * e1 = m at *
      norm_num at *; linarith
  have nn : ∀ i, |fl (fl (d' * p1 i) - fl (g * E i)) - (d' * P1 i - g * E i)| ≤ d' * (e1 + 2.222e-16) ∧ |d' * P1 i - g * E i| ≤ 1.0001 * d' := fun i => by
    obtain ⟨n1, n2⟩ := dp i
    obtain ⟨m1, m2⟩ := gE i
    have h3 := mul_le_mul_of_nonneg_left he1 d0.le
    have := R.subB (d' * (e1 + 2.222e-16)) n1 m1 n2 m2 (by rw [mul_add d' e1]; generalize d' * e1 = m at *; norm_num at *; linarith)
      (by generalize (1e-190 : ℝ) = t at *; rw [mul_add d' e1, mul_add d' e1]; generalize d' * e1 = m at *; norm_num at *; linarith)
    exact ⟨this.1, this.2.trans (by norm_num at *; linarith)⟩
  have comp : ∀ i, |fl (fl (fl (d' * p1 i) - fl (g * E i)) / fl (d' - fl (g * c'))) - ((1 + c) * P1 i - g * E i) / (1 + c - g * (1 + c - 1))| ≤ 1.0003 * e1 + 0.0746 * e + 4.9e-16 := fun i => by
    obtain ⟨n1, n2⟩ := nn i
    obtain ⟨q1, q2⟩ := quot_rel d0 n1 n2 wr Wlo (by norm_num at *; linarith)
    have q3 := defl_var hg0 hg hd (dlo.trans' (by norm_num)) ((hPi i).trans (by norm_num)) (hEi i)
    have q4 : |fl (fl (fl (d' * p1 i) - fl (g * E i)) / fl (d' - fl (g * c'))) - (d' * P1 i - g * E i) / (d' - g * (d' - 1))| ≤ 1.0003 * e1 + 4.5e-16 := by
      refine R.add_err2 (B := 1.0003) _ q1 q2 ?_ ?_
      · norm_num at *; linarith
      · generalize (1e-190 : ℝ) = t at *; norm_num at *; linarith
    have q5 := abs_sub_le (fl (fl (fl (d' * p1 i) - fl (g * E i)) / fl (d' - fl (g * c')))) ((d' * P1 i - g * E i) / (d' - g * (d' - 1))) (((1 + c) * P1 i - g * E i) / (1 + c - g * (1 + c - 1)))
    have q6 := mul_le_mul_of_nonneg_left d1 (show (0 : ℝ) ≤ 0.043 by norm_num)
    clear nn dp gE wr gc d1 d2 c1 q1 q2 n1 n2
    norm_num at *; linarith
  have W0 : 0 < 1 + c - g * (1 + c - 1) := by norm_num at *; nlinarith
  have W1 : 0.999e-3 ≤ 1 + c - g * (1 + c - 1) := by norm_num at *; nlinarith
  have near : len (fun i => ((1 + c) * P1 i - g * E i) / (1 + c - g * (1 + c - 1)) - P1 i) ≤ 4.5e-5 := by
    have ed : (fun i => ((1 + c) * P1 i - g * E i) / (1 + c - g * (1 + c - 1)) - P1 i) = fun i => (g / (1 + c - g * (1 + c - 1))) * (c * P1 i + -1 * E i) := by
      funext i; field_simp; ring
    rw [ed, len_smul (g / (1 + c - g * (1 + c - 1))) (fun i => c * P1 i + -1 * E i)]
    have b1 : |g / (1 + c - g * (1 + c - 1))| ≤ 2.11e-5 := by
      rw [abs_of_nonneg (div_nonneg hg0 W0.le), div_le_iff₀ W0]; norm_num at *; linarith
    have b2 : len (fun i => c * P1 i + -1 * E i) ≤ 2.1 := by
      refine (len_add_le (fun i => c * P1 i) (fun i => -1 * E i)).trans ?_
      rw [len_smul, len_smul, hl1]
      norm_num at *; linarith
    have b3 := mul_le_mul b1 b2 (len_nonneg _) (by norm_num)
    norm_num at *; linarith
  have pn := pn_near hl1 near (by norm_num)
  refine ⟨fun i => ?_, pn.1, pn.2.trans (by norm_num)⟩
  have lr := abs_le.1 ((len_rev_tri _ P1).trans near)
  have := flPn_err R comp (by norm_num at *; linarith) (by norm_num at *; linarith) (by norm_num at *; linarith) i
  refine this.trans ?_
  clear nn dp gE wr gc d1 d2 c1 comp near lr pn this ex eo
  norm_num at *; linarith

end Pal
