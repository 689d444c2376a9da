import Verif.Model.FlMap
import Verif.Lemmas.FlRot
import Verif.Props.Map

/-!
# Errors of palMapqk and palMapqkz in double precision
-/

namespace Pal
open Real Pal.Spec Matrix

theorem abs_dot3_le (a b : Vec3) : |a 0 * b 0| + |a 1 * b 1| + |a 2 * b 2| ≤ len a * len b := by
  have h := dot_le_len (fun i => |a i|) (fun i => |b i|)
  have e : ∀ v : Vec3, len (fun i => |v i|) = len v := fun v => by unfold len; simp [sq_abs]
  rw [e, e, dot_eq] at h
  have := (abs_le.1 h).2
  simp only [abs_mul]
  exact this

/-- A rounded scalar product of slightly wrong vectors. -/
theorem flPdp_err {fl : ℝ → ℝ} (R : Rounding fl) {p P b : Vec3} {ε B : ℝ} (hp : ∀ i, |p i - P i| ≤ ε) (hε : ε ≤ 1e-13) (hP : len P ≤ 1.2) (hb : len b ≤ B) (hB : B ≤ 1.1) :
    |flPdp fl p b - dot P b| ≤ (1.7321 * ε + 5.41e-16) * B + 1e-190 := by
  have e0 := (abs_nonneg _).trans (hp 0)
  have hd := len_le_of_comp hp
  have lp : len p ≤ 1.2001 := by
    have := (abs_le.1 ((len_rev_tri p P).trans hd)).2
    norm_num at *; linarith
  have n1 := len_nonneg p
  have n2 := len_nonneg b
  have q := abs_dot3_le p b
  have q2 : len p * len b ≤ 1.2001 * B := mul_le_mul lp hb n2 (by norm_num)
  have q3 : (1.2001 : ℝ) * B ≤ 2 := by norm_num at *; linarith
  have r := fl_pdp R (p 0 * b 0) (p 1 * b 1) (p 2 * b 2) (q.trans (q2.trans (q3.trans (by norm_num))))
  have t : 10 * tinyT ≤ 1e-190 := by unfold tinyT; norm_num
  have d : |dot p b - dot P b| ≤ 1.7321 * ε * B := by
    have := dot_le_len (fun i => p i - P i) b
    have e : dot (fun i => p i - P i) b = dot p b - dot P b := by rw [dot_eq, dot_eq, dot_eq]; ring
    rw [e] at this
    exact this.trans (mul_le_mul hd hb n2 (by positivity))
  have e2 : p 0 * b 0 + p 1 * b 1 + p 2 * b 2 = dot p b := by rw [dot_eq]
  rw [e2] at r
  have := abs_sub_le (flPdp fl p b) (dot p b) (dot P b)
  have r' : |flPdp fl p b - dot p b| ≤ 4.5e-16 * (|p 0 * b 0| + |p 1 * b 1| + |p 2 * b 2|) + 10 * tinyT := r
  generalize (1e-190 : ℝ) = t1 at *
  generalize tinyT = t2 at *
  generalize |p 0 * b 0| + |p 1 * b 1| + |p 2 * b 2| = S at *
  norm_num at *
  linarith

/-- Light deflection in exact arithmetic, as a function of the constants. -/
noncomputable def defl0 (g : ℝ) (E P : Vec3) : Vec3 :=
  fun i => P i + g / (if dot P E + 1 > 1 / 10 ^ 5 then dot P E + 1 else 1 / 10 ^ 5) * (E i - dot P E * P i)

theorem ite_max (x y : ℝ) : (if x > y then x else y) = max x y := by
  by_cases h : x > y
  · rw [if_pos h, max_eq_left h.le]
  · rw [if_neg h, max_eq_right (not_lt.1 h)]

theorem max_err {x y X Y e f : ℝ} (h : |x - X| ≤ e) (k : |y - Y| ≤ f) (hf : f ≤ e) : |max x y - max X Y| ≤ e := by
  have := abs_max_sub_max_le_max x y X Y
  exact this.trans (max_le h (k.trans hf))

/-- The part of the Sun's direction across the star's. -/
theorem perp_len {E P : Vec3} (hE : |len E - 1| ≤ 1e-9) (hP : len P = 1) :
    len (fun i => E i - dot P E * P i) ^ 2 ≤ 2.001 * max (dot P E + 1) (1 / 10 ^ 5) ∧ |dot P E| ≤ 1 + 1e-9 ∧ 1 / 10 ^ 5 ≤ max (dot P E + 1) (1 / 10 ^ 5) ∧ max (dot P E + 1) (1 / 10 ^ 5) ≤ 2.1 := by
  have hE2 := abs_le.1 hE
  have c : |dot P E| ≤ 1 + 1e-9 := by
    have := dot_le_len P E
    rw [hP, one_mul] at this
    linarith
  have c' := abs_le.1 c
  have m0 : (1 : ℝ) / 10 ^ 5 ≤ max (dot P E + 1) (1 / 10 ^ 5) := le_max_right _ _
  have m1 := le_max_left (dot P E + 1) (1 / 10 ^ 5 : ℝ)
  refine ⟨?_, c, m0, max_le (by norm_num at *; linarith) (by norm_num)⟩
  have e : len (fun i => E i - dot P E * P i) ^ 2 = len E ^ 2 - dot P E ^ 2 := by
    have h1 : len P ^ 2 = dot P P := by rw [pow_two, len_sq]
    rw [hP] at h1
    rw [pow_two, len_sq, pow_two (len E), len_sq]
    rw [dot_eq] at h1 ⊢
    rw [dot_eq, dot_eq]
    linear_combination (-(P 0 * E 0 + P 1 * E 1 + P 2 * E 2) ^ 2) * h1
  rw [e]
  generalize max (dot P E + 1) (1 / 10 ^ 5) = D at *
  generalize dot P E = k at *
  have lE : len E ^ 2 ≤ 1 + 2.1e-9 := by
    have := len_nonneg E
    nlinarith
  have : (1 - k) * (1 + k) ≤ 2.00001 * D := by
    by_cases hk : 0 ≤ 1 + k
    · have a : (1 - k) * (1 + k) ≤ 2.00001 * (1 + k) := mul_le_mul_of_nonneg_right (by norm_num at *; linarith) hk
      norm_num at *; linarith
    · have : (1 - k) * (1 + k) ≤ 0 := mul_nonpos_of_nonneg_of_nonpos (by norm_num at *; linarith) (by linarith)
      norm_num at *; linarith
  norm_num at *
  nlinarith

/-- The factor of the deflection times the vector. -/
theorem factor_err {g D D' e : ℝ} (hg0 : 0 ≤ g) (hg : g ≤ 2.1e-8) (hD : 1 / 10 ^ 5 ≤ D) (h : |D' - D| ≤ e) (he : e ≤ 1.9e-14) {v : ℝ} (hv : v ^ 2 ≤ 2.001 * D) :
    |g / D' - g / D| * |v| ≤ 0.9405 * e ∧ g / D ≤ 2.1e-3 ∧ 0 ≤ g / D ∧ g / D * |v| ≤ 1e-5 ∧ 0 < D' ∧ |g / D' - g / D| ≤ 2e-9 * 2.1e-3 := by
  have e0 := (abs_nonneg _).trans h
  have h' := abs_le.1 h
  have d0 : 0 < D := lt_of_lt_of_le (by norm_num) hD
  have d1 : 0.99999 * D ≤ D' := by norm_num at *; linarith
  have d1' : 0 < D' := by norm_num at *; linarith
  have v0 := abs_nonneg v
  have hv2 : |v| ^ 2 ≤ 2.001 * D := by rw [sq_abs]; exact hv
  have s0 := Real.sqrt_nonneg D
  have ss := Real.mul_self_sqrt d0.le
  have s1 : 0.00316227 ≤ √D := Real.le_sqrt_of_sq_le (by norm_num at *; linarith)
  have hv3 : |v| ≤ 1.414568 * √D := by
    refine abs_le_of_sq_le_sq' (a := |v|) ?_ (by positivity) |>.2
    rw [mul_pow, pow_two (√D), ss]
    norm_num at *; nlinarith
  have q1 : g / D ≤ 2.1e-3 := by rw [div_le_iff₀ d0]; norm_num at *; linarith
  have q2 : 0 ≤ g / D := div_nonneg hg0 d0.le
  have k1 : |g / D' - g / D| = g * |D' - D| / (D' * D) := by
    rw [div_sub_div _ _ d1'.ne' d0.ne', abs_div, abs_of_pos (mul_pos d1' d0), show g * D - D' * g = -(g * (D' - D)) by ring, abs_neg, abs_mul, abs_of_nonneg hg0]
  have k2 : |g / D' - g / D| ≤ 2.1001e-8 * e / (D * D) := by
    rw [k1, div_le_div_iff₀ (mul_pos d1' d0) (mul_pos d0 d0)]
    have a1 : g * |D' - D| ≤ 2.1e-8 * e := mul_le_mul hg h (abs_nonneg _) (by norm_num)
    have a2 : 0.99999 * D * D ≤ D' * D := mul_le_mul_of_nonneg_right d1 d0.le
    have a3 : g * |D' - D| * (D * D) ≤ 2.1e-8 * e * (D * D) := mul_le_mul_of_nonneg_right a1 (by positivity)
    have a4 : 2.1001e-8 * e * (0.99999 * D * D) ≤ 2.1001e-8 * e * (D' * D) := mul_le_mul_of_nonneg_left a2 (by positivity)
    have a5 : 0 ≤ e * (D * D) := by positivity
    have a6 : 2.1e-8 * e * (D * D) ≤ 2.1001e-8 * e * (0.99999 * D * D) := by
      rw [show (2.1e-8 : ℝ) * e * (D * D) = 2.1e-8 * (e * (D * D)) by ring, show (2.1001e-8 : ℝ) * e * (0.99999 * D * D) = 2.1001e-8 * 0.99999 * (e * (D * D)) by ring]
      exact mul_le_mul_of_nonneg_right (by norm_num) a5
    linarith
  have sp : 0 < √D := lt_of_lt_of_le (by norm_num) s1
  have c3 : 1 / (√D * √D * √D) ≤ 3.16231e7 := by
    rw [div_le_iff₀ (by positivity)]
    have : 0.00316227 * 0.00316227 * 0.00316227 ≤ √D * √D * √D := by gcongr
    norm_num at *; linarith
  refine ⟨?_, q1, q2, ?_, d1', ?_⟩
  · calc |g / D' - g / D| * |v| ≤ 2.1001e-8 * e / (D * D) * (1.414568 * √D) := mul_le_mul k2 hv3 v0 (by positivity)
      _ = 2.1001e-8 * 1.414568 * e * (1 / (√D * √D * √D)) := by
        have : D * D = √D * √D * √D * √D := by linear_combination -(D + √D * √D) * ss
        rw [this]; field_simp
      _ ≤ 2.1001e-8 * 1.414568 * e * 3.16231e7 := mul_le_mul_of_nonneg_left c3 (by positivity)
      _ ≤ 0.9405 * e := by norm_num at *; nlinarith
  · calc g / D * |v| ≤ g / D * (1.414568 * √D) := mul_le_mul_of_nonneg_left hv3 q2
      _ = g * 1.414568 / √D := by nth_rewrite 1 [← ss]; field_simp
      _ ≤ 2.1e-8 * 1.414568 / 0.00316227 := by gcongr
      _ ≤ 1e-5 := by norm_num
  · refine k2.trans ?_
    rw [div_le_iff₀ (by positivity)]
    have : (1 / 10 ^ 5 : ℝ) * (1 / 10 ^ 5) ≤ D * D := mul_le_mul hD hD (by norm_num) d0.le
    norm_num at *; nlinarith

/-- Rounding adds little to an absolute error, relative to a bound that may be small. -/
theorem Rounding.add_err2 {fl : ℝ → ℝ} (R : Rounding fl) {x X δ B : ℝ} (δ' : ℝ) (h : |x - X| ≤ δ) (hX : |X| ≤ B) (hu : B + δ ≤ 10 ^ 29) (hd : δ + 1.1103e-16 * (B + δ) + 1e-190 ≤ δ') :
    |fl x - X| ≤ δ' := by
  have d0 : 0 ≤ δ := (abs_nonneg _).trans h
  have hx : |x| ≤ B + δ := by
    have := abs_add_le X (x - X)
    rw [add_sub_cancel] at this
    linarith
  have e := R.err (x := x) (hx.trans (hu.trans (by norm_num)))
  have z : (1 : ℝ) / 10 ^ 200 ≤ 1e-190 := by norm_num
  have h1 : (1.1103e-16 : ℝ) * |x| ≤ 1.1103e-16 * (B + δ) := mul_le_mul_of_nonneg_left hx (by norm_num)
  have := abs_sub_le (fl x) x X
  linarith

theorem tiny190 : (0 : ℝ) < 1e-190 ∧ (1e-190 : ℝ) ≤ 1e-40 := by norm_num

set_option maxHeartbeats 1000000 in
/-- Light deflection in double precision. -/
theorem flDeflect_err {fl : ℝ → ℝ} (R : Rounding fl) {E P p : Vec3} {g ε : ℝ} (hE : |len E - 1| ≤ 1e-9) (hP : len P = 1) (hp : ∀ i, |p i - P i| ≤ ε) (hε : ε ≤ 3e-15) (hg0 : 0 ≤ g) (hg : g ≤ 2.1e-8) (i : Fin 3) :
    |flDeflect fl g E p i - defl0 g E P i| ≤ 2.65 * ε + 8.5e-16 := by
  obtain ⟨t0, t1⟩ := tiny190
  have e0 := (abs_nonneg _).trans (hp 0)
  have hE' := abs_le.1 hE
  obtain ⟨hv, hc, hD, hD2⟩ := perp_len hE hP
  have c1 : |flPdp fl p E - dot P E| ≤ 1.7322 * ε + 5.42e-16 := by
    have := flPdp_err R (b := E) (B := 1 + 1e-9) hp (hε.trans (by norm_num)) (by rw [hP]; norm_num) (by linarith) (by norm_num)
    generalize (1e-190 : ℝ) = t at *
    refine this.trans ?_
    norm_num at *; linarith
  have vi : (E i - dot P E * P i) ^ 2 ≤ 2.001 * max (dot P E + 1) (1 / 10 ^ 5) := by
    have := comp_le_len (fun i => E i - dot P E * P i) i
    have h2 := pow_le_pow_left₀ (abs_nonneg _) this 2
    rw [sq_abs] at h2
    exact h2.trans hv
  have hPi := comp_le_len P i
  rw [hP] at hPi
  have hEi := comp_le_len E i
  have hpi := hp i
  unfold flDeflect defl0
  rw [ite_max, ite_max]
  generalize flPdp fl p E = c' at *
  generalize dot P E = c at *
  have d1 : |fl (c' + 1) - (c + 1)| ≤ 1.7322 * ε + 7.65e-16 := by
    refine R.add_err2 (δ := 1.7322 * ε + 5.42e-16) (B := 2.0001) _ ?_ ?_ ?_ ?_
    · rwa [add_sub_add_right_eq_sub]
    · have := abs_add_le c 1; rw [abs_one] at this; norm_num at *; linarith
    · norm_num at *; linarith
    · generalize (1e-190 : ℝ) = t at *; norm_num at *; linarith
  have d2 : |fl (1 / 10 ^ 5) - 1 / 10 ^ 5| ≤ 1e-20 :=
    R.add_err2 (δ := 0) (B := 1 / 10 ^ 5) _ (by rw [sub_self, abs_zero]) (by rw [abs_of_pos (by positivity)]) (by norm_num) (by generalize (1e-190 : ℝ) = t at *; norm_num at *; linarith)
  have d3 := max_err d1 d2 (by norm_num at *; linarith)
  generalize max (fl (c' + 1)) (fl (1 / 10 ^ 5)) = D' at *
  generalize max (c + 1) (1 / 10 ^ 5) = D at *
  obtain ⟨f1, f2, f3, f4, f5, f6⟩ := factor_err hg0 hg hD d3 (by norm_num at *; linarith) vi
  have w1 : |fl (g / D') - g / D'| ≤ 2.4e-19 := by
    have a := abs_le.1 f6
    refine R.add_err2 (δ := 0) (B := 2.101e-3) _ (by rw [sub_self, abs_zero]) ?_ (by norm_num) (by generalize (1e-190 : ℝ) = t at *; norm_num at *; linarith)
    rw [abs_of_nonneg (div_nonneg hg0 f5.le)]
    norm_num at *; linarith
  have v1 : |fl (c' * p i) - c * P i| ≤ 2.75 * ε + 6.7e-16 := by
    refine R.add_err2 (δ := 2.7423 * ε + 5.43e-16) (B := 1.01) _ (mul_err _ c1 hpi (MA := 1.01) (MB := 1) (by norm_num at *; linarith) hPi ?_) ?_ ?_ ?_
    · have : (1.7322 * ε + 5.42e-16) * ε ≤ 1e-14 * ε := mul_le_mul_of_nonneg_right (by norm_num at *; linarith) e0
      have : (1e-14 : ℝ) * ε ≤ 1e-14 * 3e-15 := mul_le_mul_of_nonneg_left hε (by norm_num)
      norm_num at *; linarith
    · rw [abs_mul]; have := mul_le_mul hc hPi (abs_nonneg _) (by norm_num); norm_num at *; linarith
    · norm_num at *; linarith
    · generalize (1e-190 : ℝ) = t at *; norm_num at *; linarith
  have vV : |E i - c * P i| ≤ 2.05 := by
    have : |E i - c * P i| ^ 2 ≤ 2.05 ^ 2 := by rw [sq_abs]; norm_num at *; linarith
    exact abs_le_of_sq_le_sq' this (by norm_num) |>.2
  have v2 : |fl (E i - fl (c' * p i)) - (E i - c * P i)| ≤ 2.75 * ε + 9.2e-16 := by
    refine R.add_err2 (δ := 2.75 * ε + 6.7e-16) (B := 2.05) _ ?_ vV ?_ ?_
    · rw [show E i - fl (c' * p i) - (E i - c * P i) = -(fl (c' * p i) - c * P i) by ring, abs_neg]; exact v1
    · norm_num at *; linarith
    · generalize (1e-190 : ℝ) = t at *; norm_num at *; linarith
  generalize fl (E i - fl (c' * p i)) = v' at *
  generalize E i - c * P i = V at *
  have w2 : |fl (g / D')| ≤ 2.2e-3 := by
    have a := abs_le.1 f6
    have b := abs_le.1 w1
    rw [abs_le]; constructor <;> norm_num at * <;> linarith
  have pr : |fl (g / D') * v' - g / D * V| ≤ 1.6356 * ε + 7.25e-16 := by
    have e : fl (g / D') * v' - g / D * V = fl (g / D') * (v' - V) + (fl (g / D') - g / D') * V + (g / D' - g / D) * V := by ring
    rw [e]
    have a1 : |fl (g / D') * (v' - V)| ≤ 2.2e-3 * (2.75 * ε + 9.2e-16) := by rw [abs_mul]; exact mul_le_mul w2 v2 (abs_nonneg _) (by norm_num)
    have a2 : |(fl (g / D') - g / D') * V| ≤ 2.4e-19 * 2.05 := by rw [abs_mul]; exact mul_le_mul w1 vV (abs_nonneg _) (by norm_num)
    rw [← abs_mul] at f1
    have b1 := abs_add_le (fl (g / D') * (v' - V) + (fl (g / D') - g / D') * V) ((g / D' - g / D) * V)
    have b2 := abs_add_le (fl (g / D') * (v' - V)) ((fl (g / D') - g / D') * V)
    clear d1 d2 d3 v1 v2 w1 w2 f4 f6 hE hE' hp
    norm_num at *; linarith
  have pB : |g / D * V| ≤ 1e-5 := by rw [abs_mul, abs_of_nonneg f3]; exact f4
  have pr2 : |fl (fl (g / D') * v') - g / D * V| ≤ 1.636 * ε + 7.26e-16 := by
    refine R.add_err2 (B := 1e-5) _ pr pB ?_ ?_
    · norm_num at *; linarith
    · generalize (1e-190 : ℝ) = t at *; norm_num at *; linarith
  refine R.add_err2 (δ := 2.636 * ε + 7.26e-16) (B := 1.00001) _ ?_ ?_ ?_ ?_
  · rw [show p i + fl (fl (g / D') * v') - (P i + g / D * V) = (p i - P i) + (fl (fl (g / D') * v') - g / D * V) by ring]
    have := abs_add_le (p i - P i) (fl (fl (g / D') * v') - g / D * V)
    norm_num at *; linarith
  · have := abs_add_le (P i) (g / D * V)
    norm_num at *; linarith
  · norm_num at *; linarith
  · generalize (1e-190 : ℝ) = t at *; norm_num at *; linarith

theorem quot_err {s s' k k' : ℝ} (hk : 1.999 ≤ k) (hk' : |k' - k| ≤ 2.3e-16) (hs : |s' - s| ≤ 2.1e-18) (hS : |s| ≤ 1.4e-4) : |s' / k' - s / k| ≤ 1.2e-18 := by
  have a := abs_le.1 hk'
  have k0 : 0 < k := by norm_num at *; linarith
  have k1 : 1.998 ≤ k' := by norm_num at *; linarith
  have k1' : 0 < k' := by norm_num at *; linarith
  have e : s' / k' - s / k = (s' - s) / k' - s * (k' - k) / (k * k') := by field_simp; ring
  rw [e]
  have b1 : |(s' - s) / k'| ≤ 2.1e-18 / 1.998 := by rw [abs_div, abs_of_pos k1']; gcongr
  have b2 : |s * (k' - k) / (k * k')| ≤ 1.4e-4 * 2.3e-16 / (1.999 * 1.998) := by rw [abs_div, abs_mul, abs_of_pos (mul_pos k0 k1')]; gcongr
  have := abs_sub ((s' - s) / k') (s * (k' - k) / (k * k'))
  norm_num at *; linarith

/-- Aberration in double precision. -/
theorem flAberr_err {fl : ℝ → ℝ} (R : Rounding fl) {ab1 : ℝ} {abv q Q p1 P1 : Vec3} {ε e : ℝ} (ha : 0.999 ≤ ab1) (ha' : ab1 ≤ 1) (hv : len abv ≤ 1.1e-4) (hq : ∀ i, |q i - Q i| ≤ ε) (hε : ε ≤ 1e-14) (hQ : len Q ≤ 1.2)
    (hp : ∀ i, |p1 i - P1 i| ≤ e) (he : e ≤ 2e-14) (hP : ∀ i, |P1 i| ≤ 1.01) (i : Fin 3) :
    |flAberr fl ab1 abv q p1 i - (ab1 * P1 i + (1 + dot Q abv / (ab1 + 1)) * abv i)| ≤ e + 2.3e-16 ∧ |(1 + dot Q abv / (ab1 + 1)) * abv i| ≤ 1.2e-4 ∧ |1 + dot Q abv / (ab1 + 1)| ≤ 1.001 := by
  obtain ⟨t0, t1⟩ := tiny190
  have e0 := (abs_nonneg _).trans (hp 0)
  have s1 : |flPdp fl q abv - dot Q abv| ≤ 2.1e-18 := by
    have := flPdp_err R (b := abv) (B := 1.1e-4) hq (hε.trans (by norm_num)) hQ hv (by norm_num)
    generalize (1e-190 : ℝ) = t at *
    refine this.trans ?_
    norm_num at *; linarith
  have s2 : |dot Q abv| ≤ 1.4e-4 := by
    have := dot_le_len Q abv
    have h2 : len Q * len abv ≤ 1.2 * 1.1e-4 := mul_le_mul hQ hv (len_nonneg _) (by norm_num)
    norm_num at *; linarith
  have hvi := (comp_le_len abv i).trans hv
  have hPi := hP i
  have hpi := hp i
  unfold flAberr
  generalize flPdp fl q abv = s' at *
  generalize dot Q abv = s at *
  have k1 : |fl (ab1 + 1) - (ab1 + 1)| ≤ 2.3e-16 := by
    refine R.add_err2 (δ := 0) (B := 2) _ (by rw [sub_self, abs_zero]) ?_ (by norm_num) (by generalize (1e-190 : ℝ) = t at *; norm_num at *; linarith)
    rw [abs_of_nonneg] <;> norm_num at * <;> linarith
  have q1 := quot_err (by norm_num at *; linarith) k1 s1 s2
  have k0 : 0 < ab1 + 1 := by norm_num at *; linarith
  have q2 : |s / (ab1 + 1)| ≤ 8e-5 := by
    rw [abs_div, abs_of_pos k0, div_le_iff₀ k0]; norm_num at *; linarith
  have q3 : |fl (s' / fl (ab1 + 1)) - s / (ab1 + 1)| ≤ 1.3e-18 := by
    refine R.add_err2 (B := 8e-5) _ q1 q2 (by norm_num) ?_
    generalize (1e-190 : ℝ) = t at *; norm_num at *; linarith
  generalize fl (s' / fl (ab1 + 1)) = z' at *
  generalize s / (ab1 + 1) = z at *
  have w1 : |fl (1 + z') - (1 + z)| ≤ 1.2e-16 := by
    refine R.add_err2 (δ := 1.3e-18) (B := 1.001) _ ?_ ?_ (by norm_num) ?_
    · rwa [add_sub_add_left_eq_sub]
    · have := abs_add_le 1 z; rw [abs_one] at this; norm_num at *; linarith
    · generalize (1e-190 : ℝ) = t at *; norm_num at *; linarith
  have w2 : |1 + z| ≤ 1.001 := by have := abs_add_le 1 z; rw [abs_one] at this; norm_num at *; linarith
  have w3 : |(1 + z) * abv i| ≤ 1.2e-4 := by
    rw [abs_mul]
    have := mul_le_mul w2 hvi (abs_nonneg _) (by norm_num)
    norm_num at *; linarith
  have w4 : |fl (fl (1 + z') * abv i) - (1 + z) * abv i| ≤ 5e-20 := by
    refine R.add_err2 (δ := 1.33e-20) (B := 1.2e-4) _ (mul_err _ w1 (B := abv i) (β := 0) (by rw [sub_self, abs_zero]) w2 hvi (by norm_num)) w3 (by norm_num) ?_
    generalize (1e-190 : ℝ) = t at *; norm_num at *; linarith
  refine ⟨?_, w3, w2⟩
  have m1 : |ab1 * P1 i| ≤ 1.01 := by
    rw [abs_mul, abs_of_nonneg (by norm_num at *; linarith)]
    have := mul_le_mul ha' hPi (abs_nonneg _) (by norm_num)
    norm_num at *; linarith
  have m2 : |fl (ab1 * p1 i) - ab1 * P1 i| ≤ e + 1.125e-16 := by
    refine R.add_err2 (δ := e) (B := 1.01) _ ?_ m1 (by norm_num at *; linarith) ?_
    · rw [← mul_sub, abs_mul, abs_of_nonneg (show (0 : ℝ) ≤ ab1 by norm_num at *; linarith)]
      have := mul_le_mul ha' hpi (abs_nonneg _) (by norm_num)
      linarith
    · generalize (1e-190 : ℝ) = t at *; norm_num at *; linarith
  refine R.add_err2 (δ := e + 1.127e-16) (B := 1.011) _ ?_ ?_ ?_ ?_
  · rw [show fl (ab1 * p1 i) + fl (fl (1 + z') * abv i) - (ab1 * P1 i + (1 + z) * abv i) = (fl (ab1 * p1 i) - ab1 * P1 i) + (fl (fl (1 + z') * abv i) - (1 + z) * abv i) by ring]
    have := abs_add_le (fl (ab1 * p1 i) - ab1 * P1 i) (fl (fl (1 + z') * abv i) - (1 + z) * abv i)
    norm_num at *; linarith
  · have := abs_add_le (ab1 * P1 i) ((1 + z) * abv i)
    norm_num at *; linarith
  · norm_num at *; linarith
  · generalize (1e-190 : ℝ) = t at *; norm_num at *; linarith

/-- The length of a vector after multiplication by a matrix that is nearly orthogonal. -/
theorem near_len2 {M : Mat3} (ho : ∀ i j, |(M.transpose * M) i j - (1 : Mat3) i j| ≤ 1e-10) (v : Vec3) : (1 - 1e-9) * len v ≤ len (M.mulVec v) ∧ len (M.mulVec v) ≤ (1 + 1e-9) * len v := by
  have unit : ∀ u : Vec3, dot u u = 1 → 1 - 1e-9 ≤ len (M.mulVec u) ∧ len (M.mulVec u) ≤ 1 + 1e-9 := by
    intro v hv
    have e : dot (M.mulVec v) (M.mulVec v) = dot v ((M.transpose * M).mulVec v) := by
      rw [dot_dotProduct, dot_dotProduct, ← Matrix.mulVec_mulVec, Matrix.dotProduct_mulVec v, Matrix.vecMul_transpose]
    have hn := near_orth ho hv
    have l1 : len (fun i => (M.transpose * M).mulVec v i - v i) ≤ 3 * 1e-10 := by
      refine Real.sqrt_le_iff.2 ⟨by norm_num, ?_⟩
      rw [Fin.sum_univ_three]; exact hn
    have c := dot_le_len v (fun i => (M.transpose * M).mulVec v i - v i)
    rw [dot_sub_right, hv, ← e, len_one hv, one_mul] at c
    have c' := abs_le.1 (c.trans l1)
    have q := len_sq (M.mulVec v)
    have n := len_nonneg (M.mulVec v)
    generalize len (M.mulVec v) = N at *
    generalize dot (M.mulVec v) (M.mulVec v) = D at *
    constructor <;> norm_num at * <;> nlinarith
  by_cases h0 : len v = 0
  · have hz : v = 0 := by
      funext i
      have := comp_le_len v i
      rw [h0] at this
      exact abs_nonpos_iff.1 this
    have : M.mulVec v = v := by rw [hz, Matrix.mulVec_zero]
    rw [this, h0]; norm_num
  · have hp : 0 < len v := lt_of_le_of_ne (len_nonneg v) (Ne.symm h0)
    have hu : dot (fun i => (len v)⁻¹ * v i) (fun i => (len v)⁻¹ * v i) = 1 := by
      have := len_sq v
      rw [dot_eq] at this ⊢
      field_simp
      rw [pow_two (len v), this]
      ring
    obtain ⟨a, b⟩ := unit _ hu
    have e : M.mulVec (fun i => (len v)⁻¹ * v i) = fun i => (len v)⁻¹ * M.mulVec v i := by
      have : (fun i => (len v)⁻¹ * v i) = (len v)⁻¹ • v := rfl
      rw [this, Matrix.mulVec_smul]; rfl
    rw [e, len_smul, abs_of_pos (inv_pos.2 hp)] at a b
    rw [inv_mul_eq_div] at a b
    rw [le_div_iff₀ hp] at a
    rw [div_le_iff₀ hp] at b
    exact ⟨a, b⟩

/-- A product with a nearly orthogonal matrix in double precision. -/
theorem flRxp_comp {fl : ℝ → ℝ} (R : Rounding fl) {m : Mat3} (ho : ∀ i j, |(m.transpose * m) i j - (1 : Mat3) i j| ≤ 1e-10) {p P : Vec3} {e : ℝ}
    (hp : ∀ i, |p i - P i| ≤ e) (he : e ≤ 2e-14) (h2 : len P ≤ 1.005) (i : Fin 3) : |flRxp fl m p i - m.mulVec P i| ≤ 1.7322 * e + 7.9e-16 := by
  have e0 := (abs_nonneg _).trans (hp 0)
  have hd := len_le_of_comp hp
  have lp := abs_le.1 ((len_rev_tri p P).trans hd)
  have hm : ∀ j, |m i j| ≤ 1.0001 := fun j => by
    have h := (abs_le.1 (ho j j)).2
    rw [Matrix.mul_apply, Fin.sum_univ_three, Matrix.one_apply_eq] at h
    simp only [Matrix.transpose_apply] at h
    refine abs_le_of_sq_le_sq ?_ (by norm_num)
    have k : m i j ^ 2 ≤ m 0 j * m 0 j + m 1 j * m 1 j + m 2 j * m 2 j := by
      have := mul_self_nonneg (m 0 j); have := mul_self_nonneg (m 1 j); have := mul_self_nonneg (m 2 j)
      fin_cases i <;> simp only [Fin.zero_eta, Fin.mk_one, Fin.reduceFinMk, pow_two] <;> linarith
    norm_num at *; linarith
  have n1 : len (m i) ≤ 1.7321 * 1.0001 := len_le_of_comp hm
  have n2 := len_nonneg p
  have q := abs_dot3_le (m i) p
  have q2 : len (m i) * len p ≤ 1.7321 * 1.0001 * 1.006 := mul_le_mul n1 (by norm_num at *; linarith) n2 (by norm_num)
  have r := fl_dot3 R (m i 0 * p 0) (m i 1 * p 1) (m i 2 * p 2) (q.trans (q2.trans (by norm_num)))
  have t : 10 * tinyT ≤ 1e-30 := by unfold tinyT; norm_num
  have ev : m.mulVec p i = m i 0 * p 0 + m i 1 * p 1 + m i 2 * p 2 := by simp [Matrix.mulVec, dotProduct, Fin.sum_univ_three]
  rw [← ev] at r
  have r' : |flRxp fl m p i - m.mulVec p i| ≤ 4.5e-16 * (|m i 0 * p 0| + |m i 1 * p 1| + |m i 2 * p 2|) + 10 * tinyT := r
  have d : |m.mulVec p i - m.mulVec P i| ≤ (1 + 1e-9) * (1.7321 * e) := by
    have a := comp_le_len (m.mulVec (fun i => p i - P i)) i
    have b := (near_len2 ho (fun i => p i - P i)).2
    have c : m.mulVec (fun i => p i - P i) i = m.mulVec p i - m.mulVec P i := by
      have : (fun i => p i - P i) = p - P := rfl
      rw [this, Matrix.mulVec_sub]; rfl
    rw [c] at a
    exact a.trans (b.trans (mul_le_mul_of_nonneg_left hd (by norm_num)))
  have := abs_sub_le (flRxp fl m p i) (m.mulVec p i) (m.mulVec P i)
  generalize |m i 0 * p 0| + |m i 1 * p 1| + |m i 2 * p 2| = S at *
  generalize tinyT = t2 at *
  norm_num at *; linarith

/-- The declination needs no reduction. -/
theorem flC2s_anpm {fl : ℝ → ℝ} (R : Rounding fl) {L : Libm} (hL : LibmOK L) (nz : Bool) {v V : Vec3} {e : ℝ} (hv : ∀ i, |v i - V i| ≤ e) (he : e ≤ 1e-13) (h1 : 0.99 ≤ len V) (h2 : len V ≤ 1.01) :
    flAnpm fl (flC2s fl L nz v).2 = (flC2s fl L nz v).2 := by
  have p1 := pi_lt_d4
  obtain ⟨n1, n2⟩ := close_len hv he h1 h2
  obtain ⟨T, Q, t1, t2, t3, t4, t5⟩ := flC2s_spec R hL nz _ n1 n2
  exact flAnpm_small R _ ((close_range t2 t4).trans (by norm_num at *; linarith))

/-- The last steps in double precision. -/
theorem flMapFinish_err {fl : ℝ → ℝ} (R : Rounding fl) {L : Libm} (hL : LibmOK L) (nz : Bool) {m : Mat3} (ho : ∀ i j, |(m.transpose * m) i j - (1 : Mat3) i j| ≤ 1e-10) {p P : Vec3} {e : ℝ}
    (hp : ∀ i, |p i - P i| ≤ e) (he : e ≤ 2e-14) (h1 : 0.995 ≤ len P) (h2 : len P ≤ 1.005) :
    let o := flMapFinish fl L nz m p
    let x := mapFinish m P
    0 ≤ o.1 ∧ o.1 ≤ flD2PI fl ∧ |o.2| ≤ π / 2 + 4.5e-16 ∧ len (fun i => dir o.1 o.2 i - dir x.1 x.2 i) ≤ 6.1 * e + 5.8e-15 := by
  intro o x
  have e0 := (abs_nonneg _).trans (hp 0)
  have hd := len_le_of_comp hp
  have lp := abs_le.1 ((len_rev_tri p P).trans hd)
  have comp := fun i => flRxp_comp R ho hp he h2 i
  obtain ⟨l1, l2⟩ := near_len2 ho P
  have hu := Props.finish_dir m P
  obtain ⟨a1, a2, a3, a4⟩ := flC2s_dir R hL nz _ _ _ comp (by norm_num at *; linarith) (by norm_num at *; linarith) (by norm_num at *; linarith) _ hu
  have p1 := pi_lt_d4
  have ee : flAnpm fl (flC2s fl L nz (flRxp fl m p)).2 = (flC2s fl L nz (flRxp fl m p)).2 := by
    obtain ⟨n1, n2⟩ := close_len comp (by norm_num at *; linarith) (by norm_num at *; linarith) (by norm_num at *; linarith)
    obtain ⟨T, Q, t1, t2, t3, t4, t5⟩ := flC2s_spec R hL nz _ n1 n2
    exact flAnpm_small R _ ((close_range t2 t4).trans (by norm_num at *; linarith))
  rw [ee] at a3 a4
  exact ⟨a1, a2, a3, a4.trans (by norm_num; linarith)⟩

/-- The deflected direction is close to the star's. -/
theorem defl0_close {E P : Vec3} {g : ℝ} (hE : |len E - 1| ≤ 1e-9) (hP : len P = 1) (hg0 : 0 ≤ g) (hg : g ≤ 2.1e-8) : len (fun i => defl0 g E P i - P i) ≤ 1e-5 := by
  obtain ⟨hv, hc, hD, hD2⟩ := perp_len hE hP
  obtain ⟨-, -, f3, f4, -⟩ := factor_err (D' := max (dot P E + 1) (1 / 10 ^ 5)) (e := 0) hg0 hg hD (by rw [sub_self, abs_zero]) (by norm_num) hv
  have e : (fun i => defl0 g E P i - P i) = fun i => g / max (dot P E + 1) (1 / 10 ^ 5) * (E i - dot P E * P i) := by
    funext i; unfold defl0; rw [ite_max]; ring
  rw [e, len_smul (g / max (dot P E + 1) (1 / 10 ^ 5)) (fun i => E i - dot P E * P i), abs_of_nonneg f3]
  rwa [abs_of_nonneg (len_nonneg _)] at f4

/-- Everything after the first direction, in double precision. -/
theorem flChain_err {fl : ℝ → ℝ} (R : Rounding fl) {L : Libm} (hL : LibmOK L) (nz : Bool) {am : Amprms} (he : |len am.ehn - 1| ≤ 1e-9) (hg0 : 0 ≤ am.gr2e) (hg : am.gr2e ≤ 2.1e-8)
    (hv : len am.abv ≤ 1.1e-4) (ha : 0.999 ≤ am.ab1) (ha' : am.ab1 ≤ 1) (ho : ∀ i j, |(am.mat.transpose * am.mat) i j - (1 : Mat3) i j| ≤ 1e-10)
    {p P q Q : Vec3} {ε : ℝ} (hp : ∀ i, |p i - P i| ≤ ε) (hε : ε ≤ 3e-15) (hP : len P = 1) (hq : (q = flDeflect fl am.gr2e am.ehn p ∧ Q = defl0 am.gr2e am.ehn P) ∨ ((∀ i, |q i - Q i| ≤ 1e-14) ∧ len Q ≤ 1.2)) :
    let o := flMapFinish fl L nz am.mat (flAberr fl am.ab1 am.abv q (flDeflect fl am.gr2e am.ehn p))
    let x := mapFinish am.mat (fun i => am.ab1 * defl0 am.gr2e am.ehn P i + (1 + dot Q am.abv / (am.ab1 + 1)) * am.abv i)
    0 ≤ o.1 ∧ o.1 ≤ flD2PI fl ∧ |o.2| ≤ π / 2 + 4.5e-16 ∧ len (fun i => dir o.1 o.2 i - dir x.1 x.2 i) ≤ 16.2 * ε + 1.24e-14 := by
  intro o x
  have e0 := (abs_nonneg _).trans (hp 0)
  have h1 := flDeflect_err R he hP hp hε hg0 hg
  have h2 := defl0_close he hP hg0 hg
  have hl := abs_le.1 ((len_rev_tri (defl0 am.gr2e am.ehn P) P).trans h2)
  rw [hP] at hl
  have hq' : (∀ i, |q i - Q i| ≤ 1e-14) ∧ len Q ≤ 1.2 := by
    rcases hq with ⟨rfl, rfl⟩ | h
    · exact ⟨fun i => (h1 i).trans (by norm_num at *; linarith), by norm_num at *; linarith⟩
    · exact h
  have hc : ∀ i, |defl0 am.gr2e am.ehn P i| ≤ 1.01 := fun i => (comp_le_len _ i).trans (by norm_num at *; linarith)
  have h3 := fun i => flAberr_err R ha ha' hv hq'.1 le_rfl hq'.2 h1 (by norm_num at *; linarith) hc i
  have n1 := len_nonneg (defl0 am.gr2e am.ehn P)
  have lw : len (fun i => (1 + dot Q am.abv / (am.ab1 + 1)) * am.abv i) ≤ 1.2e-4 := by
    rw [len_smul]
    have := mul_le_mul (h3 0).2.2 hv (len_nonneg _) (by norm_num)
    norm_num at *; linarith
  have ls : len (fun i => am.ab1 * defl0 am.gr2e am.ehn P i) = am.ab1 * len (defl0 am.gr2e am.ehn P) := by
    rw [len_smul, abs_of_nonneg (by norm_num at *; linarith)]
  have r := len_rev_tri (fun i => am.ab1 * defl0 am.gr2e am.ehn P i + (1 + dot Q am.abv / (am.ab1 + 1)) * am.abv i) (fun i => am.ab1 * defl0 am.gr2e am.ehn P i)
  simp only [add_sub_cancel_left] at r
  rw [ls] at r
  have r' := abs_le.1 (r.trans lw)
  have k1 : am.ab1 * len (defl0 am.gr2e am.ehn P) ≤ 1 * (1 + 1e-5) := mul_le_mul ha' (by linarith) n1 (by norm_num)
  have k2 : 0.999 * (1 - 1e-5) ≤ am.ab1 * len (defl0 am.gr2e am.ehn P) := mul_le_mul ha (by linarith) (by norm_num) (by norm_num at *; linarith)
  obtain ⟨a, b, c, d⟩ := flMapFinish_err R hL nz ho (fun i => (h3 i).1) (by norm_num at *; linarith) (by norm_num at *; linarith) (by norm_num at *; linarith)
  refine ⟨a, b, c, d.trans ?_⟩
  norm_num at *; linarith

/-- The vector p of palMapqk in exact arithmetic. -/
noncomputable def space0 (rm dm pr pd px rv : ℝ) (am : Amprms) : Vec3 :=
  let q := dir rm dm
  let pxr := px * das2r
  let w := 0.210945028 * rv * pxr
  fun i => q i + am.pmt * (![-pr * q 1 - pd * cos rm * sin dm + w * q 0, pr * q 0 - pd * sin rm * sin dm + w * q 1, pd * cos dm + w * q 2] : Vec3) i - pxr * am.eb i

theorem das2r_bounds : 4.84e-6 ≤ das2r ∧ das2r ≤ 4.85e-6 ∧ |(4.8481368110953599358991410235794797595635330237270e-6 : ℝ) - das2r| ≤ 1e-24 := by
  have h1 := pi_gt_d20
  have h2 := pi_lt_d20
  unfold das2r
  refine ⟨by norm_num at *; linarith, by norm_num at *; linarith, ?_⟩
  rw [abs_le]; constructor <;> norm_num at * <;> linarith

/-- A rounded product with explicit bounds. -/
theorem Rounding.mulB {fl : ℝ → ℝ} (R : Rounding fl) {a A b B α β MA MB : ℝ} (ε : ℝ) (ha : |a - A| ≤ α) (hb : |b - B| ≤ β) (hA : |A| ≤ MA) (hB : |B| ≤ MB) (h29 : MA * MB + (α * MB + β * MA + α * β) ≤ 10 ^ 29)
    (he : (α * MB + β * MA + α * β) + 1.1103e-16 * (MA * MB + (α * MB + β * MA + α * β)) + 1e-190 ≤ ε) : |fl (a * b) - A * B| ≤ ε := by
  refine R.add_err2 (δ := α * MB + β * MA + α * β) (B := MA * MB) ε (mul_err _ ha hb hA hB le_rfl) ?_ h29 he
  rw [abs_mul]; exact mul_le_mul hA hB (abs_nonneg _) ((abs_nonneg _).trans hA)

/-- A rounded sum with explicit bounds. -/
theorem Rounding.addB {fl : ℝ → ℝ} (R : Rounding fl) {a A b B α β MA MB : ℝ} (ε : ℝ) (ha : |a - A| ≤ α) (hb : |b - B| ≤ β) (hA : |A| ≤ MA) (hB : |B| ≤ MB) (h29 : MA + MB + (α + β) ≤ 10 ^ 29)
    (he : (α + β) + 1.1103e-16 * (MA + MB + (α + β)) + 1e-190 ≤ ε) : |fl (a + b) - (A + B)| ≤ ε ∧ |A + B| ≤ MA + MB := by
  have hM : |A + B| ≤ MA + MB := (abs_add_le A B).trans (by linarith)
  refine ⟨R.add_err2 (δ := α + β) (B := MA + MB) ε ?_ hM h29 he, hM⟩
  rw [show a + b - (A + B) = (a - A) + (b - B) by ring]
  exact (abs_add_le _ _).trans (by linarith)

theorem Rounding.subB {fl : ℝ → ℝ} (R : Rounding fl) {a A b B α β MA MB : ℝ} (ε : ℝ) (ha : |a - A| ≤ α) (hb : |b - B| ≤ β) (hA : |A| ≤ MA) (hB : |B| ≤ MB) (h29 : MA + MB + (α + β) ≤ 10 ^ 29)
    (he : (α + β) + 1.1103e-16 * (MA + MB + (α + β)) + 1e-190 ≤ ε) : |fl (a - b) - (A - B)| ≤ ε ∧ |A - B| ≤ MA + MB := by
  have hb' : |-b - -B| ≤ β := by rw [show -b - -B = -(b - B) by ring, abs_neg]; exact hb
  have := R.addB ε ha hb' hA (by rwa [abs_neg]) h29 he
  simpa only [← sub_eq_add_neg] using this

theorem mul_bd {A B MA MB : ℝ} (hA : |A| ≤ MA) (hB : |B| ≤ MB) : |A * B| ≤ MA * MB := by
  rw [abs_mul]; exact mul_le_mul hA hB (abs_nonneg _) ((abs_nonneg _).trans hA)

theorem noerr (x : ℝ) : |x - x| ≤ 0 := by rw [sub_self, abs_zero]

set_option maxHeartbeats 1000000 in
/-- Space motion and parallax in double precision. -/
theorem flSpace_err {fl : ℝ → ℝ} (R : Rounding fl) {L : Libm} (hL : LibmOK L) {am : Amprms} (rm dm pr pd px rv : ℝ) (hpr : |pr| ≤ 3e-4) (hpd : |pd| ≤ 3e-4) (hpx : |px| ≤ 1) (hrv : |rv| ≤ 300) (ht : |am.pmt| ≤ 100)
    (heb : ∀ i, |am.eb i| ≤ 1.1) (i : Fin 3) :
    |flSpace fl L rm dm pr pd px rv am i - space0 rm dm pr pd px rv am i| ≤ 9.6e-16 ∧ |space0 rm dm pr pd px rv am i - dir rm dm i| ≤ 0.0922 := by
  have t0 : (1e-190 : ℝ) ≤ 1e-40 := tiny190.2
  have hq := flS2c_err R hL rm dm
  have hQ := dir_le rm dm
  obtain ⟨d1, d2, d3⟩ := das2r_bounds
  have hd : |das2r| ≤ 4.85e-6 := by rw [abs_of_nonneg (by norm_num at *; linarith)]; exact d2
  have x1 : |flDas2r fl - das2r| ≤ 6e-22 := by
    unfold flDas2r
    refine R.add_err2 (δ := 1e-24) (B := 4.85e-6) _ d3 hd (by norm_num) ?_
    generalize (1e-190 : ℝ) = t at *; norm_num at *; linarith
  have x2 : |fl (px * flDas2r fl) - px * das2r| ≤ 1.2e-21 :=
    R.mulB _ (noerr px) x1 hpx hd (by norm_num) (by generalize (1e-190 : ℝ) = t at *; norm_num at *; linarith)
  have x2b : |px * das2r| ≤ 4.85e-6 := (mul_bd hpx hd).trans (by norm_num)
  have v1 : |fl 0.210945028 - 0.210945028| ≤ 2.4e-17 :=
    R.add_err2 (δ := 0) (B := 0.21095) _ (noerr _) (by rw [abs_of_pos] <;> norm_num) (by norm_num) (by generalize (1e-190 : ℝ) = t at *; norm_num at *; linarith)
  have v2 : |fl (fl 0.210945028 * rv) - 0.210945028 * rv| ≤ 1.43e-14 :=
    R.mulB _ v1 (noerr rv) (MA := 0.21095) (by rw [abs_of_pos] <;> norm_num) hrv (by norm_num) (by generalize (1e-190 : ℝ) = t at *; norm_num at *; linarith)
  have v2b : |0.210945028 * rv| ≤ 63.3 := (mul_bd (MA := 0.21095) (by rw [abs_of_pos] <;> norm_num) hrv).trans (by norm_num)
  have w1 : |fl (fl (fl 0.210945028 * rv) * fl (px * flDas2r fl)) - 0.210945028 * rv * (px * das2r)| ≤ 1.8e-19 :=
    R.mulB _ v2 x2 v2b x2b (by norm_num) (by generalize (1e-190 : ℝ) = t at *; norm_num at *; linarith)
  have w1b : |0.210945028 * rv * (px * das2r)| ≤ 3.0701e-4 := (mul_bd v2b x2b).trans (by norm_num)
  have pq : ∀ (a : ℝ) j, |a| ≤ 3e-4 → |fl (a * flS2c fl L rm dm j) - a * dir rm dm j| ≤ 2.1e-19 ∧ |a * dir rm dm j| ≤ 3e-4 := fun a j h =>
    ⟨R.mulB _ (noerr a) (hq j) h (hQ j) (by norm_num) (by generalize (1e-190 : ℝ) = t at *; norm_num at *; linarith), (mul_bd h (hQ j)).trans (by norm_num)⟩
  have ps : ∀ (c C s S : ℝ), |c - C| ≤ 2.3e-16 → |s - S| ≤ 2.3e-16 → |C| ≤ 1 → |S| ≤ 1 → |fl (pd * c) - pd * C| ≤ 1.1e-19 ∧ |pd * C| ≤ 3e-4 ∧ |fl (fl (pd * c) * s) - pd * C * S| ≤ 2.2e-19 ∧ |pd * C * S| ≤ 3e-4 := by
    intro c C s S hc hs hC hS
    have a := R.mulB (1.1e-19) (noerr pd) hc hpd hC (by norm_num) (by generalize (1e-190 : ℝ) = t at *; norm_num at *; linarith)
    have b : |pd * C| ≤ 3e-4 := (mul_bd hpd hC).trans (by norm_num)
    exact ⟨a, b, R.mulB _ a hs b hS (by norm_num) (by generalize (1e-190 : ℝ) = t at *; norm_num at *; linarith), (mul_bd b hS).trans (by norm_num)⟩
  have wq : ∀ j, |fl (fl (fl (fl 0.210945028 * rv) * fl (px * flDas2r fl)) * flS2c fl L rm dm j) - 0.210945028 * rv * (px * das2r) * dir rm dm j| ≤ 4e-19 ∧ |0.210945028 * rv * (px * das2r) * dir rm dm j| ≤ 3.0701e-4 := fun j =>
    ⟨R.mulB _ w1 (hq j) w1b (hQ j) (by norm_num) (by generalize (1e-190 : ℝ) = t at *; norm_num at *; linarith), (mul_bd w1b (hQ j)).trans (by norm_num)⟩
  have fin : ∀ (em EM : ℝ) j, |em - EM| ≤ 1.05e-18 → |EM| ≤ 9.1e-4 → |fl (fl (flS2c fl L rm dm j + fl (am.pmt * em)) - fl (fl (px * flDas2r fl) * am.eb j)) - (dir rm dm j + am.pmt * EM - px * das2r * am.eb j)| ≤ 9.6e-16 ∧
      |dir rm dm j + am.pmt * EM - px * das2r * am.eb j - dir rm dm j| ≤ 0.0922 := by
    intro em EM j h hE
    have a := R.mulB 1.16e-16 (noerr am.pmt) h ht hE (by norm_num) (by generalize (1e-190 : ℝ) = t at *; norm_num at *; linarith)
    have ab : |am.pmt * EM| ≤ 0.0911 := (mul_bd ht hE).trans (by norm_num)
    have b := R.addB 8.18e-16 (hq j) a (hQ j) ab (by norm_num) (by generalize (1e-190 : ℝ) = t at *; norm_num at *; linarith)
    have c := R.mulB 3e-21 x2 (noerr (am.eb j)) x2b (heb j) (by norm_num) (by generalize (1e-190 : ℝ) = t at *; norm_num at *; linarith)
    have cb : |px * das2r * am.eb j| ≤ 5.4e-6 := (mul_bd x2b (heb j)).trans (by norm_num)
    have d := R.subB 9.6e-16 b.1 c b.2 cb (by norm_num) (by generalize (1e-190 : ℝ) = t at *; norm_num at *; linarith)
    refine ⟨d.1, ?_⟩
    rw [show dir rm dm j + am.pmt * EM - px * das2r * am.eb j - dir rm dm j = am.pmt * EM - px * das2r * am.eb j by ring]
    have := abs_sub (am.pmt * EM) (px * das2r * am.eb j)
    norm_num at *; linarith
  have hpr' : |-pr| ≤ 3e-4 := by rwa [abs_neg]
  unfold flSpace space0
  fin_cases i
  · have a := R.subB 5.2e-19 (pq (-pr) 1 hpr').1 (ps _ _ _ _ (hL.cos rm) (hL.sin dm) (abs_cos_le_one rm) (abs_sin_le_one dm)).2.2.1 (pq (-pr) 1 hpr').2 (ps _ _ _ _ (hL.cos rm) (hL.sin dm) (abs_cos_le_one rm) (abs_sin_le_one dm)).2.2.2
      (by norm_num) (by generalize (1e-190 : ℝ) = t at *; norm_num at *; linarith)
    have b := R.addB 1.05e-18 a.1 (wq 0).1 a.2 (wq 0).2 (by norm_num) (by generalize (1e-190 : ℝ) = t at *; norm_num at *; linarith)
    exact fin _ _ 0 b.1 (b.2.trans (by norm_num))
  · have a := R.subB 5.2e-19 (pq pr 0 hpr).1 (ps _ _ _ _ (hL.sin rm) (hL.sin dm) (abs_sin_le_one rm) (abs_sin_le_one dm)).2.2.1 (pq pr 0 hpr).2 (ps _ _ _ _ (hL.sin rm) (hL.sin dm) (abs_sin_le_one rm) (abs_sin_le_one dm)).2.2.2
      (by norm_num) (by generalize (1e-190 : ℝ) = t at *; norm_num at *; linarith)
    have b := R.addB 1.05e-18 a.1 (wq 1).1 a.2 (wq 1).2 (by norm_num) (by generalize (1e-190 : ℝ) = t at *; norm_num at *; linarith)
    exact fin _ _ 1 b.1 (b.2.trans (by norm_num))
  · have a := ps _ _ _ _ (hL.cos dm) (hL.sin dm) (abs_cos_le_one dm) (abs_sin_le_one dm)
    have b := R.addB 1.05e-18 a.1 (wq 2).1 a.2.1 (wq 2).2 (by norm_num) (by generalize (1e-190 : ℝ) = t at *; norm_num at *; linarith)
    exact fin _ _ 2 b.1 (b.2.trans (by norm_num))

/-- Normalised vectors differ by no more than the vectors relative to their lengths. -/
theorem unit_close {p P : Vec3} (hp : 0 < len p) (hP : 0 < len P) : len p * len P * len (fun i => p i / len p - P i / len P) ^ 2 ≤ len (fun i => p i - P i) ^ 2 := by
  have q1 := len_sq p
  have q2 := len_sq P
  have q3 := len_sq (fun i => p i - P i)
  have q4 := len_sq (fun i => p i / len p - P i / len P)
  rw [pow_two, pow_two, q4, q3]
  rw [dot_eq] at q1 q2 ⊢
  rw [dot_eq]
  have e : len p * len P * ((p 0 / len p - P 0 / len P) * (p 0 / len p - P 0 / len P) + (p 1 / len p - P 1 / len P) * (p 1 / len p - P 1 / len P) + (p 2 / len p - P 2 / len P) * (p 2 / len p - P 2 / len P)) =
      len p * len P * ((p 0 * p 0 + p 1 * p 1 + p 2 * p 2) / (len p * len p) + (P 0 * P 0 + P 1 * P 1 + P 2 * P 2) / (len P * len P)) - 2 * (p 0 * P 0 + p 1 * P 1 + p 2 * P 2) := by field_simp; ring
  rw [e, ← q1, ← q2, div_self (by positivity), div_self (by positivity)]
  nlinarith [sq_nonneg (len p - len P)]

end Pal
