import Verif.Model.FlSmall
import Verif.Lemmas.FlMap
import Verif.Lemmas.Aop

/-! # Air mass, velocity components and ΔT in double precision: errors -/

namespace Pal
open Real Pal.Spec

/-- A stored constant. -/
theorem Rounding.cst {fl : ℝ → ℝ} (R : Rounding fl) (c : ℝ) {M : ℝ} (h : |c| ≤ M) (h0 : 1e-30 ≤ M) (h1 : M ≤ 10 ^ 29) : |fl c - c| ≤ 1.1104e-16 * M := by
  have := R.err (x := c) (h.trans (h1.trans (by norm_num)))
  have := abs_nonneg c
  have : (1 : ℝ) / 10 ^ 200 ≤ 1e-90 := by norm_num
  norm_num at *
  linarith

theorem flDot_err {fl : ℝ → ℝ} (R : Rounding fl) {L : Libm} (hL : LibmOK L) (a b : ℝ) {c0 c1 c2 M : ℝ} (hM : 1 ≤ M) (hM1 : M ≤ 1000) (h0 : |c0| ≤ M) (h1 : |c1| ≤ M) (h2 : |c2| ≤ M) :
    |flPdp fl ![fl c0, fl c1, fl c2] (flS2c fl L a b) - eraPdp ![c0, c1, c2] (eraS2c a b)| ≤ 3.5e-15 * M := by
  have M29 : M ≤ 10 ^ 29 := hM1.trans (by norm_num)
  have M0 : (1e-30 : ℝ) ≤ M := le_trans (by norm_num) hM
  have s := flS2c_err R hL a b
  have d1 : ∀ i, |dir a b i| ≤ 1 := fun i => (comp_le_len _ i).trans (len_dir a b).le
  obtain ⟨t0, t1⟩ := tiny190
  have p : ∀ c : ℝ, |c| ≤ M → ∀ i, |fl (fl c * flS2c fl L a b i) - c * dir a b i| ≤ 8.1e-16 * M ∧ |c * dir a b i| ≤ M := fun c hc i => by
    have k := R.cst c hc M0 M29
    refine ⟨R.mulB (8.1e-16 * M) k (s i) hc (d1 i) ?_ ?_, (mul_bd hc (d1 i)).trans (by linarith)⟩
    · have : (10 : ℝ) ^ 29 ≥ 2000 := by norm_num
      norm_num at *; linarith
    · generalize (1e-190 : ℝ) = t at *
      norm_num at *; linarith
  obtain ⟨p0, q0⟩ := p c0 h0 0
  obtain ⟨p1, q1⟩ := p c1 h1 1
  obtain ⟨p2, q2⟩ := p c2 h2 2
  have b29 : (10 : ℝ) ^ 29 ≥ 10000 := by norm_num
  obtain ⟨r1, w1⟩ := R.addB (1.85e-15 * M) p0 p1 q0 q1 (by norm_num at *; linarith) (by generalize (1e-190 : ℝ) = t at *; norm_num at *; linarith)
  obtain ⟨r2, w2⟩ := R.addB (3.5e-15 * M) r1 p2 w1 q2 (by norm_num at *; linarith) (by generalize (1e-190 : ℝ) = t at *; norm_num at *; linarith)
  rw [eraS2c_eq, eraPdp]
  exact r2

theorem flRverot_err {fl : ℝ → ℝ} (R : Rounding fl) {L : Libm} (hL : LibmOK L) (phi ra da st : ℝ) {B : ℝ} (hB : |st - ra| ≤ B) (hB1 : B ≤ 10 ^ 10) :
    |flRverot fl L phi ra da st - palRverot phi ra da st| ≤ 0.52e-16 * B + 6e-16 := by
  obtain ⟨t0, t1⟩ := tiny190
  have B0 : 0 ≤ B := (abs_nonneg _).trans hB
  have k := R.cst 0.4655 (M := 0.4655) (by norm_num) (by norm_num) (by norm_num)
  have d := R.err (x := st - ra) (hB.trans (hB1.trans (by norm_num)))
  have d' : |fl (st - ra) - (st - ra)| ≤ 1.1103e-16 * B + 1e-190 := by
    have : (1 : ℝ) / 10 ^ 200 ≤ 1e-190 := by norm_num
    norm_num at *; linarith
  have s : |L.sin (fl (st - ra)) - sin (st - ra)| ≤ 1.1103e-16 * B + 2.301e-16 := by
    have l := Real.abs_sin_sub_sin_le (fl (st - ra)) (st - ra)
    have := hL.sin (fl (st - ra))
    have := abs_sub_le (L.sin (fl (st - ra))) (sin (fl (st - ra))) (sin (st - ra))
    generalize (1e-190 : ℝ) = t at *
    norm_num at *; linarith
  have m1 := R.mulB 2.11e-16 k (hL.cos phi) (by norm_num : |(0.4655 : ℝ)| ≤ 0.4655) (abs_cos_le_one phi) (by norm_num) (by norm_num)
  have m2 := R.mulB (0.517e-16 * B + 3.7e-16) m1 s (mul_bd (by norm_num : |(0.4655 : ℝ)| ≤ 0.4655) (abs_cos_le_one phi)) (abs_sin_le_one _) (by norm_num at *; linarith) (by
    generalize (1e-190 : ℝ) = t at *; norm_num at *; linarith)
  have m3 := R.mulB (0.52e-16 * B + 6e-16) m2 (hL.cos da) (mul_bd (mul_bd (by norm_num : |(0.4655 : ℝ)| ≤ 0.4655) (abs_cos_le_one phi)) (abs_sin_le_one (st - ra))) (abs_cos_le_one _) (by norm_num at *; linarith) (by
    generalize (1e-190 : ℝ) = t at *; norm_num at *; linarith)
  exact m3

/-- The largest zenith distance of palAirmas as stored. -/
theorem flMaxzd_err {fl : ℝ → ℝ} (R : Rounding fl) : |fl (87 * flDd2r fl) - 87 * (π / 180)| ≤ 5e-16 := by
  have p1 := Real.pi_gt_d20
  have p2 := Real.pi_lt_d20
  have c := R.cst 0.017453292519943295769236907684886127134428718885417 (M := 0.0175) (by norm_num) (by norm_num) (by norm_num)
  have h : |flDd2r fl - π / 180| ≤ 2e-18 := by
    unfold flDd2r
    have e : |(0.017453292519943295769236907684886127134428718885417 : ℝ) - π / 180| ≤ 1e-20 := by
      rw [abs_le]; constructor <;> norm_num at * <;> linarith
    have := abs_sub_le (fl 0.017453292519943295769236907684886127134428718885417) 0.017453292519943295769236907684886127134428718885417 (π / 180)
    norm_num at *; linarith
  have hb : |π / 180| ≤ 0.01746 := by rw [abs_le]; constructor <;> norm_num at * <;> linarith
  exact R.mulB 5e-16 (noerr 87) h (by norm_num : |(87 : ℝ)| ≤ 87) hb (by norm_num) (by norm_num)

theorem cos87 : 0.0523 ≤ cos (87 * (π / 180)) := by
  have p1 := Real.pi_gt_d20
  have p2 := Real.pi_lt_d20
  have e : cos (87 * (π / 180)) = sin (3 * (π / 180)) := by rw [← Real.cos_pi_div_two_sub]; congr 1; ring
  rw [e]
  have := Real.sin_gt_sub_cube (x := 3 * (π / 180)) (by linarith)
  have h1 : 3 * (π / 180) ≤ 0.05236 := by norm_num at *; linarith
  have h0 : 0 ≤ 3 * (π / 180) := by linarith
  have h3 := pow_le_pow_left₀ h0 h1 3
  norm_num at *; linarith

set_option maxHeartbeats 1000000 in
/-- The polynomial of palAirmas. -/
theorem flAirmas_err {fl : ℝ → ℝ} (R : Rounding fl) {L : Libm} (hL : LibmOK L) (zd : ℝ) : |flAirmas fl L zd - palAirmas zd| ≤ 4.7e-13 := by
  have p1 := Real.pi_gt_d20
  have p2 := Real.pi_lt_d20
  have mz := flMaxzd_err R
  unfold flAirmas palAirmas
  dsimp only
  generalize fl (87 * flDd2r fl) = mx at *
  have e1 : (if |zd| > mx then mx else |zd|) = min |zd| mx := by
    split_ifs with h
    · rw [min_eq_right h.le]
    · rw [min_eq_left (not_lt.1 h)]
  have e2 : (if |zd| > 87 * (π / 180) then 87 * (π / 180) else |zd|) = min |zd| (87 * (π / 180)) := by
    split_ifs with h
    · rw [min_eq_right h.le]
    · rw [min_eq_left (not_lt.1 h)]
  rw [e1, e2]
  have hz : |min |zd| mx - min |zd| (87 * (π / 180))| ≤ 5e-16 := (abs_min_sub_min_le_max _ _ _ _).trans (by rw [sub_self, abs_zero]; exact max_le (by norm_num) mz)
  have z0 : 0 ≤ min |zd| (87 * (π / 180)) := le_min (abs_nonneg _) (by linarith)
  have z1 := min_le_right |zd| (87 * (π / 180))
  generalize min |zd| mx = x at *
  generalize min |zd| (87 * (π / 180)) = X at *
  have hC : 0.0523 ≤ cos X := cos87.trans (Real.cos_le_cos_of_nonneg_of_le_pi z0 (by linarith) z1)
  have hC1 := Real.cos_le_one X
  have hc : |L.cos x - cos X| ≤ 7.3e-16 := by
    have := hL.cos x
    have := Real.abs_cos_sub_cos_le x X
    have := abs_sub_le (L.cos x) (cos x) (cos X)
    norm_num at *; linarith
  clear e1 e2 mz hz z0 z1
  generalize cos X = C at *
  generalize L.cos x = c at *
  have hc0 := (abs_le.1 hc).1
  have c0 : 0.0522 ≤ c := by norm_num at *; linarith
  have C0 : 0 < C := lt_of_lt_of_le (by norm_num) hC
  have c0' : 0 < c := lt_of_lt_of_le (by norm_num) c0
  have i1 : |1 / c - 1 / C| ≤ 2.68e-13 := by
    have e : 1 / c - 1 / C = -(c - C) / (c * C) := by field_simp; ring
    rw [e, abs_div, abs_neg, abs_of_pos (mul_pos c0' C0), div_le_iff₀ (mul_pos c0' C0)]
    have : (0.0522 : ℝ) * 0.0523 ≤ c * C := mul_le_mul c0 hC (by norm_num) c0'.le
    norm_num at *; linarith
  have S1 : 1 ≤ 1 / C := by rw [le_div_iff₀ C0]; linarith
  have S2 : 1 / C ≤ 19.2 := by rw [div_le_iff₀ C0]; norm_num at *; linarith
  have i2 := R.add_err2 (B := 19.2) 2.71e-13 i1 (by rw [abs_of_pos (by linarith)]; exact S2) (by norm_num) (by norm_num)
  have hS : |1 / C - 1| ≤ 18.2 := by rw [abs_of_nonneg (by linarith)]; norm_num at *; linarith
  have i3 := R.add_err2 (x := fl (1 / c) - 1) (X := 1 / C - 1) (δ := 2.71e-13) (B := 18.2) 2.74e-13 (by
    rw [show fl (1 / c) - 1 - (1 / C - 1) = fl (1 / c) - 1 / C by ring]; exact i2) hS (by norm_num) (by norm_num)
  have S0 : 0 ≤ 1 / C - 1 := by linarith
  clear i1 i2 S1 S2 hc hc0
  generalize 1 / C - 1 = S at *
  generalize fl (fl (1 / c) - 1) = s at *
  have k1 := R.cst 0.9981833 (M := 1) (by norm_num) (by norm_num) (by norm_num)
  have k2 := R.cst 0.002875 (M := 0.0029) (by norm_num) (by norm_num) (by norm_num)
  have k3 := R.cst 0.0008083 (M := 0.00081) (by norm_num) (by norm_num) (by norm_num)
  have m1 := R.mulB 2.3e-16 k3 i3 (by norm_num : |(0.0008083 : ℝ)| ≤ 0.00081) hS (by norm_num) (by norm_num)
  have m1' := mul_bd (by norm_num : |(0.0008083 : ℝ)| ≤ 0.00081) hS
  obtain ⟨m2, m2'⟩ := R.addB 2.4e-16 k2 m1 (by norm_num : |(0.002875 : ℝ)| ≤ 0.0029) m1' (by norm_num) (by norm_num)
  have m3 := R.mulB 9.5e-15 i3 m2 hS m2' (by norm_num) (by norm_num)
  have m3' := mul_bd hS m2'
  obtain ⟨m4, m4'⟩ := R.subB 1e-14 k1 m3 (by norm_num : |(0.9981833 : ℝ)| ≤ 1) m3' (by norm_num) (by norm_num)
  have T : |0.9981833 - S * (0.002875 + 0.0008083 * S)| ≤ 1 := by
    have s1 := (abs_le.1 hS).2
    have q0 : 0 ≤ S * (0.002875 + 0.0008083 * S) := by positivity
    have q1 : S * (0.002875 + 0.0008083 * S) ≤ 18.2 * (0.0029 + 0.00081 * 18.2) := mul_le_mul s1 (by norm_num at *; linarith) (by positivity) (by norm_num)
    rw [abs_le]; constructor <;> norm_num at * <;> linarith
  have m5 := R.mulB 4.6e-13 i3 m4 hS T (by norm_num) (by norm_num)
  have m5' := mul_bd hS T
  obtain ⟨m6, -⟩ := R.addB 4.7e-13 (noerr 1) m5 (by norm_num : |(1 : ℝ)| ≤ 1) m5' (by norm_num) (by norm_num)
  exact m6.trans (by norm_num)

/-- The three polynomials of palDt. -/
theorem flDt_polys {fl : ℝ → ℝ} (R : Rounding fl) (epoch : ℝ) (h : |epoch| ≤ 10000) :
    let t := fl (fl (epoch - 1800) / 100)
    let T := (epoch - 1800) / 100
    |fl (fl 5.156 + fl (fl (fl 13.3066 * fl (t - fl 0.19)) * fl (t - fl 0.19))) - (5.156 + 13.3066 * (T - 0.19) * (T - 0.19))| ≤ 3e-10 ∧
    |fl (fl (fl 25.5 * t) * t) - 25.5 * T * T| ≤ 3e-10 ∧
    |fl (1360 + fl (fl (320 + fl (fl 44.3 * t)) * t)) - (1360 + (320 + 44.3 * T) * T)| ≤ 8e-10 := by
  intro t T
  have hE : |epoch - 1800| ≤ 11800 := by
    obtain ⟨a, b⟩ := abs_le.1 h
    rw [abs_le]; constructor <;> linarith
  have a1 := R.add_err2 (x := epoch - 1800) (X := epoch - 1800) (δ := 0) (B := 11800) 1.32e-12 (noerr _) hE (by norm_num) (by norm_num)
  have hT : |T| ≤ 118 := by
    show |(epoch - 1800) / 100| ≤ 118
    rw [abs_div, abs_of_pos (by norm_num : (0 : ℝ) < 100), div_le_iff₀ (by norm_num)]; linarith
  have a2 : |t - T| ≤ 2.7e-14 := R.add_err2 (δ := 1.32e-14) (B := 118) 2.7e-14 (by
    show |fl (epoch - 1800) / 100 - (epoch - 1800) / 100| ≤ _
    rw [← sub_div, abs_div, abs_of_pos (by norm_num : (0 : ℝ) < 100), div_le_iff₀ (by norm_num)]
    exact a1.trans (by norm_num)) hT (by norm_num) (by norm_num)
  clear_value t T
  have k1 := R.cst 0.19 (M := 0.19) (by norm_num) (by norm_num) (by norm_num)
  have k2 := R.cst 5.156 (M := 5.156) (by norm_num) (by norm_num) (by norm_num)
  have k3 := R.cst 13.3066 (M := 13.3066) (by norm_num) (by norm_num) (by norm_num)
  have k4 := R.cst 25.5 (M := 25.5) (by norm_num) (by norm_num) (by norm_num)
  have k5 := R.cst 44.3 (M := 44.3) (by norm_num) (by norm_num) (by norm_num)
  refine ⟨?_, ?_, ?_⟩
  · obtain ⟨w, w'⟩ := R.subB 4.1e-14 a2 k1 hT (by norm_num : |(0.19 : ℝ)| ≤ 0.19) (by norm_num) (by norm_num)
    have m1 := R.mulB 1e-12 k3 w (by norm_num : |(13.3066 : ℝ)| ≤ 13.3066) w' (by norm_num) (by norm_num)
    have m1' := mul_bd (by norm_num : |(13.3066 : ℝ)| ≤ 13.3066) w'
    have m2 := R.mulB 2.2e-10 m1 w m1' w' (by norm_num) (by norm_num)
    exact (R.addB 3e-10 k2 m2 (by norm_num : |(5.156 : ℝ)| ≤ 5.156) (mul_bd m1' w') (by norm_num) (by norm_num)).1
  · have m1 := R.mulB 1.4e-12 k4 a2 (by norm_num : |(25.5 : ℝ)| ≤ 25.5) hT (by norm_num) (by norm_num)
    exact R.mulB 3e-10 m1 a2 (mul_bd (by norm_num : |(25.5 : ℝ)| ≤ 25.5) hT) hT (by norm_num) (by norm_num)
  · have m1 := R.mulB 2.5e-12 k5 a2 (by norm_num : |(44.3 : ℝ)| ≤ 44.3) hT (by norm_num) (by norm_num)
    obtain ⟨m2, m2'⟩ := R.addB 3.2e-12 (noerr 320) m1 (by norm_num : |(320 : ℝ)| ≤ 320) (mul_bd (by norm_num : |(44.3 : ℝ)| ≤ 44.3) hT) (by norm_num) (by norm_num)
    have m3 := R.mulB 6.1e-10 m2 a2 m2' hT (by norm_num) (by norm_num)
    exact (R.addB 8e-10 (noerr 1360) m3 (by norm_num : |(1360 : ℝ)| ≤ 1360) (mul_bd m2' hT) (by norm_num) (by norm_num)).1

end Pal
