import Verif.Lemmas.FlDcmpf

/-!
# palDcmpf in double precision: the zero points
-/

namespace Pal
open Real Pal.Spec Pal.Props

variable {fl : ℝ → ℝ} {L : Libm}

local macro "nn" : tactic => `(tactic| norm_num [abs_of_pos])

set_option maxHeartbeats 1000000 in
/-- The determinant and the zero points. -/
theorem dcmpf_zero (R : Rounding fl) (hL : LibmOK L) {a d A B C κ xs ys XS YS p P o O : ℝ} (k : ℤ) (ha : |a| ≤ A) (hd : |d| ≤ A) (A0 : 1e-10 ≤ A) (A1 : A ≤ 1e10) (gx : Rr 4.65 B xs XS) (gy : Rr 4.65 C ys YS)
    (B0 : 1e-10 ≤ B) (C0 : 1e-10 ≤ C) (B1 : B ≤ 2e10) (C1 : C ≤ 2e10) (eX : |XS| = B) (eY : |YS| = C) (hp : |p - P| ≤ 2.1e-15) (hP : |P| ≤ 1.5708) (hκ : cos P = κ) (κ0 : 1e-6 ≤ κ) (ho : |o - (O + k * (2 * π))| ≤ 6.5e-15) :
    let shp := L.sin (fl (p / 2))
    let chp := L.cos (fl (p / 2))
    let det := fl (fl (fl (xs * ys) * fl (chp + shp)) * fl (chp - shp))
    let Det := XS * YS * (cos (P / 2) + sin (P / 2)) * (cos (P / 2) - sin (P / 2))
    |det| > 0 ∧ |Det| > 0 ∧
    |fl (fl (ys * fl (fl (a * fl (fl (chp * L.cos o) - fl (shp * L.sin o))) - fl (d * fl (fl (chp * L.sin o) + fl (shp * L.cos o))))) / det) -
      YS * (a * (cos (P / 2) * cos O - sin (P / 2) * sin O) - d * (cos (P / 2) * sin O + sin (P / 2) * cos O)) / Det| ≤ 1.1e-13 * (A / B) / κ ^ 2 ∧
    |fl (fl (xs * fl (fl (a * fl (fl (chp * L.sin o) - fl (shp * L.cos o))) + fl (d * fl (fl (chp * L.cos o) + fl (shp * L.sin o))))) / det) -
      XS * (a * (cos (P / 2) * sin O - sin (P / 2) * cos O) + d * (cos (P / 2) * cos O + sin (P / 2) * sin O)) / Det| ≤ 1.1e-13 * (A / C) / κ ^ 2 := by
  intro shp chp det Det
  have κ1 : κ ≤ 1 := by rw [← hκ]; exact cos_le_one _
  have κp : 0 < κ := lt_of_lt_of_le (by norm_num) κ0
  have Bp : 0 < B := lt_of_lt_of_le (by norm_num) B0
  have Cp : 0 < C := lt_of_lt_of_le (by norm_num) C0
  have Ap : 0 < A := lt_of_lt_of_le (by norm_num) A0
  have P0 : 1e-20 ≤ B * C := by nlinarith
  have P1 : B * C ≤ 4e20 := by nlinarith
  have Q0 : 1e-20 ≤ A * C := by nlinarith
  have Q1 : A * C ≤ 2e20 := by nlinarith
  have S0 : 1e-20 ≤ A * B := by nlinarith
  have S1 : A * B ≤ 2e20 := by nlinarith
  have gp : Rr 12 1.5708 p P := ⟨by nn, by nn, by nn, by nn, hP, hp.trans (by norm_num)⟩
  have gh : Rr 13.1 0.7854 (fl (p / 2)) (P / 2) := by
    have := Rr.mul R 13.1 0.7854 gp (Rr.exact (X := 1 / 2) (M := 1 / 2) (by nn) (by nn) (by nn)) (by nn) (by nn) (by nn) (by nn) (by nn)
    rwa [mul_one_div, mul_one_div] at this
  have gs : Rr 12.35 1 shp (sin (P / 2)) := Rr.sin hL 12.35 gh (by nn) (by nn)
  have gc : Rr 12.35 1 chp (cos (P / 2)) := Rr.cos hL 12.35 gh (by nn) (by nn)
  have os : Rr 61 1 (L.sin o) (sin O) := by
    refine ⟨by nn, by nn, by nn, by nn, abs_sin_le_one _, ?_⟩
    have a := hL.sin o
    have b := abs_sin_sub_sin_le o (O + k * (2 * π))
    rw [sin_add_int_mul_two_pi] at b
    have := abs_sub_le (L.sin o) (sin o) (sin O)
    linarith
  have oc : Rr 61 1 (L.cos o) (cos O) := by
    refine ⟨by nn, by nn, by nn, by nn, abs_cos_le_one _, ?_⟩
    have a := hL.cos o
    have b := abs_cos_sub_cos_le o (O + k * (2 * π))
    rw [cos_add_int_mul_two_pi] at b
    have := abs_sub_le (L.cos o) (cos o) (cos O)
    linarith
  clear_value shp chp
  have m1 := Rr.mul R 74.4 1 gc oc (by nn) (by nn) (by nn) (by nn) (by nn)
  have m2 := Rr.mul R 74.4 1 gs os (by nn) (by nn) (by nn) (by nn) (by nn)
  have m3 := Rr.mul R 74.4 1 gc os (by nn) (by nn) (by nn) (by nn) (by nn)
  have m4 := Rr.mul R 74.4 1 gs oc (by nn) (by nn) (by nn) (by nn) (by nn)
  have s1 := Rr.sub R 75.4 2 m1 m2 (by nn) (by nn) (by nn) (by nn) (by nn)
  have s2 := Rr.add R 75.4 2 m3 m4 (by nn) (by nn) (by nn) (by nn) (by nn)
  have s3 := Rr.sub R 75.4 2 m3 m4 (by nn) (by nn) (by nn) (by nn) (by nn)
  have s4 := Rr.add R 75.4 2 m1 m2 (by nn) (by nn) (by nn) (by nn) (by nn)
  have aa := Rr.exact ha (by linarith) (by linarith)
  have dd := Rr.exact hd (by linarith) (by linarith)
  have w1 := Rr.sub R 77.5 (A * 4) (Rr.mul R 76.5 (A * 2) aa s1 (by nn) (by nn) le_rfl (by linarith) (by linarith)) (Rr.mul R 76.5 (A * 2) dd s2 (by nn) (by nn) le_rfl (by linarith) (by linarith)) (by linarith) (by nn) (by nn) (by linarith) (by linarith)
  have w2 := Rr.add R 77.5 (A * 4) (Rr.mul R 76.5 (A * 2) aa s3 (by nn) (by nn) le_rfl (by linarith) (by linarith)) (Rr.mul R 76.5 (A * 2) dd s4 (by nn) (by nn) le_rfl (by linarith) (by linarith)) (by linarith) (by nn) (by nn) (by linarith) (by linarith)
  have v1 := Rr.mul R 83.3 (A * C * 4) gy w1 (by nn) (by nn) (by linarith) (by linarith) (by linarith)
  have v2 := Rr.mul R 83.3 (A * B * 4) gx w2 (by nn) (by nn) (by linarith) (by linarith) (by linarith)
  have z1 := Rr.mul R 10.4 (B * C) gx gy (by nn) (by nn) le_rfl (by linarith) (by linarith)
  have z2 := Rr.add R 13.35 2 gc gs (by nn) (by nn) (by nn) (by nn) (by nn)
  have z3 := Rr.sub R 13.35 2 gc gs (by nn) (by nn) (by nn) (by nn) (by nn)
  have z4 := Rr.mul R 24.8 (B * C * 2) z1 z2 (by nn) (by nn) le_rfl (by linarith) (by linarith)
  have z5 : Rr 39.2 (B * C * 4) det Det := Rr.mul R 39.2 (B * C * 4) z4 z3 (by nn) (by nn) (by linarith) (by linarith) (by linarith)
  have hDet : |Det| = κ * (B * C) := by
    have e : Det = XS * YS * κ := by
      simp only [Det]
      rw [← hκ, show P = 2 * (P / 2) by ring, cos_two_mul']
      rw [show 2 * (P / 2) / 2 = P / 2 by ring]
      ring
    rw [e, abs_mul, abs_mul, eX, eY, abs_of_pos κp]
    ring
  clear_value det Det
  have mp : 0 < κ * (B * C) := by positivity
  have mlow : 1e-6 * (B * C) ≤ κ * (B * C) := mul_le_mul_of_nonneg_right κ0 (by positivity)
  have dpos : |det| > 0 := by
    refine abs_pos.2 fun c => ?_
    have := z5.err
    rw [c, zero_sub, abs_neg, hDet] at this
    nlinarith
  have hs : 39.2 * 1.12e-16 * (B * C * 4) ≤ 1e-5 * (κ * (B * C)) := by linarith
  have kk : ∀ {N : ℝ}, 0 < N → 1.00003 * (83.3 * N / (κ * (B * C)) + 39.2 * (B * C * 4) * N / (κ * (B * C)) / (κ * (B * C))) ≤ (242 / κ - 1) * (N / (κ * (B * C))) := by
    intro N hN
    have e : 1.00003 * (83.3 * N / (κ * (B * C)) + 39.2 * (B * C * 4) * N / (κ * (B * C)) / (κ * (B * C))) = 1.00003 * (83.3 + 156.8 / κ) * (N / (κ * (B * C))) := by
      field_simp
      ring
    rw [e]
    refine mul_le_mul_of_nonneg_right ?_ (by positivity)
    have : 1 ≤ 1 / κ := (le_div_iff₀ κp).2 (by linarith)
    rw [show (156.8 : ℝ) / κ = 156.8 * (1 / κ) by ring, show (242 : ℝ) / κ = 242 * (1 / κ) by ring]
    linarith
  have k1 : 1 ≤ 242 / κ := (le_div_iff₀ κp).2 (by linarith)
  have k2 : 242 / κ ≤ 1e10 := (div_le_iff₀ κp).2 (by linarith)
  have bd : ∀ {N : ℝ}, 1e-20 ≤ N → N ≤ 2e20 → N * 4 / (κ * (B * C)) ≤ 1e28 → 1e-60 ≤ N * 4 / (κ * (B * C)) := by
    intro N h1 h2 h3
    rw [le_div_iff₀ mp]
    have : κ * (B * C) ≤ B * C := mul_le_of_le_one_left (by positivity) κ1
    linarith
  have u1 : A * C * 4 / (κ * (B * C)) ≤ 1e28 := by
    rw [div_le_iff₀ mp]
    have : A * C ≤ 1e20 * B * C := mul_le_mul_of_nonneg_right (by linarith) Cp.le
    linarith
  have u2 : A * B * 4 / (κ * (B * C)) ≤ 1e28 := by
    rw [div_le_iff₀ mp]
    have : A * B ≤ 1e20 * C * B := mul_le_mul_of_nonneg_right (by linarith) Bp.le
    linarith
  have f1 := (Rr.div R (242 / κ) (A * C * 4 / (κ * (B * C))) (κ * (B * C)) v1 z5 mp (by rw [hDet]) hs (kk (by positivity)) k1 k2 le_rfl (bd Q0 Q1 u1) u1).err
  have f2 := (Rr.div R (242 / κ) (A * B * 4 / (κ * (B * C))) (κ * (B * C)) v2 z5 mp (by rw [hDet]) hs (kk (by positivity)) k1 k2 le_rfl (bd S0 S1 u2) u2).err
  refine ⟨dpos, by rw [hDet]; exact mp, f1.trans ?_, f2.trans ?_⟩
  · have : 242 / κ * 1.12e-16 * (A * C * 4 / (κ * (B * C))) = 1.08416e-13 * ((A / B) / κ ^ 2) := by field_simp; norm_num
    rw [this, mul_div_assoc]
    exact mul_le_mul_of_nonneg_right (by norm_num) (by positivity)
  · have : 242 / κ * 1.12e-16 * (A * B * 4 / (κ * (B * C))) = 1.08416e-13 * ((A / C) / κ ^ 2) := by field_simp; norm_num
    rw [this, mul_div_assoc]
    exact mul_le_mul_of_nonneg_right (by norm_num) (by positivity)

end Pal
