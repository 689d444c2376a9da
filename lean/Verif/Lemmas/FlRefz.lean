import Verif.Lemmas.FlRefr

/-! # palRefz in double precision: errors -/

namespace Pal
open Real Pal.Spec

theorem cos_low {X : ℝ} (h : |X| ≤ 1.4535) : 0.117 ≤ cos X := by
  have p1 := Real.pi_gt_d20
  have p2 := Real.pi_lt_d20
  rw [← Real.cos_abs]
  have h2 := Real.cos_le_cos_of_nonneg_of_le_pi (abs_nonneg X) (by norm_num at *; linarith) h
  refine le_trans ?_ h2
  rw [← Real.sin_pi_div_two_sub]
  have := Real.sin_gt_sub_cube (x := π / 2 - 1.4535) (by norm_num at *; linarith)
  have a0 : 0 ≤ π / 2 - 1.4535 := by norm_num at *; linarith
  have a1 : π / 2 - 1.4535 ≤ 0.1173 := by norm_num at *; linarith
  have := pow_le_pow_left₀ a0 a1 3
  norm_num at *; linarith

set_option maxHeartbeats 1000000 in
/-- The terms of a Newton step of palRefz. -/
theorem flRefz_parts {fl : ℝ → ℝ} (R : Rounding fl) {L : Libm} (hL : LibmOK L) {x X refa refb : ℝ} (hx : |x - X| ≤ 6e-16) (hX : |X| ≤ 1.4535) (ha : |refa| ≤ 5e-4) (hb : |refb| ≤ 5e-7) :
    let t := fl (L.sin x / L.cos x)
    let T := sin X / cos X
    |fl (refa * t) - refa * T| ≤ 3.6e-17 ∧ |refa * T| ≤ 4.28e-3 ∧ |fl (refb * fl (t * fl (t * t))) - refb * (T * (T * T))| ≤ 8.1e-18 ∧ |refb * (T * (T * T))| ≤ 3.13e-4 ∧
    Near 1.1e-15 (flRefzDen fl refa refb (L.cos x) (fl (t * t))) (1 + (refa + 3 * refb * (T * T)) / (cos X * cos X)) ∧ 0.955 ≤ 1 + (refa + 3 * refb * (T * T)) / (cos X * cos X) := by
  intro t T
  have c0 := cos_low hX
  have c1 := Real.cos_le_one X
  have s1 := abs_sin_le_one X
  have C0 : 0 < cos X := lt_of_lt_of_le (by norm_num) c0
  have hc : |L.cos x - cos X| ≤ 8.3e-16 := by
    have := hL.cos x
    have := Real.abs_cos_sub_cos_le x X
    have := abs_sub_le (L.cos x) (cos x) (cos X)
    norm_num at *; linarith
  have hs : |L.sin x - sin X| ≤ 8.3e-16 := by
    have := hL.sin x
    have := Real.abs_sin_sub_sin_le x X
    have := abs_sub_le (L.sin x) (sin x) (sin X)
    norm_num at *; linarith
  have nc : Near 7.1e-15 (L.cos x) (cos X) := ⟨C0, by norm_num, by norm_num, by norm_num at *; linarith⟩
  have QT : |T| ≤ 8.55 := by
    show |sin X / cos X| ≤ _
    rw [abs_div, abs_of_pos C0, div_le_iff₀ C0]; norm_num at *; linarith
  have tT : |t - T| ≤ 7e-14 := R.divN 7e-14 hs nc (by norm_num : (0 : ℝ) < 0.117) c0 QT (by norm_num) (by norm_num)
  clear_value t T
  have q1 := R.mulB 1.21e-12 tT tT QT QT (by norm_num) (by norm_num)
  have q1' := mul_bd QT QT
  have q2 := R.mulB 1.56e-11 tT q1 QT q1' (by norm_num) (by norm_num)
  have q2' := mul_bd QT q1'
  have a1 := R.mulB 3.6e-17 (noerr refa) tT ha QT (by norm_num) (by norm_num)
  have b1 := R.mulB 8.1e-18 (noerr refb) q2 hb q2' (by norm_num) (by norm_num)
  have b3 := R.mulB 1.7e-22 (noerr 3) (noerr refb) (by norm_num : |(3 : ℝ)| ≤ 3) hb (by norm_num) (by norm_num)
  have b3' := mul_bd (by norm_num : |(3 : ℝ)| ≤ 3) hb
  have b4 := R.mulB 1.9e-18 b3 q1 b3' q1' (by norm_num) (by norm_num)
  have b4' := mul_bd b3' q1'
  obtain ⟨b5, b5'⟩ := R.addB 2e-18 (noerr refa) b4 ha b4' (by norm_num) (by norm_num)
  have C2l : 0.01368 ≤ cos X * cos X := by have := mul_le_mul c0 c0 (by norm_num) C0.le; norm_num at *; linarith
  have C2u : cos X * cos X ≤ 1 := by nlinarith
  have ncc : Near 1.45e-14 (fl (L.cos x * L.cos x)) (cos X * cos X) := (nc.mul 1.43e-14 nc (by norm_num) (by norm_num)).fl R 1.45e-14 (le_trans (by norm_num) C2l) (C2u.trans (by norm_num)) (by norm_num) (by norm_num)
  have Q : |(refa + 3 * refb * (T * T)) / (cos X * cos X)| ≤ 0.0447 := by
    rw [abs_div, abs_of_pos ncc.pos, div_le_iff₀ ncc.pos]; norm_num at *; linarith
  have g := R.divN 8.5e-16 b5 ncc (by norm_num : (0 : ℝ) < 0.01368) C2l Q (by norm_num) (by norm_num)
  obtain ⟨g2, -⟩ := R.addB 1e-15 (noerr 1) g (by norm_num : |(1 : ℝ)| ≤ 1) Q (by norm_num) (by norm_num)
  have D0 : 0.955 ≤ 1 + (refa + 3 * refb * (T * T)) / (cos X * cos X) := by have := (abs_le.1 Q).1; norm_num at *; linarith
  refine ⟨a1, (mul_bd ha QT).trans (by norm_num), b1, (mul_bd hb q2').trans (by norm_num), ⟨lt_of_lt_of_le (by norm_num) D0, by norm_num, by norm_num, ?_⟩, D0⟩
  unfold flRefzDen
  refine g2.trans ?_
  norm_num at *; linarith

set_option maxHeartbeats 1000000 in
/-- The refraction of palRefz up to 83 degrees. -/
theorem flRefz_low {fl : ℝ → ℝ} (R : Rounding fl) {L : Libm} (hL : LibmOK L) {x X refa refb : ℝ} (hx : |x - X| ≤ 3.4e-16) (hX : |X| ≤ 1.44863) (ha : |refa| ≤ 5e-4) (hb : |refb| ≤ 5e-7) :
    |flRefzSecond fl L x refa refb (flRefzFirst fl L x refa refb) - (X - (X - refzStep X refa refb X) + refzStep X refa refb (X - refzStep X refa refb X))| ≤ 1.95e-15 ∧
    |X - (X - refzStep X refa refb X) + refzStep X refa refb (X - refzStep X refa refb X)| ≤ 0.0147 := by
  obtain ⟨a1, a2, a3, a4, a5, a6⟩ := flRefz_parts R hL (hx.trans (by norm_num)) (hX.trans (by norm_num)) ha hb
  have e1 : refzStep X refa refb X = (refa * (sin X / cos X) + refb * (sin X / cos X * (sin X / cos X * (sin X / cos X)))) / (1 + (refa + 3 * refb * (sin X / cos X * (sin X / cos X))) / (cos X * cos X)) := by
    unfold refzStep; dsimp only; rw [sub_self, zero_add]
  obtain ⟨n1, n2⟩ := R.addB 4.5e-17 a1 a3 a2 a4 (by norm_num) (by norm_num)
  have Q1 : |(refa * (sin X / cos X) + refb * (sin X / cos X * (sin X / cos X * (sin X / cos X)))) / (1 + (refa + 3 * refb * (sin X / cos X * (sin X / cos X))) / (cos X * cos X))| ≤ 4.82e-3 := by
    rw [abs_div, abs_of_pos a5.pos, div_le_iff₀ a5.pos]; norm_num at *; linarith
  have r1 := R.divN 5.4e-17 n1 a5 (by norm_num : (0 : ℝ) < 0.955) a6 Q1 (by norm_num) (by norm_num)
  rw [← e1] at r1 Q1
  obtain ⟨r2, r3⟩ := R.subB 5.6e-16 hx r1 hX Q1 (by norm_num) (by norm_num)
  change |flRefzFirst fl L x refa refb - (X - refzStep X refa refb X)| ≤ _ at r2
  have dd : |X - (X - refzStep X refa refb X)| ≤ 4.82e-3 := by rw [show X - (X - refzStep X refa refb X) = refzStep X refa refb X by ring]; exact Q1
  clear a1 a2 a3 a4 a5 a6 e1 n1 n2 Q1 r1
  generalize flRefzFirst fl L x refa refb = z at *
  generalize X - refzStep X refa refb X = Z at *
  obtain ⟨a1, a2, a3, a4, a5, a6⟩ := flRefz_parts R hL (r2.trans (by norm_num)) (r3.trans (by norm_num)) ha hb
  have m : |(x - z) - (X - Z)| ≤ 9e-16 := by
    rw [show (x - z) - (X - Z) = (x - X) - (z - Z) by ring]
    exact (abs_sub _ _).trans (by norm_num at *; linarith)
  have m1 := R.add_err2 (B := 4.82e-3) 9.01e-16 m dd (by norm_num) (by norm_num)
  have m2 := R.add_err2 (x := z - x) (X := Z - X) (δ := 9e-16) (B := 4.82e-3) 9.01e-16 (by rw [show z - x - (Z - X) = -((x - z) - (X - Z)) by ring, abs_neg]; exact m) (by rw [abs_sub_comm]; exact dd) (by norm_num) (by norm_num)
  have dd' : |Z - X| ≤ 4.82e-3 := by rw [abs_sub_comm]; exact dd
  obtain ⟨n1, n1'⟩ := R.addB 9.4e-16 m2 a1 dd' a2 (by norm_num) (by norm_num)
  obtain ⟨n2, n2'⟩ := R.addB 9.5e-16 n1 a3 n1' a4 (by norm_num) (by norm_num)
  unfold flRefzSecond refzStep
  dsimp only
  generalize flRefzDen fl refa refb (L.cos z) (fl (fl (L.sin z / L.cos z) * fl (L.sin z / L.cos z))) = den at *
  generalize 1 + (refa + 3 * refb * (sin Z / cos Z * (sin Z / cos Z))) / (cos Z * cos Z) = D at *
  generalize fl (fl (fl (z - x) + fl (refa * fl (L.sin z / L.cos z))) + fl (refb * fl (fl (L.sin z / L.cos z) * fl (fl (L.sin z / L.cos z) * fl (L.sin z / L.cos z))))) = n at *
  generalize Z - X + refa * (sin Z / cos Z) + refb * (sin Z / cos Z * (sin Z / cos Z * (sin Z / cos Z))) = N at *
  have Q2 : |N / D| ≤ 9.87e-3 := by
    rw [abs_div, abs_of_pos a5.pos, div_le_iff₀ a5.pos]; norm_num at *; linarith
  have r := R.divN 1.02e-15 n2 a5 (by norm_num : (0 : ℝ) < 0.955) a6 Q2 (by norm_num) (by norm_num)
  obtain ⟨f1, f2⟩ := R.addB 1.95e-15 m1 r dd Q2 (by norm_num) (by norm_num)
  exact ⟨f1, f2.trans (by norm_num)⟩

/-- The refraction at 83 degrees of the second model, as computed. -/
theorem flRef83_near {fl : ℝ → ℝ} (R : Rounding fl) : Near 1e-15 (flRef83 fl) (refzHigh 7) ∧ 0.138 ≤ refzHigh 7 := by
  have k1 := R.cst 0.55445 (M := 0.55445) (by norm_num) (by norm_num) (by norm_num)
  have k2 := R.cst 0.01133 (M := 0.01133) (by norm_num) (by norm_num) (by norm_num)
  have k3 := R.cst 0.00202 (M := 0.00202) (by norm_num) (by norm_num) (by norm_num)
  have k4 := R.cst 0.28385 (M := 0.28385) (by norm_num) (by norm_num) (by norm_num)
  have k5 := R.cst 0.02390 (M := 0.02390) (by norm_num) (by norm_num) (by norm_num)
  have k2' : |-fl 0.01133 - -0.01133| ≤ 1.1104e-16 * 0.01133 := by rw [← neg_sub', abs_neg, abs_sub_comm, abs_sub_comm]; exact k2
  have a1 := R.mulB 1.8e-17 k2' (noerr 7) (by norm_num : |(-0.01133 : ℝ)| ≤ 0.01133) (by norm_num : |(7 : ℝ)| ≤ 7) (by norm_num) (by norm_num)
  obtain ⟨a2, a2'⟩ := R.addB 1.6e-16 k1 a1 (by norm_num : |(0.55445 : ℝ)| ≤ 0.55445) (by norm_num : |(-0.01133 * 7 : ℝ)| ≤ 0.0794) (by norm_num) (by norm_num)
  have a3 := R.mulB 2.3e-17 k3 (noerr 49) (by norm_num : |(0.00202 : ℝ)| ≤ 0.00202) (by norm_num : |(49 : ℝ)| ≤ 49) (by norm_num) (by norm_num)
  have a4 := R.add_err2 (x := fl (fl 0.55445 + fl (-fl 0.01133 * 7)) + fl (fl 0.00202 * 49)) (X := 0.57412) (δ := 1.83e-16) (B := 0.57412) 2.5e-16 (by
    have := abs_add_le (fl (fl 0.55445 + fl (-fl 0.01133 * 7)) - (0.55445 + -0.01133 * 7)) (fl (fl 0.00202 * 49) - 0.00202 * 49)
    rw [show fl (fl 0.55445 + fl (-fl 0.01133 * 7)) + fl (fl 0.00202 * 49) - 0.57412 = fl (fl 0.55445 + fl (-fl 0.01133 * 7)) - (0.55445 + -0.01133 * 7) + (fl (fl 0.00202 * 49) - 0.00202 * 49) by norm_num; ring]
    exact this.trans (by norm_num at *; linarith)) (by norm_num) (by norm_num) (by norm_num)
  have c1 := R.mulB 4.5e-16 k4 (noerr 7) (by norm_num : |(0.28385 : ℝ)| ≤ 0.28385) (by norm_num : |(7 : ℝ)| ≤ 7) (by norm_num) (by norm_num)
  obtain ⟨c2, c2'⟩ := R.addB 8e-16 (noerr 1) c1 (by norm_num : |(1 : ℝ)| ≤ 1) (by norm_num : |(0.28385 * 7 : ℝ)| ≤ 1.987) (by norm_num) (by norm_num)
  have c3 := R.mulB 2.7e-16 k5 (noerr 49) (by norm_num : |(0.02390 : ℝ)| ≤ 0.02390) (by norm_num : |(49 : ℝ)| ≤ 49) (by norm_num) (by norm_num)
  obtain ⟨c4, -⟩ := R.addB 1.6e-15 c2 c3 c2' (by norm_num : |(0.02390 * 49 : ℝ)| ≤ 1.1712) (by norm_num) (by norm_num)
  have hh : refzHigh 7 = 0.57412 / 4.15805 := by unfold refzHigh; norm_num
  have n1 : Near 4.4e-16 (fl (fl (fl 0.55445 + fl (-fl 0.01133 * 7)) + fl (fl 0.00202 * 49))) 0.57412 := ⟨by norm_num, by norm_num, by norm_num, a4.trans (by norm_num)⟩
  have n2 : Near 3.9e-16 (fl (fl (1 + fl (fl 0.28385 * 7)) + fl (fl 0.02390 * 49))) 4.15805 := ⟨by norm_num, by norm_num, by norm_num, by
    rw [show (4.15805 : ℝ) = 1 + 0.28385 * 7 + 0.02390 * 49 by norm_num]; exact c4.trans (by norm_num)⟩
  have n3 := (n1.div 8.4e-16 n2 (by norm_num) (by norm_num)).fl R 1e-15 (by norm_num) (by norm_num) (by norm_num) (by norm_num)
  rw [hh]
  exact ⟨n3, by norm_num⟩

set_option maxHeartbeats 1000000 in
/-- The scaling of the refraction beyond 83 degrees. -/
theorem flRefz_high {fl : ℝ → ℝ} (R : Rounding fl) {r V e E : ℝ} (hr : |r - V| ≤ 1.95e-15) (hV : |V| ≤ 0.0147) (he : |e - E| ≤ 7e-14) (h1 : -3 ≤ E) (h2 : E ≤ 7) :
    |fl (fl (fl (r / flRef83 fl) * fl (fl (fl 0.55445 + fl (-fl 0.01133 * e)) + fl (fl 0.00202 * fl (e * e)))) / fl (fl (1 + fl (fl 0.28385 * e)) + fl (fl 0.02390 * fl (e * e)))) -
      V / refzHigh 7 * (0.55445 + -0.01133 * E + 0.00202 * (E * E)) / (1 + 0.28385 * E + 0.02390 * (E * E))| ≤ 6e-14 ∧
    |V / refzHigh 7 * (0.55445 + -0.01133 * E + 0.00202 * (E * E)) / (1 + 0.28385 * E + 0.02390 * (E * E))| ≤ 0.22 := by
  obtain ⟨n7, l7⟩ := flRef83_near R
  generalize flRef83 fl = g at *
  generalize refzHigh 7 = G at *
  have k1 := R.cst 0.55445 (M := 0.55445) (by norm_num) (by norm_num) (by norm_num)
  have k2 := R.cst 0.01133 (M := 0.01133) (by norm_num) (by norm_num) (by norm_num)
  have k3 := R.cst 0.00202 (M := 0.00202) (by norm_num) (by norm_num) (by norm_num)
  have k4 := R.cst 0.28385 (M := 0.28385) (by norm_num) (by norm_num) (by norm_num)
  have k5 := R.cst 0.02390 (M := 0.02390) (by norm_num) (by norm_num) (by norm_num)
  have k2' : |-fl 0.01133 - -0.01133| ≤ 1.1104e-16 * 0.01133 := by rw [← neg_sub', abs_neg, abs_sub_comm, abs_sub_comm]; exact k2
  have hE : |E| ≤ 7 := by rw [abs_le]; constructor <;> linarith
  have e2 := R.mulB 9.9e-13 he he hE hE (by norm_num) (by norm_num)
  have e2' := mul_bd hE hE
  have Q1 : |V / G| ≤ 0.1066 := by
    rw [abs_div, abs_of_pos n7.pos, div_le_iff₀ n7.pos]; norm_num at *; linarith
  have v := R.divN 1.43e-14 hr n7 (by norm_num : (0 : ℝ) < 0.138) l7 Q1 (by norm_num) (by norm_num)
  have a1 := R.mulB 9e-16 k2' he (by norm_num : |(-0.01133 : ℝ)| ≤ 0.01133) hE (by norm_num) (by norm_num)
  obtain ⟨a2, a2'⟩ := R.addB 1.1e-15 k1 a1 (by norm_num : |(0.55445 : ℝ)| ≤ 0.55445) (mul_bd (by norm_num : |(-0.01133 : ℝ)| ≤ 0.01133) hE) (by norm_num) (by norm_num)
  have a3 := R.mulB 2.1e-15 k3 e2 (by norm_num : |(0.00202 : ℝ)| ≤ 0.00202) e2' (by norm_num) (by norm_num)
  obtain ⟨a4, a4'⟩ := R.addB 3.3e-15 a2 a3 a2' (mul_bd (by norm_num : |(0.00202 : ℝ)| ≤ 0.00202) e2') (by norm_num) (by norm_num)
  have p := R.mulB 1.09e-14 v a4 Q1 a4' (by norm_num) (by norm_num)
  have p' := mul_bd Q1 a4'
  have c1 := R.mulB 2.05e-14 k4 he (by norm_num : |(0.28385 : ℝ)| ≤ 0.28385) hE (by norm_num) (by norm_num)
  obtain ⟨c2, c2'⟩ := R.addB 2.1e-14 (noerr 1) c1 (by norm_num : |(1 : ℝ)| ≤ 1) (mul_bd (by norm_num : |(0.28385 : ℝ)| ≤ 0.28385) hE) (by norm_num) (by norm_num)
  have c3 := R.mulB 2.41e-14 k5 e2 (by norm_num : |(0.02390 : ℝ)| ≤ 0.02390) e2' (by norm_num) (by norm_num)
  obtain ⟨c4, -⟩ := R.addB 4.57e-14 c2 c3 c2' (mul_bd (by norm_num : |(0.02390 : ℝ)| ≤ 0.02390) e2') (by norm_num) (by norm_num)
  have D0 : 0.363 ≤ 1 + 0.28385 * E + 0.02390 * (E * E) := by
    have : 0 ≤ (E + 3) * (0.28385 + 0.02390 * (E - 3)) := mul_nonneg (by linarith) (by norm_num at *; linarith)
    norm_num at *; linarith
  have nD : Near 1.27e-13 (fl (fl (1 + fl (fl 0.28385 * e)) + fl (fl 0.02390 * fl (e * e)))) (1 + 0.28385 * E + 0.02390 * (E * E)) := ⟨lt_of_lt_of_le (by norm_num) D0, by norm_num, by norm_num, c4.trans (by norm_num at *; linarith)⟩
  have Q2 : |V / G * (0.55445 + -0.01133 * E + 0.00202 * (E * E)) / (1 + 0.28385 * E + 0.02390 * (E * E))| ≤ 0.2156 := by
    rw [abs_div, abs_of_pos nD.pos, div_le_iff₀ nD.pos]; norm_num at *; linarith
  exact ⟨R.divN 6e-14 p nD (by norm_num : (0 : ℝ) < 0.363) D0 Q2 (by norm_num) (by norm_num), Q2.trans (by norm_num)⟩

/-- Next to 83 degrees the scaling is by one. -/
theorem refzHigh_near {V E : ℝ} (hV : |V| ≤ 0.0147) (h1 : 7 - 3e-14 ≤ E) (h2 : E ≤ 7) :
    |V - V / refzHigh 7 * (0.55445 + -0.01133 * E + 0.00202 * (E * E)) / (1 + 0.28385 * E + 0.02390 * (E * E))| ≤ 1e-15 := by
  have D0 : 4 ≤ 1 + 0.28385 * E + 0.02390 * (E * E) := by nlinarith
  have hh : refzHigh 7 = 0.57412 / 4.15805 := by unfold refzHigh; norm_num
  have e : V - V / refzHigh 7 * (0.55445 + -0.01133 * E + 0.00202 * (E * E)) / (1 + 0.28385 * E + 0.02390 * (E * E)) =
      V * ((1 + 0.28385 * E + 0.02390 * (E * E)) - 4.15805 / 0.57412 * (0.55445 + -0.01133 * E + 0.00202 * (E * E))) / (1 + 0.28385 * E + 0.02390 * (E * E)) := by
    rw [hh]; have : 1 + 0.28385 * E + 0.02390 * (E * E) ≠ 0 := by linarith
    field_simp
  have d : |(1 + 0.28385 * E + 0.02390 * (E * E)) - 4.15805 / 0.57412 * (0.55445 + -0.01133 * E + 0.00202 * (E * E))| ≤ 3e-14 := by
    rw [show (1 + 0.28385 * E + 0.02390 * (E * E)) - 4.15805 / 0.57412 * (0.55445 + -0.01133 * E + 0.00202 * (E * E)) =
      (E - 7) * ((0.28385 + 0.02390 * (E + 7)) - 4.15805 / 0.57412 * (-0.01133 + 0.00202 * (E + 7))) by norm_num; ring, abs_mul]
    have u1 : |E - 7| ≤ 3e-14 := by rw [abs_le]; constructor <;> norm_num at * <;> linarith
    have u2 : |(0.28385 + 0.02390 * (E + 7)) - 4.15805 / 0.57412 * (-0.01133 + 0.00202 * (E + 7))| ≤ 1 := by rw [abs_le]; constructor <;> norm_num at * <;> linarith
    exact (mul_le_mul u1 u2 (abs_nonneg _) (by norm_num)).trans (by norm_num)
  rw [e, abs_div, abs_of_pos (by linarith : 0 < 1 + 0.28385 * E + 0.02390 * (E * E)), div_le_iff₀ (by linarith)]
  have := mul_bd hV d
  norm_num at *; linarith

end Pal
