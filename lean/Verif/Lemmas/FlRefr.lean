import Verif.Model.FlRefr
import Verif.Lemmas.FlSmall
import Verif.Lemmas.FlRel

/-! # Refraction in double precision: errors -/

namespace Pal
open Real Pal.Spec

/-- A rounded quotient by a positive number known with a relative error. -/
theorem Rounding.divN {fl : ℝ → ℝ} (R : Rounding fl) {a A b B α e m Q : ℝ} (ε : ℝ) (ha : |a - A| ≤ α) (hb : Near e b B) (hm : 0 < m) (hB : m ≤ B) (hQ : |A / B| ≤ Q)
    (h29 : Q + (1.0011 * (α / m) + 1.0011 * e * Q) ≤ 10 ^ 29) (he : (1.0011 * (α / m) + 1.0011 * e * Q) + 1.1103e-16 * (Q + (1.0011 * (α / m) + 1.0011 * e * Q)) + 1e-190 ≤ ε) :
    |fl (a / b) - A / B| ≤ ε := by
  refine R.add_err2 (δ := 1.0011 * (α / m) + 1.0011 * e * Q) (B := Q) ε ?_ hQ h29 he
  have B0 := hb.pos
  have b0 := hb.xpos
  have e1 : a / b - A / B = ((a - A) + (A / B) * (B - b)) / b := by field_simp; ring
  rw [e1, abs_div, abs_of_pos b0, div_le_iff₀ b0]
  have t1 : |(A / B) * (B - b)| ≤ Q * (e * B) := by rw [abs_mul, abs_sub_comm]; exact mul_le_mul hQ hb.err (abs_nonneg _) ((abs_nonneg _).trans hQ)
  have t2 := abs_add_le (a - A) ((A / B) * (B - b))
  have l := hb.lo'
  have am : 0 ≤ α / m := div_nonneg ((abs_nonneg _).trans ha) hm.le
  have t3 : α ≤ (α / m) * B := by rw [div_mul_eq_mul_div, le_div_iff₀ hm]; exact mul_le_mul_of_nonneg_left hB ((abs_nonneg _).trans ha)
  have t4 : (1.0011 * (α / m) + 1.0011 * e * Q) * (0.999 * B) ≤ (1.0011 * (α / m) + 1.0011 * e * Q) * b := by
    refine mul_le_mul_of_nonneg_left l ?_
    have := hb.e0
    have : 0 ≤ Q := (abs_nonneg _).trans hQ
    positivity
  have t5 : 0 ≤ (α / m) * B := mul_nonneg am B0.le
  have t6 : 0 ≤ Q * (e * B) := mul_nonneg ((abs_nonneg _).trans hQ) (mul_nonneg hb.e0 B0.le)
  have t7 : (1.0011 * (α / m) + 1.0011 * e * Q) * (0.999 * B) = 1.0011 * 0.999 * ((α / m) * B) + 1.0011 * 0.999 * (Q * (e * B)) := by ring
  rw [t7] at t4
  norm_num at *
  linarith

set_option maxHeartbeats 2000000 in
/-- The steps of palRefv from the distance from the axis `r` and the height `z`. -/
theorem flRefv_err {fl : ℝ → ℝ} (R : Rounding fl) (vu : Vec3) (refa refb : ℝ) (hv : len vu ≤ 1.0004) (ha : |refa| ≤ 5e-4) (hb : |refb| ≤ 5e-7) (i : Fin 3) :
    |flRefv fl vu refa refb i - palRefv vu refa refb i| ≤ 1e-15 := by
  obtain ⟨t0, t1⟩ := tiny190
  have hl : vu 0 * vu 0 + vu 1 * vu 1 + vu 2 * vu 2 ≤ 1.000801 := by
    have := pow_le_pow_left₀ (len_nonneg vu) hv 2
    have e : len vu ^ 2 = vu 0 * vu 0 + vu 1 * vu 1 + vu 2 * vu 2 := by
      unfold len; rw [Real.sq_sqrt (Finset.sum_nonneg fun i _ => sq_nonneg _), Fin.sum_univ_three]; ring
    rw [e] at this
    exact this.trans (by norm_num)
  have hx : |vu 0| ≤ 1.0005 := (comp_le_len vu 0).trans (hv.trans (by norm_num))
  have hy : |vu 1| ≤ 1.0005 := (comp_le_len vu 1).trans (hv.trans (by norm_num))
  have hz : |vu 2| ≤ 1.0005 := (comp_le_len vu 2).trans (hv.trans (by norm_num))
  unfold flRefv palRefv
  rw [ite_max]
  generalize vu 0 = x at *
  generalize vu 1 = y at *
  generalize vu 2 = z1 at *
  -- the height
  have k := R.cst 0.05 (M := 0.05) (by norm_num) (by norm_num) (by norm_num)
  have zz : |max z1 (fl 0.05) - max z1 0.05| ≤ 5.6e-18 := (abs_max_sub_max_le_max _ _ _ _).trans (by rw [sub_self, abs_zero]; exact max_le (by norm_num) (k.trans (by norm_num)))
  have Zl : (0.05 : ℝ) ≤ max z1 0.05 := le_max_right _ _
  have Zu : max z1 0.05 ≤ 1.0005 := max_le ((abs_le.1 hz).2) (by norm_num)
  have dz : |z1 - max z1 0.05| ≤ 1.06 := by
    rcases max_cases z1 (0.05 : ℝ) with ⟨h, -⟩ | ⟨h, h'⟩ <;> rw [h]
    · rw [sub_self, abs_zero]; norm_num
    · have := (abs_le.1 hz).1
      rw [abs_le]; constructor <;> norm_num at * <;> linarith
  generalize max z1 (fl 0.05) = z at *
  generalize max z1 (0.05 : ℝ) = Z at *
  have nz : Near 1.13e-16 z Z := ⟨by norm_num at *; linarith, by norm_num, by norm_num, by norm_num at *; linarith⟩
  have Z2l : 0.0025 ≤ Z * Z := by have := mul_le_mul Zl Zl (by norm_num) nz.pos.le; norm_num at *; linarith
  have Z2u : Z * Z ≤ 1.0011 := by have := mul_le_mul Zu Zu nz.pos.le (by norm_num); norm_num at *; linarith
  have nzsq : Near 3.4e-16 (fl (z * z)) (Z * Z) := (nz.mul 2.27e-16 nz (by norm_num) (by norm_num)).fl R 3.4e-16 (le_trans (by norm_num) Z2l) (Z2u.trans (by norm_num)) (by norm_num) (by norm_num)
  -- the distance from the axis
  have S0 : 0 ≤ x * x + y * y := add_nonneg (mul_self_nonneg _) (mul_self_nonneg _)
  have S1 : x * x + y * y ≤ 1.000801 := by have := mul_self_nonneg z1; norm_num at *; linarith
  have ss := fl_sumsq R x y (hx.trans (by norm_num)) (hy.trans (by norm_num))
  have nn : 0 ≤ fl (fl (x * x) + fl (y * y)) := by
    have b1 : |x * x| ≤ 2 := by rw [abs_of_nonneg (mul_self_nonneg _)]; have := mul_self_nonneg y; norm_num at *; linarith
    have b2 : |y * y| ≤ 2 := by rw [abs_of_nonneg (mul_self_nonneg _)]; have := mul_self_nonneg x; norm_num at *; linarith
    have c1 := R.nonneg (b1.trans (by norm_num)) (mul_self_nonneg x)
    have c2 := R.nonneg (b2.trans (by norm_num)) (mul_self_nonneg y)
    have d1 := R.add_err2 (δ := 0) (B := 2) 1 (noerr (x * x)) b1 (by norm_num) (by norm_num)
    have d2 := R.add_err2 (δ := 0) (B := 2) 1 (noerr (y * y)) b2 (by norm_num) (by norm_num)
    refine R.nonneg ?_ (add_nonneg c1 c2)
    rw [abs_of_nonneg (add_nonneg c1 c2)]
    rw [abs_of_nonneg (mul_self_nonneg _)] at b1 b2
    have := (abs_le.1 d1).2
    have := (abs_le.1 d2).2
    have : (10 : ℝ) ^ 30 ≥ 10 := by norm_num
    linarith
  have hr := (fl_hyp R _ _ S0 (S1.trans (by norm_num)) (ss.trans (by
    have : (4 : ℝ) / 10 ^ 200 ≤ 10 / 10 ^ 200 := by norm_num
    generalize (4 : ℝ) / 10 ^ 200 = u at *
    generalize (10 : ℝ) / 10 ^ 200 = w at *
    norm_num at *; linarith)) nn).2
  have rs0 := Real.sqrt_nonneg (x * x + y * y)
  have rs1 : √(x * x + y * y) ≤ 1.0005 := Real.sqrt_le_iff.2 ⟨by norm_num, S1.trans (by norm_num)⟩
  have hr' : |fl (√(fl (fl (x * x) + fl (y * y)))) - √(x * x + y * y)| ≤ 5.21e-16 := by
    refine hr.trans ?_
    have : (1 : ℝ) / 10 ^ 96 ≤ 1e-30 := by norm_num
    norm_num at *; linarith
  have ss' : |fl (fl (x * x) + fl (y * y)) - (x * x + y * y)| ≤ 2.31e-16 := by
    refine ss.trans ?_
    have : (4 : ℝ) / 10 ^ 200 ≤ 1e-30 := by norm_num
    norm_num at *; linarith
  clear hr ss nn
  generalize fl (√(fl (fl (x * x) + fl (y * y)))) = r at *
  generalize √(x * x + y * y) = rr at *
  generalize fl (fl (x * x) + fl (y * y)) = s at *
  have hS : |x * x + y * y| ≤ 1.001 := by rw [abs_of_nonneg S0]; exact S1.trans (by norm_num)
  have hrr : |rr| ≤ 1.0005 := by rw [abs_of_nonneg rs0]; exact rs1
  generalize x * x + y * y = S at *
  have hZ : |Z| ≤ 1.0005 := by rw [abs_of_pos nz.pos]; exact Zu
  generalize fl (z * z) = zq at *
  generalize Z * Z = ZQ at *
  have zqe : |zq - ZQ| ≤ 3.41e-16 := nzsq.err.trans (by norm_num at *; linarith)
  have hZQ : |ZQ| ≤ 1.0011 := by rw [abs_of_pos nzsq.pos]; exact Z2u
  -- wb
  have b1 := R.mulB 1.8e-22 (noerr refb) ss' hb hS (by norm_num) (by norm_num)
  have Q1 : |refb * S / ZQ| ≤ 2.003e-4 := by
    rw [abs_div, abs_of_pos nzsq.pos, div_le_iff₀ nzsq.pos]
    have := mul_bd hb hS
    norm_num at *; linarith
  have b2 := R.divN 1.7e-19 b1 nzsq (by norm_num : (0 : ℝ) < 0.0025) Z2l Q1 (by norm_num) (by norm_num)
  generalize fl (fl (refb * s) / zq) = wb at *
  generalize refb * S / ZQ = WB at *
  -- wt
  obtain ⟨n1, n2⟩ := R.addB 2.6e-19 (noerr refa) b2 ha Q1 (by norm_num) (by norm_num)
  have b3 := R.mulB 5.8e-19 (noerr 3) b2 (by norm_num : |(3 : ℝ)| ≤ 3) Q1 (by norm_num) (by norm_num)
  obtain ⟨q1, q2⟩ := R.addB 7.1e-19 (noerr refa) b3 ha (mul_bd (by norm_num : |(3 : ℝ)| ≤ 3) Q1) (by norm_num) (by norm_num)
  obtain ⟨z2, z3⟩ := R.addB 8.1e-16 zqe ss' hZQ hS (by norm_num) (by norm_num)
  have p1 := R.mulB 2.6e-18 q1 z2 q2 z3 (by norm_num) (by norm_num)
  have Q2 : |(refa + 3 * WB) * (ZQ + S) / ZQ| ≤ 0.4427 := by
    have e : (refa + 3 * WB) * (ZQ + S) / ZQ = (refa + 3 * WB) * (1 + S / ZQ) := by have := nzsq.pos.ne'; field_simp
    have c : |1 + S / ZQ| ≤ 401.4 := by
      have c1 : S / ZQ ≤ 400.4 := by rw [div_le_iff₀ nzsq.pos]; norm_num at *; linarith
      have c2 : 0 ≤ S / ZQ := div_nonneg S0 nzsq.pos.le
      rw [abs_of_nonneg (by linarith)]; norm_num at *; linarith
    rw [e]
    exact (mul_bd q2 c).trans (by norm_num)
  have g1 := R.divN 1.26e-15 p1 nzsq (by norm_num : (0 : ℝ) < 0.0025) Z2l Q2 (by norm_num) (by norm_num)
  generalize fl (fl (fl (refa + fl (3 * wb)) * fl (zq + s)) / zq) = g at *
  generalize (refa + 3 * WB) * (ZQ + S) / ZQ = G at *
  obtain ⟨g2, -⟩ := R.addB 1.43e-15 (noerr 1) g1 (by norm_num : |(1 : ℝ)| ≤ 1) Q2 (by norm_num) (by norm_num)
  have G1 : 0.557 ≤ 1 + G := by have := (abs_le.1 Q2).1; norm_num at *; linarith
  have nD : Near 2.6e-15 (fl (1 + g)) (1 + G) := ⟨by norm_num at *; linarith, by norm_num, by norm_num, by norm_num at *; linarith⟩
  have Q3 : |(refa + WB) / (1 + G)| ≤ 1.26e-3 := by
    rw [abs_div, abs_of_pos nD.pos, div_le_iff₀ nD.pos]; norm_num at *; linarith
  have w1 := R.divN 3.9e-18 n1 nD (by norm_num : (0 : ℝ) < 0.557) G1 Q3 (by norm_num) (by norm_num)
  generalize fl (fl (refa + wb) / fl (1 + g)) = wt at *
  generalize (refa + WB) / (1 + G) = WT at *
  clear g1 g2 p1 z2 z3 q1 q2 n1 n2 b1 b2 b3
  -- d, cd, f
  have d1 := R.mulB 4.8e-18 w1 hr' Q3 hrr (by norm_num) (by norm_num)
  have Q4 : |WT * rr / Z| ≤ 0.0253 := by
    rw [abs_div, abs_of_pos nz.pos, div_le_iff₀ nz.pos]
    have := mul_bd Q3 hrr
    norm_num at *; linarith
  have d2 := R.divN 1.1e-16 d1 nz (by norm_num : (0 : ℝ) < 0.05) Zl Q4 (by norm_num) (by norm_num)
  generalize fl (fl (wt * r) / z) = d at *
  generalize WT * rr / Z = D at *
  have d3 := R.mulB 5.7e-18 d2 d2 Q4 Q4 (by norm_num) (by norm_num)
  have nd2 : Near 0 (2 : ℝ) 2 := Near.refl (by norm_num)
  have D2 := mul_bd Q4 Q4
  have Q5 : |D * D / 2| ≤ 3.3e-4 := by rw [abs_div, abs_of_pos (by norm_num : (0 : ℝ) < 2), div_le_iff₀ (by norm_num)]; norm_num at *; linarith
  have d4 := R.divN 3e-18 d3 nd2 (by norm_num : (0 : ℝ) < 2) le_rfl Q5 (by norm_num) (by norm_num)
  obtain ⟨c1, c2⟩ := R.subB 1.15e-16 (noerr 1) d4 (by norm_num : |(1 : ℝ)| ≤ 1) Q5 (by norm_num) (by norm_num)
  obtain ⟨f1, f2⟩ := R.subB 1.16e-16 (noerr 1) w1 (by norm_num : |(1 : ℝ)| ≤ 1) Q3 (by norm_num) (by norm_num)
  have f3 := R.mulB 3.44e-16 c1 f1 c2 f2 (by norm_num) (by norm_num)
  have f4 := mul_bd c2 f2
  fin_cases i
  · exact (R.mulB 1e-15 (noerr x) f3 hx f4 (by norm_num) (by norm_num))
  · exact (R.mulB 1e-15 (noerr y) f3 hy f4 (by norm_num) (by norm_num))
  · have h1 := R.mulB 1.3e-16 d2 hr' Q4 hrr (by norm_num) (by norm_num)
    obtain ⟨h2, h3⟩ := R.addB 2.6e-16 zz h1 hZ (mul_bd Q4 hrr) (by norm_num) (by norm_num)
    have h4 := R.mulB 4.95e-16 c1 h2 c2 h3 (by norm_num) (by norm_num)
    have h5 : |fl (z1 - z) - (z1 - Z)| ≤ 1.3e-16 := R.add_err2 (δ := 5.6e-18) (B := 1.06) 1.3e-16 (by
      rw [show z1 - z - (z1 - Z) = -(z - Z) by ring, abs_neg]; exact zz) dz (by norm_num) (by norm_num)
    exact (R.addB 1e-15 h4 h5 (mul_bd c2 h3) dz (by norm_num) (by norm_num)).1

end Pal
