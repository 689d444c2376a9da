import Verif.Model.FlTps
import Verif.Lemmas.FlRr
import Verif.Lemmas.FlGmst
import Verif.Props.FlBear
import Verif.Props.Sphere

/-!
# C147: tangent point from a star and its tangent-plane coordinates, in double precision
-/

namespace Pal.Props
open Real Pal Pal.Spec

variable {fl : ℝ → ℝ} {L : Libm}

local macro "nn" : tactic => `(tactic| norm_num [abs_of_pos])

/-- The square of the quantity that decides how many solutions there are. -/
theorem tps_r2 (R : Rounding fl) (hL : LibmOK L) {xi eta : ℝ} (dec : ℝ) (hx : |xi| ≤ 1) (he : |eta| ≤ 1) :
    Rr 8.6 3 (fl (fl (fl (L.cos dec * L.cos dec) * fl (fl (eta * eta) + 1)) - fl (fl (L.sin dec * L.sin dec) * fl (xi * xi)))) (cos dec * cos dec * (eta * eta + 1) - sin dec * sin dec * (xi * xi)) := by
  have s : Rr 2.06 1 (L.sin dec) (sin dec) := ⟨by nn, by nn, by nn, by nn, abs_sin_le_one _, (hL.sin dec).trans (by nn)⟩
  have c : Rr 2.06 1 (L.cos dec) (cos dec) := ⟨by nn, by nn, by nn, by nn, abs_cos_le_one _, (hL.cos dec).trans (by nn)⟩
  have x := Rr.exact hx (by nn) (by nn)
  have e := Rr.exact he (by nn) (by nn)
  have x2 := Rr.mul R 1 1 x x (by nn) (by nn) (by nn) (by nn) (by nn)
  have y2 := Rr.mul R 1 1 e e (by nn) (by nn) (by nn) (by nn) (by nn)
  have y3 := Rr.add R 1.5 2 y2 (Rr.exact (X := 1) (M := 1) (by nn) (by nn) (by nn)) (by nn) (by nn) (by nn) (by nn) (by nn)
  have cc := Rr.mul R 5.13 1 c c (by nn) (by nn) (by nn) (by nn) (by nn)
  have ss := Rr.mul R 5.13 1 s s (by nn) (by nn) (by nn) (by nn) (by nn)
  exact Rr.sub R 8.6 3 (Rr.mul R 7.64 2 cc y3 (by nn) (by nn) (by nn) (by nn) (by nn)) (Rr.mul R 7.14 1 ss x2 (by nn) (by nn) (by nn) (by nn) (by nn)) (by nn) (by nn) (by nn) (by nn) (by nn)

/-- Square roots of numbers close to each other. -/
theorem sqrt_near {a b e : ℝ} (ha : 0 ≤ a) (hb : 0 < b) (h : |a - b| ≤ e) : |√a - √b| ≤ e / √b := by
  have p := sqrt_pos.2 hb
  rw [le_div_iff₀ p]
  have q := sqrt_nonneg a
  calc |√a - √b| * √b ≤ |√a - √b| * (√a + √b) := mul_le_mul_of_nonneg_left (by linarith) (abs_nonneg _)
    _ = |a - b| := by
      rw [← abs_of_nonneg (add_nonneg q p.le), ← abs_mul]
      congr 1
      have := mul_self_sqrt ha
      have := mul_self_sqrt hb.le
      nlinarith
    _ ≤ e := h

/-- The scaled sine of the declination. -/
theorem tps_sdf (R : Rounding fl) (hL : LibmOK L) {xi eta : ℝ} (dec : ℝ) (hx : |xi| ≤ 1) (he : |eta| ≤ 1) :
    Rr 8.13 1.7321 (fl (L.sin dec * fl (√(fl (fl (fl (xi * xi) + 1) + fl (eta * eta)))))) (sin dec * √(xi * xi + 1 + eta * eta)) := by
  have s : Rr 2.06 1 (L.sin dec) (sin dec) := ⟨by nn, by nn, by nn, by nn, abs_sin_le_one _, (hL.sin dec).trans (by nn)⟩
  have x := Rr.exact hx (by nn) (by nn)
  have e := Rr.exact he (by nn) (by nn)
  have x2 := Rr.mul R 1 1 x x (by nn) (by nn) (by nn) (by nn) (by nn)
  have y2 := Rr.mul R 1 1 e e (by nn) (by nn) (by nn) (by nn) (by nn)
  have x3 := Rr.add R 1.5 2 x2 (Rr.exact (X := 1) (M := 1) (by nn) (by nn) (by nn)) (by nn) (by nn) (by nn) (by nn) (by nn)
  have q := Rr.add R 2.34 3 x3 y2 (by nn) (by nn) (by nn) (by nn) (by nn)
  have q1 : 1 ≤ xi * xi + 1 + eta * eta := by nlinarith [mul_self_nonneg xi, mul_self_nonneg eta]
  have q3 := q.err
  have q2 := q.bd
  generalize fl (fl (fl (xi * xi) + 1) + fl (eta * eta)) = v at *
  generalize xi * xi + 1 + eta * eta = V at *
  have v0 : 0 ≤ v := by have := abs_le.1 q3; norm_num at this; linarith
  have w : Rr 4.06 1.7321 (√v) (√V) := by
    refine ⟨by nn, by nn, by nn, by nn, ?_, ?_⟩
    · rw [abs_of_nonneg (sqrt_nonneg _)]
      exact sqrt_le_iff.2 ⟨by norm_num, (le_abs_self _).trans (q2.trans (by norm_num))⟩
    · refine (sqrt_near v0 (by linarith) q3).trans ?_
      have : (1 : ℝ) ≤ √V := le_sqrt_of_sq_le (by linarith)
      exact (div_le_self (by norm_num) this).trans (by norm_num)
  exact Rr.mul R 8.13 1.7321 s (w.round R 5.06 (by nn) (by nn)) (by nn) (by nn) (by nn) (by nn) (by nn)

/-- The declination of one solution. -/
theorem tps_dec (R : Rounding fl) (hL : LibmOK L) (nz : Bool) {sdf S r ρ eta d : ℝ} (hs : Rr 8.13 1.7321 sdf S) (he : |eta| ≤ 1) (hr : |r - ρ| ≤ d) (hd : d ≤ 1e-9) (hρ : |ρ| ≤ 1.4143) (h : S * S + ρ * ρ = 1 + eta * eta) :
    ∃ k : ℤ, |flAtan2 L nz (fl (sdf - fl (eta * r))) (fl (fl (sdf * eta) + r)) - (atan2 (S - eta * ρ) (S * eta + ρ) + k * (2 * π))| ≤ 5.45 * d + 1.3e-14 := by
  have d0 := (abs_nonneg _).trans hr
  have z : (1 : ℝ) / 10 ^ 200 ≤ 1e-30 := by norm_num
  have rb : |r| ≤ 1.41431 := by
    have := abs_add_le (r - ρ) ρ
    rw [sub_add_cancel] at this
    linarith
  have sb := hs.xbd
  have se := hs.err
  have b1 : |eta * r| ≤ 1.41431 := by rw [abs_mul]; exact (mul_le_mul he rb (abs_nonneg _) (by norm_num)).trans (by norm_num)
  have b2 : |sdf * eta| ≤ 1.73212 := by rw [abs_mul]; exact (mul_le_mul sb he (abs_nonneg _) (by norm_num)).trans (by norm_num)
  have e1 := R.err (x := eta * r) (b1.trans (by norm_num))
  have e2 := R.err (x := sdf * eta) (b2.trans (by norm_num))
  have c1 : |sdf - fl (eta * r)| ≤ 3.15 := by
    have := abs_sub sdf (fl (eta * r))
    have := abs_add_le (fl (eta * r) - eta * r) (eta * r)
    rw [sub_add_cancel] at this
    generalize (1 : ℝ) / 10 ^ 200 = t at *
    linarith
  have c2 : |fl (sdf * eta) + r| ≤ 3.15 := by
    have := abs_add_le (fl (sdf * eta)) r
    have := abs_add_le (fl (sdf * eta) - sdf * eta) (sdf * eta)
    rw [sub_add_cancel] at this
    generalize (1 : ℝ) / 10 ^ 200 = t at *
    linarith
  have f1 := R.err (x := sdf - fl (eta * r)) (c1.trans (by norm_num))
  have f2 := R.err (x := fl (sdf * eta) + r) (c2.trans (by norm_num))
  have g1 : |eta * r - eta * ρ| ≤ d := by rw [← mul_sub, abs_mul]; exact (mul_le_mul he hr (abs_nonneg _) (by norm_num)).trans (by linarith)
  have g2 : |sdf * eta - S * eta| ≤ 8.13 * 1.12e-16 * 1.7321 := by
    rw [← sub_mul, abs_mul]; exact (mul_le_mul se he (abs_nonneg _) (by norm_num)).trans (by norm_num)
  have y : |fl (sdf - fl (eta * r)) - (S - eta * ρ)| ≤ d + 2.2e-15 := by
    rw [show fl (sdf - fl (eta * r)) - (S - eta * ρ) = (fl (sdf - fl (eta * r)) - (sdf - fl (eta * r))) + ((sdf - S) - ((fl (eta * r) - eta * r) + (eta * r - eta * ρ))) by ring]
    refine (abs_add_le _ _).trans ?_
    have := abs_sub (sdf - S) ((fl (eta * r) - eta * r) + (eta * r - eta * ρ))
    have := abs_add_le (fl (eta * r) - eta * r) (eta * r - eta * ρ)
    generalize (1 : ℝ) / 10 ^ 200 = t at *
    linarith
  have x : |fl (fl (sdf * eta) + r) - (S * eta + ρ)| ≤ d + 2.2e-15 := by
    rw [show fl (fl (sdf * eta) + r) - (S * eta + ρ) = (fl (fl (sdf * eta) + r) - (fl (sdf * eta) + r)) + ((fl (sdf * eta) - sdf * eta) + (sdf * eta - S * eta) + (r - ρ)) by ring]
    refine (abs_add_le _ _).trans ?_
    have := abs_add_le ((fl (sdf * eta) - sdf * eta) + (sdf * eta - S * eta)) (r - ρ)
    have := abs_add_le (fl (sdf * eta) - sdf * eta) (sdf * eta - S * eta)
    generalize (1 : ℝ) / 10 ^ 200 = t at *
    linarith
  have hh : √((S * eta + ρ) * (S * eta + ρ) + (S - eta * ρ) * (S - eta * ρ)) = 1 + eta * eta := by
    rw [show (S * eta + ρ) * (S * eta + ρ) + (S - eta * ρ) * (S - eta * ρ) = (1 + eta * eta) * (1 + eta * eta) by linear_combination (1 + eta * eta) * h]
    exact sqrt_mul_self (by nlinarith [mul_self_nonneg eta])
  have X := hyp_cos_atan2 (S - eta * ρ) (S * eta + ρ)
  have Y := hyp_sin_atan2 (S - eta * ρ) (S * eta + ρ)
  rw [hh] at X Y
  have n1 : 1 ≤ 1 + eta * eta := by nlinarith [mul_self_nonneg eta]
  have n2 : 1 + eta * eta ≤ 2 := by nlinarith [abs_le.1 he]
  have ne : fl (fl (sdf * eta) + r) ≠ 0 ∨ fl (sdf - fl (eta * r)) ≠ 0 := by
    by_contra c
    push Not at c
    rw [c.1] at x
    rw [c.2] at y
    rw [zero_sub, abs_neg] at x y
    have q : (S * eta + ρ) * (S * eta + ρ) + (S - eta * ρ) * (S - eta * ρ) = (1 + eta * eta) * (1 + eta * eta) := by linear_combination (1 + eta * eta) * h
    have x' : |S * eta + ρ| ≤ 0.1 := x.trans (by linarith)
    have y' : |S - eta * ρ| ≤ 0.1 := y.trans (by linarith)
    have := abs_le.1 x'
    have := abs_le.1 y'
    nlinarith
  obtain ⟨T, t1, t2, t3, -⟩ := flAtan2_spec hL nz (fl (sdf - fl (eta * r))) (fl (fl (sdf * eta) + r)) ne
  obtain ⟨k, hk⟩ := bearing_close x y (by linarith) n2 X Y (sqrt_nonneg _) t2.symm t3.symm t1
  refine ⟨k, ?_⟩
  have := le_mul_of_one_le_left (abs_nonneg (flAtan2 L nz (fl (sdf - fl (eta * r))) (fl (fl (sdf * eta) + r)) - (atan2 (S - eta * ρ) (S * eta + ρ) + k * (2 * π)))) n1
  linarith

/-- The right ascension of one solution. -/
theorem tps_ra (R : Rounding fl) (hL : LibmOK L) (nz : Bool) {xi r ρ ra d : ℝ} (hx : |xi| ≤ 1) (hra : |ra| ≤ 7) (hr : |r - ρ| ≤ d) (hd : d ≤ 1e-9) (hρ : |ρ| ≤ 1.4143) (h0 : 1e-5 ≤ |ρ|) (hdd : d ≤ 0.5 * |ρ|) :
    let a := flAnp fl (fl (ra - flAtan2 L nz xi r))
    0 ≤ a ∧ a ≤ flD2PI fl ∧ ∃ k : ℤ, |a - (eraAnp (ra - atan2 xi ρ) + k * (2 * π))| ≤ (5.45 * d + 9e-16) / |ρ| + 3e-15 := by
  intro a
  have p4 := pi_lt_d4
  have r0 : 0 < |ρ| := lt_of_lt_of_le (by norm_num) h0
  have rne : r ≠ 0 := by
    intro c
    rw [c, zero_sub, abs_neg] at hr
    linarith
  obtain ⟨T, t1, t2, t3, t4⟩ := flAtan2_spec hL nz xi r (Or.inl rne)
  have X := hyp_cos_atan2 xi ρ
  have Y := hyp_sin_atan2 xi ρ
  have sρ : |ρ| ≤ √(ρ * ρ + xi * xi) := by
    refine le_sqrt_of_sq_le ?_
    rw [sq_abs]
    nlinarith [mul_self_nonneg xi]
  have s2 : √(ρ * ρ + xi * xi) ≤ 2 := by
    refine sqrt_le_iff.2 ⟨by norm_num, ?_⟩
    nlinarith [abs_le.1 hx, abs_le.1 hρ]
  obtain ⟨k, hk⟩ := bearing_close hr (by rw [sub_self, abs_zero]; exact (abs_nonneg _).trans hr) (sqrt_nonneg _) s2 X Y (sqrt_nonneg _) t2.symm t3.symm t1
  have hq : |flAtan2 L nz xi r - (atan2 xi ρ + k * (2 * π))| ≤ (5.45 * d + 9e-16) / |ρ| := by
    rw [le_div_iff₀ r0]
    refine le_trans ?_ hk
    rw [mul_comm]
    exact mul_le_mul_of_nonneg_right sρ (abs_nonneg _)
  have tb : |flAtan2 L nz xi r| ≤ 3.1417 := by have := close_range t1 t4; linarith
  have xb : |ra - flAtan2 L nz xi r| ≤ 10.15 := (abs_sub _ _).trans (by linarith)
  have e := R.err (x := ra - flAtan2 L nz xi r) (xb.trans (by norm_num))
  have e' : |fl (ra - flAtan2 L nz xi r) - (ra - flAtan2 L nz xi r)| ≤ 1.2e-15 := by
    have z : (1 : ℝ) / 10 ^ 200 ≤ 1e-30 := by norm_num
    generalize (1 : ℝ) / 10 ^ 200 = t at *
    linarith
  rcases flAnp_near R e' xb (by norm_num) with ⟨g1, g2, g3⟩ | g
  · refine ⟨g1, g2, ?_⟩
    obtain ⟨j, hj⟩ := g3 (xb.trans (by norm_num))
    obtain ⟨m, hm⟩ := (eraAnp_spec (ra - atan2 xi ρ)).2
    refine ⟨j - k - m, ?_⟩
    rw [hm]
    push_cast
    have q : a - (ra - atan2 xi ρ + m * (2 * π) + (j - k - m) * (2 * π)) = (a - (ra - flAtan2 L nz xi r + j * (2 * π))) - (flAtan2 L nz xi r - (atan2 xi ρ + k * (2 * π))) := by ring
    rw [q]
    refine (abs_sub _ _).trans ?_
    norm_num at hj hq ⊢
    linarith
  · exact absurd (xb.trans (by norm_num)) g

/-- **C147** (number of solutions) palDtps2c in double precision, for tangent-plane coordinates up to 1 and with D = cos²δ (1+η²) - sin²δ ξ²: no solution is reported if D < -3e-15, some if D > 3e-15; and then
one or two useful solutions according to whether |sin δ| √(1+ξ²+η²) is less than 1, unless it is within 2e-15 of 1. -/
theorem C147_count (R : Rounding fl) (hL : LibmOK L) (nz nz1 nz2 : Bool) (xi eta ra dec : ℝ) (hx : |xi| ≤ 1) (he : |eta| ≤ 1) :
    let D := cos dec ^ 2 * (1 + eta ^ 2) - sin dec ^ 2 * xi ^ 2
    let F := |sin dec| * √(1 + xi ^ 2 + eta ^ 2)
    let o := flDtps2c fl L nz nz1 nz2 xi eta ra dec
    (D < -3e-15 → o = (0, none)) ∧ (3e-15 < D → F < 1 - 2e-15 → o.1 = 1) ∧ (3e-15 < D → 1 + 2e-15 < F → o.1 = 2) ∧ (3e-15 < D → o.2.isSome) ∧ (o.1 = 0 ↔ o.2 = none) := by
  intro D F o
  have r2 := (tps_r2 R hL dec hx he).err
  have sdf := (tps_sdf R hL dec hx he).err
  rw [show cos dec * cos dec * (eta * eta + 1) - sin dec * sin dec * (xi * xi) = D by ring] at r2
  have hF : F = |sin dec * √(xi * xi + 1 + eta * eta)| := by
    simp only [F]
    rw [abs_mul, abs_of_nonneg (sqrt_nonneg (xi * xi + 1 + eta * eta)), show xi * xi + 1 + eta * eta = 1 + xi ^ 2 + eta ^ 2 by ring]
  have fF : |(|fl (L.sin dec * fl (√(fl (fl (fl (xi * xi) + 1) + fl (eta * eta)))))|) - F| ≤ 1.6e-15 := by
    rw [hF]
    exact (abs_abs_sub_abs_le_abs_sub _ _).trans (sdf.trans (by norm_num))
  have ho : o = flDtps2c fl L nz nz1 nz2 xi eta ra dec := rfl
  unfold flDtps2c at ho
  dsimp only at ho
  generalize fl (L.sin dec * fl (√(fl (fl (fl (xi * xi) + 1) + fl (eta * eta))))) = sd at *
  generalize fl (fl (fl (L.cos dec * L.cos dec) * fl (fl (eta * eta) + 1)) - fl (fl (L.sin dec * L.sin dec) * fl (xi * xi))) = rr at *
  have r3 := abs_le.1 r2
  have f3 := abs_le.1 fF
  norm_num at r3 f3
  refine ⟨fun h => ?_, fun h g => ?_, fun h g => ?_, fun h => ?_, ?_⟩
  · rw [ho, if_neg (by norm_num at h ⊢; linarith)]
  · rw [ho, if_pos (by norm_num at h ⊢; linarith)]
    exact if_pos (by norm_num at g ⊢; linarith)
  · rw [ho, if_pos (by norm_num at h ⊢; linarith)]
    exact if_neg (by norm_num at g ⊢; linarith)
  · rw [ho, if_pos (by norm_num at h ⊢; linarith)]
    rfl
  · rw [ho]
    by_cases h : rr ≥ 0
    · rw [if_pos h]
      by_cases g : |sd| < 1 <;> simp [g]
    · rw [if_neg h]
      simp

theorem tps_case : cos (π / 4) ^ 2 * (1 + 0.2 ^ 2) - sin (π / 4) ^ 2 * 0.1 ^ 2 = 0.515 := by
  rw [cos_pi_div_four, sin_pi_div_four, div_pow, sq_sqrt (by norm_num)]
  norm_num

example : (flDtps2c ieee roundedLibm false false false 0.1 0.2 1 (π / 4)).2.isSome :=
  (C147_count ieee_rounding roundedLibm_ok false false false 0.1 0.2 1 (π / 4) (by rw [abs_le]; constructor <;> norm_num) (by rw [abs_le]; constructor <;> norm_num)).2.2.2.1 (by rw [tps_case]; norm_num)

example : flDtps2c ieee roundedLibm true false false 0.1 0.2 1 (π / 2) = (0, none) :=
  (C147_count ieee_rounding roundedLibm_ok true false false 0.1 0.2 1 (π / 2) (by rw [abs_le]; constructor <;> norm_num) (by rw [abs_le]; constructor <;> norm_num)).1 (by rw [cos_pi_div_two, sin_pi_div_two]; norm_num)

/-- **C147** (the solutions) palDtps2c in double precision: with D = cos²δ (1+η²) - sin²δ ξ² at least 1e-10, both tangent points are those of exact arithmetic, up to whole turns, to 5e-14/D in
right ascension and 5e-14/√D in declination; the right ascensions are in [0, 2π] as stored. -/
theorem C147_points (R : Rounding fl) (hL : LibmOK L) (nz nz1 nz2 : Bool) (xi eta ra dec : ℝ) (hx : |xi| ≤ 1) (he : |eta| ≤ 1) (hra : |ra| ≤ 7)
    (hD : 1e-10 ≤ cos dec ^ 2 * (1 + eta ^ 2) - sin dec ^ 2 * xi ^ 2) :
    let D := cos dec ^ 2 * (1 + eta ^ 2) - sin dec ^ 2 * xi ^ 2
    ∃ n N p q P Q, flDtps2c fl L nz nz1 nz2 xi eta ra dec = (n, some (p, q)) ∧ palDtps2c xi eta ra dec = (N, some (P, Q)) ∧
      (0 ≤ p.1 ∧ p.1 ≤ flD2PI fl ∧ 0 ≤ q.1 ∧ q.1 ≤ flD2PI fl) ∧
      (∃ k : ℤ, |p.1 - (P.1 + k * (2 * π))| ≤ 5e-14 / D) ∧ (∃ k : ℤ, |p.2 - (P.2 + k * (2 * π))| ≤ 5e-14 / √D) ∧
      (∃ k : ℤ, |q.1 - (Q.1 + k * (2 * π))| ≤ 5e-14 / D) ∧ (∃ k : ℤ, |q.2 - (Q.2 + k * (2 * π))| ≤ 5e-14 / √D) := by
  intro D
  have hD' : 1e-10 ≤ D := hD
  have r2 := (tps_r2 R hL dec hx he).err
  have sdf := tps_sdf R hL dec hx he
  have eD : cos dec * cos dec * (eta * eta + 1) - sin dec * sin dec * (xi * xi) = D := by simp only [D]; ring
  rw [eD] at r2
  have D2 : D ≤ 2 := by
    have a : cos dec ^ 2 ≤ 1 := cos_sq_le_one dec
    have b : eta ^ 2 ≤ 1 := by rw [← sq_abs]; nlinarith [abs_nonneg eta]
    simp only [D]
    nlinarith [sq_nonneg (sin dec * xi), sq_nonneg (cos dec), sq_nonneg eta]
  have D0 : 0 < D := lt_of_lt_of_le (by norm_num) hD'
  have hS : sin dec * √(xi * xi + 1 + eta * eta) * (sin dec * √(xi * xi + 1 + eta * eta)) + D = 1 + eta * eta := by
    have q := mul_self_sqrt (show 0 ≤ xi * xi + 1 + eta * eta by nlinarith [mul_self_nonneg xi, mul_self_nonneg eta])
    have z := sin_sq_add_cos_sq dec
    simp only [D]
    linear_combination sin dec ^ 2 * q + (1 + eta ^ 2) * z
  unfold flDtps2c palDtps2c
  dsimp only
  rw [eD]
  generalize fl (L.sin dec * fl (√(fl (fl (fl (xi * xi) + 1) + fl (eta * eta))))) = sd at *
  generalize fl (fl (fl (L.cos dec * L.cos dec) * fl (fl (eta * eta) + 1)) - fl (fl (L.sin dec * L.sin dec) * fl (xi * xi))) = rr at *
  generalize sin dec * √(xi * xi + 1 + eta * eta) = S at *
  clear_value D
  have r3 := abs_le.1 r2
  norm_num at r3 hD'
  have rr0 : 0 ≤ rr := by linarith
  rw [if_pos (show rr ≥ 0 from rr0), if_pos (show D ≥ 0 from D0.le)]
  have ρ0 : 0 < √D := sqrt_pos.2 D0
  have ρ1 : 1e-5 ≤ √D := le_sqrt_of_sq_le (by norm_num; linarith)
  have ρ2 : √D ≤ 1.4143 := sqrt_le_iff.2 ⟨by norm_num, by norm_num; linarith⟩
  have s1 := sqrt_near rr0 D0 r2
  have DD := mul_self_sqrt D0.le
  have s2 : |fl (√rr) - √D| ≤ 3.2e-15 / √D := by
    have w : |√rr| ≤ 1.5 := by
      rw [abs_of_nonneg (sqrt_nonneg _)]
      exact sqrt_le_iff.2 ⟨by norm_num, by norm_num; linarith⟩
    have e := R.err (x := √rr) (w.trans (by norm_num))
    have t := abs_sub_le (fl (√rr)) (√rr) (√D)
    have w2 : |√rr| ≤ √D + 8.6 * 1.12e-16 * 3 / √D := by
      have := abs_add_le (√rr - √D) (√D)
      rw [sub_add_cancel, abs_of_pos ρ0] at this
      linarith
    have z : (1 : ℝ) / 10 ^ 200 ≤ 1e-30 := by norm_num
    generalize (1 : ℝ) / 10 ^ 200 = y at *
    rw [le_div_iff₀ ρ0]
    have q : 8.6 * 1.12e-16 * 3 / √D * √D = 8.6 * 1.12e-16 * 3 := div_mul_cancel₀ _ ρ0.ne'
    generalize 8.6 * 1.12e-16 * 3 / √D = g at *
    have t2 : |fl (√rr) - √D| ≤ 1.00001 * g + 1.2e-16 * √D + 1e-30 := by
      have := (abs_nonneg _).trans s1
      linarith
    refine (mul_le_mul_of_nonneg_right t2 ρ0.le).trans ?_
    have : (1.00001 * g + 1.2e-16 * √D + 1e-30) * √D = 1.00001 * (g * √D) + 1.2e-16 * (√D * √D) + 1e-30 * √D := by ring
    rw [this, q, DD]
    linarith
  have d1 : 3.2e-15 / √D ≤ 3.2e-10 := by
    rw [div_le_iff₀ ρ0]; linarith
  have d2 : 3.2e-15 / √D ≤ 0.5 * √D := by
    rw [div_le_iff₀ ρ0, mul_assoc, DD]; linarith
  have ne : √D ≠ 0 := ρ0.ne'
  have fne : fl (√rr) ≠ 0 := by
    intro c
    rw [c, zero_sub, abs_neg, abs_of_pos ρ0] at s2
    linarith
  have i1 : ¬ (xi = 0 ∧ fl (√rr) = 0) := fun c => fne c.2
  have i2 : ¬ (xi = 0 ∧ √D = 0) := fun c => ne c.2
  simp only [if_neg i1, if_neg i2]
  have s3 : |(-fl (√rr)) - (-√D)| ≤ 3.2e-15 / √D := by rw [neg_sub_neg, abs_sub_comm]; exact s2
  have aρ : |√D| = √D := abs_of_pos ρ0
  have anρ : |-√D| = √D := by rw [abs_neg, aρ]
  have a1 := tps_dec R hL nz1 sdf he s2 (d1.trans (by norm_num)) (by rw [aρ]; exact ρ2) (by rw [DD]; exact hS)
  have a2 := tps_dec R hL nz2 sdf he s3 (d1.trans (by norm_num)) (by rw [anρ]; exact ρ2) (by rw [neg_mul_neg, DD]; exact hS)
  obtain ⟨b1, b2, b3⟩ := tps_ra R hL nz hx hra s2 (d1.trans (by norm_num)) (by rw [aρ]; exact ρ2) (by rw [aρ]; exact ρ1) (by rw [aρ]; exact d2)
  obtain ⟨c1, c2, c3⟩ := tps_ra R hL nz hx hra s3 (d1.trans (by norm_num)) (by rw [anρ]; exact ρ2) (by rw [anρ]; exact ρ1) (by rw [anρ]; exact d2)
  rw [aρ] at b3
  rw [anρ] at c3
  have tol1 : (5.45 * (3.2e-15 / √D) + 9e-16) / √D + 3e-15 ≤ 5e-14 / D := by
    rw [le_div_iff₀ D0]
    have : ((5.45 * (3.2e-15 / √D) + 9e-16) / √D + 3e-15) * D = 5.45 * 3.2e-15 + 9e-16 * √D + 3e-15 * D := by
      nth_rewrite 3 [← DD]
      field_simp
      rw [show √D ^ 2 = D by rw [sq, DD]]
      ring
    rw [this]
    linarith
  have tol2 : 5.45 * (3.2e-15 / √D) + 1.3e-14 ≤ 5e-14 / √D := by
    rw [le_div_iff₀ ρ0]
    have : (5.45 * (3.2e-15 / √D) + 1.3e-14) * √D = 5.45 * 3.2e-15 + 1.3e-14 * √D := by field_simp
    rw [this]
    linarith
  refine ⟨_, _, _, _, _, _, rfl, rfl, ⟨b1, b2, c1, c2⟩, ?_, ?_, ?_, ?_⟩
  · obtain ⟨k, hk⟩ := b3; exact ⟨k, hk.trans tol1⟩
  · obtain ⟨k, hk⟩ := a1; exact ⟨k, hk.trans tol2⟩
  · obtain ⟨k, hk⟩ := c3; exact ⟨k, hk.trans tol1⟩
  · obtain ⟨k, hk⟩ := a2; exact ⟨k, hk.trans tol2⟩

example : ∃ n N p q P Q, flDtps2c ieee roundedLibm false false false 0.1 0.2 1 (π / 4) = (n, some (p, q)) ∧ palDtps2c 0.1 0.2 1 (π / 4) = (N, some (P, Q)) ∧ ∃ k : ℤ, |q.1 - (Q.1 + k * (2 * π))| ≤ 1e-13 := by
  obtain ⟨n, N, p, q, P, Q, h1, h2, -, -, -, ⟨k, h⟩, -⟩ := C147_points ieee_rounding roundedLibm_ok false false false 0.1 0.2 1 (π / 4) (by rw [abs_le]; constructor <;> norm_num) (by rw [abs_le]; constructor <;> norm_num)
    (by norm_num) (by rw [tps_case]; norm_num)
  refine ⟨n, N, p, q, P, Q, h1, h2, k, h.trans ?_⟩
  rw [tps_case]
  norm_num

theorem projects_turn {ra dec a d xi eta : ℝ} (h : Projects ra dec a d xi eta) (j k : ℤ) : Projects ra dec (a + j * (2 * π)) (d + k * (2 * π)) xi eta := by
  have e1 : dir (a + j * (2 * π)) (d + k * (2 * π)) = dir a d := by
    unfold dir; simp only [cos_add_int_mul_two_pi, sin_add_int_mul_two_pi]
  have e2 : eastAt (a + j * (2 * π)) = eastAt a := by
    unfold eastAt; simp only [cos_add_int_mul_two_pi, sin_add_int_mul_two_pi]
  have e3 : northAt (a + j * (2 * π)) (d + k * (2 * π)) = northAt a d := by
    unfold northAt; simp only [cos_add_int_mul_two_pi, sin_add_int_mul_two_pi]
  unfold Projects
  rw [e1, e2, e3]
  exact h

/-- **C147** (the solutions do their job) In particular both computed tangent points are next to exact tangent points that project the star to the given coordinates. -/
theorem C147_project (R : Rounding fl) (hL : LibmOK L) (nz nz1 nz2 : Bool) (xi eta ra dec : ℝ) (hx : |xi| ≤ 1) (he : |eta| ≤ 1) (hra : |ra| ≤ 7) (h1 : -(π / 2) ≤ dec) (h2 : dec ≤ π / 2)
    (hD : 1e-10 ≤ cos dec ^ 2 * (1 + eta ^ 2) - sin dec ^ 2 * xi ^ 2) :
    let D := cos dec ^ 2 * (1 + eta ^ 2) - sin dec ^ 2 * xi ^ 2
    ∃ n p q, flDtps2c fl L nz nz1 nz2 xi eta ra dec = (n, some (p, q)) ∧
      (∃ α δ, Projects ra dec α δ xi eta ∧ |p.1 - α| ≤ 5e-14 / D ∧ |p.2 - δ| ≤ 5e-14 / √D) ∧ (∃ α δ, Projects ra dec α δ xi eta ∧ |q.1 - α| ≤ 5e-14 / D ∧ |q.2 - δ| ≤ 5e-14 / √D) := by
  intro D
  obtain ⟨n, N, p, q, P, Q, e1, e2, -, ⟨k1, p1⟩, ⟨k2, p2⟩, ⟨k3, q1⟩, ⟨k4, q2⟩⟩ := C147_points R hL nz nz1 nz2 xi eta ra dec hx he hra hD
  obtain ⟨g1, g2, -⟩ := C33_dtps2c_genuine_partial xi eta ra dec h1 h2 N P Q e2
  have g3 := g2 (Or.inr (by
    intro c
    rw [c] at hD
    have := sq_nonneg (sin dec * xi)
    norm_num at hD
    nlinarith))
  refine ⟨n, p, q, e1, ⟨_, _, ?_, p1, p2⟩, ⟨_, _, ?_, q1, q2⟩⟩
  · exact projects_turn g1 k1 k2
  · exact projects_turn g3 k3 k4

example : ∃ n p q, flDtps2c ieee roundedLibm false false false 0.1 0.2 1 (π / 4) = (n, some (p, q)) ∧ ∃ α δ, Projects 1 (π / 4) α δ 0.1 0.2 ∧ |p.1 - α| ≤ 1e-13 := by
  have hp := pi_pos
  obtain ⟨n, p, q, h1, ⟨α, δ, h2, h3, -⟩, -⟩ := C147_project ieee_rounding roundedLibm_ok false false false 0.1 0.2 1 (π / 4) (by rw [abs_le]; constructor <;> norm_num) (by rw [abs_le]; constructor <;> norm_num)
    (by norm_num) (by linarith) (by linarith) (by rw [tps_case]; norm_num)
  refine ⟨n, p, q, h1, α, δ, h2, h3.trans ?_⟩
  rw [tps_case]
  norm_num

end Pal.Props
