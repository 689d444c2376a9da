import Verif.Lemmas.FlPcd

/-! # Accuracy of palUnpcd in double precision: pincushion distortion -/

namespace Pal
open Real

variable {fl : ℝ → ℝ} (R : Rounding fl) {pw : ℝ → ℝ → ℝ} (hp : PowOK pw)
include R

theorem unpcd_q {D : ℝ} (h1 : 1 / 10 ^ 8 ≤ D) (h2 : D ≤ 10 ^ 8) :
    Near 2.3e-16 (fl (1 / fl (3 * D))) (1 / (3 * D)) ∧ Near 1.12e-16 (fl (2 * D)) (2 * D) ∧
      Near 1e-15 (fl (fl (fl (1 / fl (3 * D)) * fl (1 / fl (3 * D))) * fl (1 / fl (3 * D)))) (1 / (3 * D) * (1 / (3 * D)) * (1 / (3 * D))) ∧
      1 / (3.1 * 10 ^ 8) ≤ 1 / (3 * D) ∧ 1 / (3 * D) ≤ 3.4 * 10 ^ 7 := by
  have D0 : 0 < D := lt_of_lt_of_le (by norm_num) h1
  have n3 := (Near.refl (show 0 < 3 * D by linarith)).fl R 1.12e-16 (by norm_num at *; linarith) (by norm_num at *; linarith) (by norm_num) (by norm_num)
  have n2 := (Near.refl (show 0 < 2 * D by linarith)).fl R 1.12e-16 (by norm_num at *; linarith) (by norm_num at *; linarith) (by norm_num) (by norm_num)
  have q1 : 1 / (3.1 * 10 ^ 8) ≤ 1 / (3 * D) := one_div_le_one_div_of_le (by linarith) (by norm_num at *; linarith)
  have q2 : 1 / (3 * D) ≤ 3.4 * 10 ^ 7 := by
    rw [div_le_iff₀ (by linarith)]
    norm_num at *; linarith
  have nq := ((Near.refl one_pos).div 1.13e-16 n3 (by norm_num) (by norm_num)).fl R 2.3e-16 (le_trans (by norm_num) q1) (q2.trans (by norm_num)) (by norm_num) (by norm_num)
  have q0 : 0 < 1 / (3 * D) := by positivity
  refine ⟨nq, n2, ?_, q1, q2⟩
  set q := 1 / (3 * D)
  clear_value q
  have p1 : 1 / (3.1 * 10 ^ 8) * (1 / (3.1 * 10 ^ 8)) ≤ q * q := mul_le_mul q1 q1 (by norm_num) q0.le
  have p2 : q * q ≤ 3.4 * 10 ^ 7 * (3.4 * 10 ^ 7) := mul_le_mul q2 q2 q0.le (by norm_num)
  have p3 : 1 / (3.1 * 10 ^ 8) * (1 / (3.1 * 10 ^ 8)) * (1 / (3.1 * 10 ^ 8)) ≤ q * q * q := mul_le_mul p1 q1 (by norm_num) (by positivity)
  have p4 : q * q * q ≤ 3.4 * 10 ^ 7 * (3.4 * 10 ^ 7) * (3.4 * 10 ^ 7) := mul_le_mul p2 q2 q0.le (by norm_num)
  have a := (nq.mul 4.61e-16 nq (by norm_num) (by norm_num)).fl R 5.73e-16 (le_trans (by norm_num) p1) (p2.trans (by norm_num)) (by norm_num) (by norm_num)
  exact (a.mul 8.1e-16 nq (by norm_num) (by norm_num)).fl R 1e-15 (le_trans (by norm_num) p3) (p4.trans (by norm_num)) (by norm_num) (by norm_num)

theorem unpcd_r {D rp rph : ℝ} (h1 : 1 / 10 ^ 8 ≤ D) (h2 : D ≤ 10 ^ 8) (hr : Near 6e-16 rph rp) (hl : 1 / 10 ^ 19 ≤ rp) (hu : rp ≤ 10 ^ 4) :
    Near 8.3e-16 (fl (rph / fl (2 * D))) (rp / (2 * D)) ∧ Near 1.8e-15 (fl (fl (rph / fl (2 * D)) * fl (rph / fl (2 * D)))) (rp / (2 * D) * (rp / (2 * D))) ∧
      1 / (2 * 10 ^ 27) ≤ rp / (2 * D) ∧ rp / (2 * D) ≤ 10 ^ 12 := by
  have D0 : 0 < D := lt_of_lt_of_le (by norm_num) h1
  have n2 := (unpcd_q R h1 h2).2.1
  have r1 : 1 / (2 * 10 ^ 27) ≤ rp / (2 * D) := by
    rw [div_le_div_iff₀ (by norm_num) (by linarith)]
    norm_num at *; linarith
  have r2 : rp / (2 * D) ≤ 10 ^ 12 := by
    rw [div_le_iff₀ (by linarith)]
    norm_num at *; linarith
  have nr := (hr.div 7.14e-16 n2 (by norm_num) (by norm_num)).fl R 8.3e-16 (le_trans (by norm_num) r1) (r2.trans (by norm_num)) (by norm_num) (by norm_num)
  refine ⟨nr, ?_, r1, r2⟩
  set r := rp / (2 * D)
  clear_value r
  have r0 : 0 < r := nr.pos
  have p1 : 1 / (2 * 10 ^ 27) * (1 / (2 * 10 ^ 27)) ≤ r * r := mul_le_mul r1 r1 (by norm_num) r0.le
  have p2 : r * r ≤ 10 ^ 12 * 10 ^ 12 := mul_le_mul r2 r2 r0.le (by norm_num)
  exact (nr.mul 1.67e-15 nr (by norm_num) (by norm_num)).fl R 1.8e-15 (le_trans (by norm_num) p1) (p2.trans (by norm_num)) (by norm_num) (by norm_num)

include hp

theorem pin_tail {rh rh2 Qh r Q a : ℝ} (nr : Near 8.3e-16 rh r) (nr2 : Near 1.8e-15 rh2 (r * r)) (nQ : Near 1e-15 Qh Q) (a0 : 0 < a) (Qa : Q = (a ^ 3) ^ 2) (k1 : 1.8e-13 ≤ a ^ 3)
    (k2 : a ^ 3 ≤ 2e11) (hrel : r * r ≤ 6.75 * Q) :
    0 < fl (Qh + rh2) ∧ |fl (flCbrt fl pw (fl (rh + fl (√(fl (Qh + rh2))))) + flCbrt fl pw (fl (rh - fl (√(fl (Qh + rh2)))))) - (cbrtSign (r + √(Q + r * r)) + cbrtSign (r - √(Q + r * r)))| ≤
      5.15e-14 * a := by
  have r0 := nr.pos
  have k0 : 0 < a ^ 3 := by positivity
  have Q0 := nQ.pos
  have Q1 : 1.8e-13 ^ 2 ≤ Q := by rw [Qa]; exact pow_le_pow_left₀ (by norm_num) k1 2
  have Q2 : Q ≤ 2e11 ^ 2 := by rw [Qa]; exact pow_le_pow_left₀ k0.le k2 2
  have w1 : 1 / 10 ^ 90 ≤ Q + r * r := by
    have := mul_self_nonneg r
    refine le_trans (by norm_num) (Q1.trans (by linarith))
  have w2 : Q + r * r ≤ 4e23 := by
    have : Q + r * r ≤ 7.75 * Q := by linarith
    refine this.trans ((mul_le_mul_of_nonneg_left Q2 (by norm_num)).trans (by norm_num))
  have nw := (nQ.add 1.8e-15 nr2 (by norm_num) (by norm_num) (by norm_num)).fl R 1.92e-15 w1 (w2.trans (by norm_num)) (by norm_num) (by norm_num)
  refine ⟨nw.xpos, ?_⟩
  have d2 := sq_sqrt (show 0 ≤ Q + r * r by positivity)
  have d0 := sqrt_nonneg (Q + r * r)
  have dlo : a ^ 3 ≤ √(Q + r * r) := le_sqrt_of_sq_le (by linarith [mul_self_nonneg r])
  have dhi : √(Q + r * r) ≤ 2.784 * a ^ 3 := by
    rw [sqrt_le_left (by positivity), mul_pow, ← Qa]
    norm_num at *
    linarith
  have rhi : r ≤ 2.5981 * a ^ 3 := by
    refine le_of_sq_le_sq' ?_ (by positivity)
    rw [mul_pow, ← Qa]
    norm_num at *
    linarith [show r ^ 2 = r * r by ring]
  have nd := nw.sqrt.fl R 2.04e-15 (le_trans (by norm_num) (k1.trans dlo)) (dhi.trans (by norm_num at *; linarith)) (by norm_num) (by norm_num)
  generalize √(Q + r * r) = d at *
  generalize fl (√(fl (Qh + rh2))) = dh at *
  have prod : (d - r) * (d + r) = a ^ 3 * a ^ 3 := by
    have : (d - r) * (d + r) = d ^ 2 - r * r := by ring
    rw [this, d2, Qa]; ring
  have sum_hi : d + r ≤ 5.3821 * a ^ 3 := by linarith
  have diff0 : 0 < d - r := by
    by_contra hc
    have : (d - r) * (d + r) ≤ 0 := mul_nonpos_of_nonpos_of_nonneg (by linarith) (by linarith)
    nlinarith
  have diff_hi : d - r ≤ a ^ 3 := by
    by_contra hc
    have : a ^ 3 * a ^ 3 < (d - r) * (d + r) := mul_lt_mul'' (by linarith) (by linarith) k0.le k0.le
    linarith
  have diff_lo : a ^ 3 ≤ 5.3821 * (d - r) := by
    have h : (d - r) * (d + r) ≤ (d - r) * (5.3821 * a ^ 3) := mul_le_mul_of_nonneg_left sum_hi diff0.le
    have h' : a ^ 3 * a ^ 3 ≤ (5.3821 * (d - r)) * a ^ 3 := by linarith
    exact le_of_mul_le_mul_right h' k0
  have ns := (nr.add 2.04e-15 nd (by norm_num) (by norm_num) (by norm_num)).fl R 2.16e-15 (by norm_num at *; linarith) (by norm_num at *; linarith) (by norm_num) (by norm_num)
  have ndiff : Near 4.23e-14 (dh - rh) (d - r) := by
    refine ⟨diff0, by norm_num, by norm_num, ?_⟩
    have e : dh - rh - (d - r) = (dh - d) - (rh - r) := by ring
    rw [e]
    have := abs_sub (dh - d) (rh - r)
    have h1 := nd.err
    have h2 := nr.err
    have h3 := mul_le_mul_of_nonneg_left dhi (show (0 : ℝ) ≤ 2.04e-15 by norm_num)
    have h4 := mul_le_mul_of_nonneg_left rhi (show (0 : ℝ) ≤ 8.3e-16 by norm_num)
    norm_num at *
    linarith
  have nt := ndiff.fl R 4.25e-14 (by norm_num at *; linarith) (by norm_num at *; linarith) (by norm_num) (by norm_num)
  have c1 : flCbrt fl pw (fl (rh + dh)) = pw (fl (rh + dh)) (fl (1 / 3)) := by
    rw [flCbrt, if_neg (not_lt.2 ns.xpos.le), abs_of_pos ns.xpos]
  have c2 : flCbrt fl pw (fl (rh - dh)) = -pw (fl (dh - rh)) (fl (1 / 3)) := by
    rw [flCbrt, show rh - dh = -(dh - rh) by ring, R.odd, if_pos (by linarith [nt.xpos]), abs_neg, abs_of_pos nt.xpos]
  have c3 : cbrtSign (r + d) = (r + d) ^ (1 / 3 : ℝ) := by
    rw [cbrtSign, if_neg (by linarith), abs_of_pos (by linarith)]
  have c4 : cbrtSign (r - d) = -(d - r) ^ (1 / 3 : ℝ) := by
    rw [cbrtSign, if_pos (by linarith), show r - d = -(d - r) by ring, abs_neg, abs_of_pos diff0]
  have ps := pow_near R hp 3.77e-15 ns (by norm_num at *; linarith) (by norm_num at *; linarith) (by norm_num) (by norm_num)
  have pt := pow_near R hp 4.42e-14 nt (by norm_num at *; linarith) (by norm_num at *; linarith) (by norm_num) (by norm_num)
  have b1 : (r + d) ^ (1 / 3 : ℝ) ≤ 1.76 * a := by
    have e : ((r + d) ^ (1 / 3 : ℝ)) ^ 3 = r + d := by rw [← rpow_natCast, ← rpow_mul (by linarith)]; norm_num
    have : ((r + d) ^ (1 / 3 : ℝ)) ^ 3 ≤ (1.76 * a) ^ 3 := by
      rw [e, mul_pow]
      norm_num at *
      linarith
    exact le_of_pow_le_pow_left₀ (by norm_num) (by positivity) this
  have b2 : (d - r) ^ (1 / 3 : ℝ) ≤ a := by
    have e : ((d - r) ^ (1 / 3 : ℝ)) ^ 3 = d - r := by rw [← rpow_natCast, ← rpow_mul (by linarith)]; norm_num
    exact le_of_pow_le_pow_left₀ (by norm_num) a0.le (e.le.trans diff_hi)
  rw [c1, c2, c3, c4]
  have al : 1e-5 ≤ a := by
    refine le_of_pow_le_pow_left₀ (n := 3) (by norm_num) a0.le (le_trans ?_ k1)
    norm_num
  have au : a ≤ 1e4 := by
    refine le_of_pow_le_pow_left₀ (n := 3) (by norm_num) (by norm_num) (k2.trans ?_)
    norm_num
  have e1 := ps.err
  have e2 := pt.err
  have s0 := ps.pos
  have t0 := pt.pos
  generalize (r + d) ^ (1 / 3 : ℝ) = s at *
  generalize (d - r) ^ (1 / 3 : ℝ) = t at *
  generalize pw (fl (rh + dh)) (fl (1 / 3)) = sh at *
  generalize pw (fl (dh - rh)) (fl (1 / 3)) = th at *
  have e3 : |sh - th - (s - t)| ≤ 3.77e-15 * s + 4.42e-14 * t := by
    have := abs_sub (sh - s) (th - t)
    rw [show sh - s - (th - t) = sh - th - (s - t) by ring] at this
    linarith
  have e4 : |sh - th| ≤ 2.8 * a := by
    have := abs_add_le (sh - th - (s - t)) (s - t)
    rw [sub_add_cancel] at this
    have h := abs_sub s t
    rw [abs_of_pos s0, abs_of_pos t0] at h
    norm_num at *
    linarith
  have e5 := R.err (x := sh - th) (e4.trans (by norm_num at *; linarith))
  have := abs_add_le (fl (sh - th) - (sh - th)) (sh - th - (s - t))
  rw [sub_add_sub_cancel] at this
  rw [← sub_eq_add_neg, ← sub_eq_add_neg]
  norm_num at *
  linarith

theorem pin_radius {D rp rph : ℝ} (h1 : 1 / 10 ^ 8 ≤ D) (h2 : D ≤ 10 ^ 8) (hr : Near 6e-16 rph rp) (hl : 1 / 10 ^ 19 ≤ rp) (hD : D * rp ^ 2 ≤ 1) :
    0 < fl (fl (fl (fl (1 / fl (3 * D)) * fl (1 / fl (3 * D))) * fl (1 / fl (3 * D))) + fl (fl (rph / fl (2 * D)) * fl (rph / fl (2 * D)))) ∧
    |fl (flCbrt fl pw (fl (fl (rph / fl (2 * D)) + fl (√(fl (fl (fl (fl (1 / fl (3 * D)) * fl (1 / fl (3 * D))) * fl (1 / fl (3 * D))) + fl (fl (rph / fl (2 * D)) * fl (rph / fl (2 * D)))))))) +
        flCbrt fl pw (fl (fl (rph / fl (2 * D)) - fl (√(fl (fl (fl (fl (1 / fl (3 * D)) * fl (1 / fl (3 * D))) * fl (1 / fl (3 * D))) + fl (fl (rph / fl (2 * D)) * fl (rph / fl (2 * D))))))))) -
      unpcdF D rp| ≤ 3e-14 / √D := by
  have D0 : 0 < D := lt_of_lt_of_le (by norm_num) h1
  have rp0 := hr.pos
  have hu : rp ≤ 10 ^ 4 := by
    have : rp ^ 2 ≤ (10 ^ 4) ^ 2 := by
      have : (1 / 10 ^ 8) * rp ^ 2 ≤ 1 := le_trans (mul_le_mul_of_nonneg_right h1 (by positivity)) hD
      norm_num at *; linarith
    exact le_of_sq_le_sq' this (by norm_num)
  obtain ⟨-, -, nQ, q1, q2⟩ := unpcd_q R h1 h2
  obtain ⟨nr, nr2, r1, r2⟩ := unpcd_r R h1 h2 hr hl hu
  have hrel : rp / (2 * D) * (rp / (2 * D)) ≤ 6.75 * (1 / (3 * D) * (1 / (3 * D)) * (1 / (3 * D))) := by
    have : rp / (2 * D) * (rp / (2 * D)) = D * rp ^ 2 * (6.75 * (1 / (3 * D) * (1 / (3 * D)) * (1 / (3 * D)))) := by field_simp; norm_num
    rw [this]
    exact mul_le_of_le_one_left (by positivity) hD
  have hsq : (√(1 / (3 * D))) ≤ 0.57736 / √D := by
    rw [show 1 / (3 * D) = (1 / 3) / D by field_simp, sqrt_div (by norm_num)]
    refine div_le_div_of_nonneg_right ?_ (sqrt_nonneg _)
    rw [sqrt_le_left (by norm_num)]; norm_num
  have hF : unpcdF D rp = cbrtSign (rp / (2 * D) + √(1 / (3 * D) * (1 / (3 * D)) * (1 / (3 * D)) + rp / (2 * D) * (rp / (2 * D)))) +
      cbrtSign (rp / (2 * D) - √(1 / (3 * D) * (1 / (3 * D)) * (1 / (3 * D)) + rp / (2 * D) * (rp / (2 * D)))) := by
    unfold unpcdF
    rw [if_pos (by positivity)]
  rw [hF]
  have q0 : 0 < 1 / (3 * D) := by positivity
  have r0 := nr.pos
  generalize fl (rph / fl (2 * D)) = rh at *
  generalize fl (rh * rh) = rh2 at *
  generalize fl (fl (fl (1 / fl (3 * D)) * fl (1 / fl (3 * D))) * fl (1 / fl (3 * D))) = Qh at *
  generalize 1 / (3 * D) = q at *
  generalize rp / (2 * D) = r at *
  have Q0 : 0 < q * q * q := by positivity
  have Q1 : 1 / (3.1 * 10 ^ 8) * (1 / (3.1 * 10 ^ 8)) * (1 / (3.1 * 10 ^ 8)) ≤ q * q * q := mul_le_mul (mul_le_mul q1 q1 (by norm_num) q0.le) q1 (by norm_num) (by positivity)
  have Q2 : q * q * q ≤ 3.4 * 10 ^ 7 * (3.4 * 10 ^ 7) * (3.4 * 10 ^ 7) := mul_le_mul (mul_le_mul q2 q2 q0.le (by norm_num)) q2 q0.le (by norm_num)
  have hq3 : q = √q ^ 2 := (sq_sqrt q0.le).symm
  have sq0 : 0 < √q := sqrt_pos.2 q0
  generalize √q = a at *
  have Qa : q * q * q = (a ^ 3) ^ 2 := by rw [hq3]; ring
  have k1 : 1.8e-13 ≤ a ^ 3 := le_of_sq_le_sq' (by rw [← Qa]; refine le_trans ?_ Q1; norm_num) (by positivity)
  have k2 : a ^ 3 ≤ 2e11 := le_of_sq_le_sq' (by rw [← Qa]; refine Q2.trans ?_; norm_num) (by norm_num)
  obtain ⟨t1, t2⟩ := pin_tail R hp nr nr2 nQ sq0 Qa k1 k2 hrel
  refine ⟨t1, t2.trans ?_⟩
  calc _ ≤ 5.15e-14 * (0.57736 / √D) := mul_le_mul_of_nonneg_left hsq (by norm_num)
    _ = (5.15e-14 * 0.57736) / √D := by ring
    _ ≤ _ := div_le_div_of_nonneg_right (by norm_num) (sqrt_nonneg _)

end Pal
