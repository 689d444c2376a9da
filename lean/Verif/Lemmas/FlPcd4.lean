import Verif.Lemmas.FlPcd3

/-! # Accuracy of palUnpcd in double precision: choice of the solution -/

namespace Pal
open Real

variable {fl : ℝ → ℝ} (R : Rounding fl) {L : Libm} (hL : LibmOK L)
include R

theorem pick_one {rp rph W f1 f2 f3 : ℝ} (w1 : 1 / 10 ^ 4 ≤ W) (w2 : W ≤ 2 * 10 ^ 4) (hr0 : 0 ≤ rp) (hr : rp ≤ 0.23 * W) (hrh : |rph - rp| ≤ 1e-10 * W) (h1 : |f1| ≤ 0.263 * W) (h1' : -1e-10 * W ≤ f1)
    (h2 : 0.706 * W ≤ f2) (h2' : f2 ≤ 1.1 * W) (h3 : f3 ≤ -0.86 * W) (h3' : -1.1 * W ≤ f3) : flPick fl rph f1 f2 f3 = f1 := by
  have W0 : 0 < W := lt_of_lt_of_le (by norm_num) w1
  have a := abs_le.1 hrh
  have b := abs_le.1 h1
  have e : ∀ z, |z| ≤ 2 * W → |fl z| ≤ |z| + 1e-10 * W ∧ |z| - 1e-10 * W ≤ |fl z| := by
    intro z hz
    have r := R.err (x := z) (hz.trans (by norm_num at *; linarith))
    have t1 := abs_add_le (fl z - z) z
    have t2 := abs_sub_abs_le_abs_sub z (fl z)
    rw [abs_sub_comm] at t2
    rw [sub_add_cancel] at t1
    constructor <;> (norm_num at *; linarith)
  have d1 : |f1 - rph| ≤ 0.27 * W := abs_le.2 ⟨by norm_num at *; linarith, by norm_num at *; linarith⟩
  have d2 : |f2 - rph| ≤ 2 * W := abs_le.2 ⟨by norm_num at *; linarith, by norm_num at *; linarith⟩
  have d3 : |f3 - rph| ≤ 2 * W := abs_le.2 ⟨by norm_num at *; linarith, by norm_num at *; linarith⟩
  have l2 : 0.47 * W ≤ |f2 - rph| := le_trans (by norm_num at *; linarith) (le_abs_self _)
  have l3 : 0.47 * W ≤ |f3 - rph| := by rw [abs_sub_comm]; exact le_trans (by norm_num at *; linarith) (le_abs_self _)
  have e1 := (e _ (d1.trans (by linarith))).1
  have e2 := (e _ d2).2
  have e3 := (e _ d3).2
  have k2 : |fl (f1 - rph)| < |fl (f2 - rph)| := by norm_num at *; linarith
  have k3 : |fl (f1 - rph)| < |fl (f3 - rph)| := by norm_num at *; linarith
  unfold flPick
  dsimp only
  rw [if_pos k2, if_pos k3]

include hL

set_option maxHeartbeats 4000000 in
theorem barrel_radius {D rp rph : ℝ} (h1 : 1 / 10 ^ 8 ≤ D) (h2 : D ≤ 10 ^ 8) (hr : Near 6e-16 rph rp) (hl : 1 / 10 ^ 19 ≤ rp) (hD : D * rp ^ 2 ≤ 0.07) :
    let w := fl (2 / fl (√(fl (-3 * -D))))
    let c := fl (fl (4 * rph) / fl (fl (fl (-D * w) * w) * w))
    let t3 := L.atan2 (fl (√(fl (1 - min (fl (c * c)) 1)))) c
    ¬ fl (fl (fl (fl (1 / fl (3 * -D)) * fl (1 / fl (3 * -D))) * fl (1 / fl (3 * -D))) + fl (fl (rph / fl (2 * -D)) * fl (rph / fl (2 * -D)))) > 0 ∧
    |flPick fl rph (fl (w * L.cos (fl (fl (flPal2PI fl - t3) / 3)))) (fl (w * L.cos (fl (t3 / 3)))) (fl (w * L.cos (fl (fl (flPal2PI fl + t3) / 3)))) - unpcdF (-D) rp| ≤ 6.3e-15 / √D ∧
    0 ≤ unpcdF (-D) rp ∧ unpcdF (-D) rp ≤ 2 * rp := by
  intro w c t3
  have D0 : 0 < D := lt_of_lt_of_le (by norm_num) h1
  have rp0 := hr.pos
  have hu : rp ≤ 10 ^ 4 := by
    have : rp ^ 2 ≤ (10 ^ 4) ^ 2 := by
      have : (1 / 10 ^ 8) * rp ^ 2 ≤ 0.07 := le_trans (mul_le_mul_of_nonneg_right h1 (by positivity)) hD
      norm_num at *; linarith
    exact le_of_sq_le_sq' this (by norm_num)
  obtain ⟨-, -, nQ, q1, q2⟩ := unpcd_q R h1 h2
  obtain ⟨nr, nr2, r1, r2⟩ := unpcd_r R h1 h2 hr hl hu
  have hrel : rp / (2 * D) * (rp / (2 * D)) ≤ 0.4725 * (1 / (3 * D) * (1 / (3 * D)) * (1 / (3 * D))) := by
    have : rp / (2 * D) * (rp / (2 * D)) = D * rp ^ 2 * (6.75 * (1 / (3 * D) * (1 / (3 * D)) * (1 / (3 * D)))) := by field_simp; norm_num
    rw [this]
    have p : 0 ≤ 6.75 * (1 / (3 * D) * (1 / (3 * D)) * (1 / (3 * D))) := by positivity
    have := mul_le_mul_of_nonneg_right hD p
    norm_num at *
    linarith
  constructor
  · have q0 := nQ.pos
    rw [show 3 * -D = -(3 * D) by ring, show 2 * -D = -(2 * D) by ring, R.odd, R.odd, div_neg, div_neg, R.odd, R.odd, neg_mul_neg, neg_mul_neg, mul_neg, R.odd (fl (fl (1 / fl (3 * D)) * fl (1 / fl (3 * D))) * fl (1 / fl (3 * D)))]
    generalize fl (fl (fl (1 / fl (3 * D)) * fl (1 / fl (3 * D))) * fl (1 / fl (3 * D))) = Qh at *
    have q3 : 1 / (3 * D) * (1 / (3 * D)) * (1 / (3 * D)) ≤ 3.4 * 10 ^ 7 * (3.4 * 10 ^ 7) * (3.4 * 10 ^ 7) :=
      mul_le_mul (mul_le_mul q2 q2 (by positivity) (by norm_num)) q2 (by positivity) (by norm_num)
    generalize 1 / (3 * D) * (1 / (3 * D)) * (1 / (3 * D)) = Q at *
    generalize fl (fl (rph / fl (2 * D)) * fl (rph / fl (2 * D))) = r2h at *
    have b1 := nQ.lo'
    have b2 := nr2.hi'
    have b3 := nQ.hi'
    have b4 := nr2.xpos
    rw [show -Qh + r2h = -(Qh - r2h) by ring, R.odd, gt_iff_lt, not_lt, neg_nonpos]
    refine R.nonneg ?_ (by norm_num at *; linarith)
    rw [abs_of_nonneg (by norm_num at *; linarith)]
    norm_num at *
    linarith
  obtain ⟨nW, ⟨c', hc', nc⟩, w1, w2⟩ := barrel_wc R h1 h2 hr hl hu
  have ew : w = fl (2 / fl (√(fl (-3 * -D)))) := rfl
  rw [← ew] at nW hc'
  have ec : c = -c' := hc'
  have et : t3 = L.atan2 (fl (√(fl (1 - min (fl (c * c)) 1)))) c := rfl
  rw [ec] at et
  clear_value t3 c w
  have hneg : -D < 0 := by linarith
  obtain ⟨hW, hW2, hcW⟩ := W_spec hneg rp
  have hw0 : ¬ (1 / (3 * -D) * (1 / (3 * -D)) * (1 / (3 * -D)) + rp / (2 * -D) * (rp / (2 * -D)) > 0) := by
    rw [discr_eq hneg.ne, gt_iff_lt, not_lt]
    apply div_nonpos_of_nonneg_of_nonpos
    · norm_num at *; linarith
    · have := pow_pos D0 3
      rw [show 108 * (-D) ^ 3 = -(108 * D ^ 3) by ring]
      linarith
  have hFeq : unpcdF (-D) rp = pick3 rp
      ((2 / √(-3 * -D)) * cos ((2 * π - atan2 (√(1 - min (4 * rp / (-D * (2 / √(-3 * -D)) * (2 / √(-3 * -D)) * (2 / √(-3 * -D))) * (4 * rp / (-D * (2 / √(-3 * -D)) * (2 / √(-3 * -D)) * (2 / √(-3 * -D))))) 1)) (4 * rp / (-D * (2 / √(-3 * -D)) * (2 / √(-3 * -D)) * (2 / √(-3 * -D))))) / 3))
      ((2 / √(-3 * -D)) * cos (atan2 (√(1 - min (4 * rp / (-D * (2 / √(-3 * -D)) * (2 / √(-3 * -D)) * (2 / √(-3 * -D))) * (4 * rp / (-D * (2 / √(-3 * -D)) * (2 / √(-3 * -D)) * (2 / √(-3 * -D))))) 1)) (4 * rp / (-D * (2 / √(-3 * -D)) * (2 / √(-3 * -D)) * (2 / √(-3 * -D)))) / 3))
      ((2 / √(-3 * -D)) * cos ((2 * π + atan2 (√(1 - min (4 * rp / (-D * (2 / √(-3 * -D)) * (2 / √(-3 * -D)) * (2 / √(-3 * -D))) * (4 * rp / (-D * (2 / √(-3 * -D)) * (2 / √(-3 * -D)) * (2 / √(-3 * -D))))) 1)) (4 * rp / (-D * (2 / √(-3 * -D)) * (2 / √(-3 * -D)) * (2 / √(-3 * -D))))) / 3)) := by
    unfold unpcdF
    dsimp only
    rw [if_neg hw0]
  rw [hFeq]
  have hsq : 2 / √(3 * D) ≤ 1.1548 / √D := by
    rw [sqrt_mul (by norm_num), ← div_div]
    refine div_le_div_of_nonneg_right ?_ (sqrt_nonneg _)
    rw [div_le_iff₀ (by norm_num)]
    have : 1.732 ≤ √3 := le_sqrt_of_sq_le (by norm_num)
    norm_num at *; linarith
  rw [show (-3 : ℝ) * -D = 3 * D by ring] at *
  -- the exact quantities
  have eC : 4 * rp / (-D * (2 / √(3 * D)) * (2 / √(3 * D)) * (2 / √(3 * D))) = -(4 * rp / (D * (2 / √(3 * D)) * (2 / √(3 * D)) * (2 / √(3 * D)))) := by
    rw [← div_neg]; congr 1; ring
  rw [eC] at hcW ⊢
  generalize 4 * rp / (D * (2 / √(3 * D)) * (2 / √(3 * D)) * (2 / √(3 * D))) = C at *
  generalize 2 / √(3 * D) = W at *
  have C0 := nc.pos
  have cW : C * W = 3 * rp := by linarith
  have hC2 : C * C ≤ 0.4725 := by
    have e1 : (C * C) * (W * W) = 9 * rp ^ 2 := by
      calc (C * C) * (W * W) = (C * W) * (C * W) := by ring
        _ = _ := by rw [cW]; ring
    have e2 : (C * C) * 4 = 27 * (D * rp ^ 2) := by
      calc (C * C) * 4 = (C * C) * (W * W) * (3 * D) := by rw [← hW2]; ring
        _ = _ := by rw [e1]; ring
    norm_num at *; linarith
  have C1 : C ≤ 0.6875 := le_of_sq_le_sq' (by rw [sq]; norm_num at *; linarith) (by norm_num)
  have Cl : 1 / 10 ^ 30 ≤ C := by
    by_contra hc
    have : C * W < 1 / 10 ^ 30 * (2 * 10 ^ 4) := mul_lt_mul (by linarith) w2 hW (by norm_num)
    norm_num at *; linarith
  obtain ⟨t1, t2, t2', t4⟩ := t3_spec (c := -C) (by rw [neg_mul_neg]; linarith)
  have t2' := t2' (by linarith)
  generalize atan2 (√(1 - min (-C * -C) 1)) (-C) = T at *
  have ang := barrel_angle R hL nc Cl hC2 T t2 t4 t1
  rw [← et] at ang
  have p0 := pi_pos
  have p3 := pi_lt_d4
  have p4 := pi_gt_d4
  have T34 : T ≤ 3 * π / 4 := by
    by_contra hc
    have := cos_lt_cos_of_nonneg_of_le_pi (x := 3 * π / 4) (y := T) (by positivity) t4 (by linarith)
    rw [t1, show 3 * π / 4 = π - π / 4 by ring, cos_pi_sub, cos_pi_div_four] at this
    have : 1.41 ≤ √2 := le_sqrt_of_sq_le (by norm_num)
    norm_num at *; linarith
  have tb := abs_le.1 ang
  have d2 := D2_pi
  have a1 : |fl (fl (flPal2PI fl - t3) / 3) - (2 * π - T) / 3| ≤ 4.7e-15 := by
    refine third_angle R ?_ ?_
    · rw [flPal2PI_eq R]
      exact abs_le.2 ⟨by norm_num at *; linarith, by norm_num at *; linarith⟩
    · exact abs_le.2 ⟨by norm_num at *; linarith, by norm_num at *; linarith⟩
  have a3 : |fl (fl (flPal2PI fl + t3) / 3) - (2 * π + T) / 3| ≤ 4.7e-15 := by
    refine third_angle R ?_ ?_
    · rw [flPal2PI_eq R]
      exact abs_le.2 ⟨by norm_num at *; linarith, by norm_num at *; linarith⟩
    · exact abs_le.2 ⟨by norm_num at *; linarith, by norm_num at *; linarith⟩
  have a2 : |fl (t3 / 3) - T / 3| ≤ 4.7e-15 := by
    have k2 : |t3 / 3 - T / 3| ≤ 3.84e-15 := by
      rw [← sub_div, abs_div, abs_of_pos (show (0 : ℝ) < 3 by norm_num), div_le_iff₀ (by norm_num)]
      norm_num at *; linarith
    have k3 : |t3 / 3| ≤ 3 := abs_le.2 ⟨by norm_num at *; linarith, by norm_num at *; linarith⟩
    have r := R.err (x := t3 / 3) (k3.trans (by norm_num))
    have := abs_add_le (fl (t3 / 3) - t3 / 3) (t3 / 3 - T / 3)
    rw [sub_add_sub_cancel] at this
    norm_num at *; linarith
  have s1 := barrel_sol R hL nW w1 w2 a1
  have s2 := barrel_sol R hL nW w1 w2 a2
  have s3 := barrel_sol R hL nW w1 w2 a3
  have c1 : 0 ≤ cos ((2 * π - T) / 3) := cos_nonneg_of_mem_Icc ⟨by linarith, by linarith⟩
  have c1' : cos ((2 * π - T) / 3) ≤ 0.262 := by
    rw [← sin_pi_div_two_sub]
    have : sin (π / 2 - (2 * π - T) / 3) ≤ π / 2 - (2 * π - T) / 3 := sin_le (by linarith)
    norm_num at *; linarith
  have c2 : 0.707 ≤ cos (T / 3) := by
    have : cos (π / 4) ≤ cos (T / 3) := cos_le_cos_of_nonneg_of_le_pi (by positivity) (by linarith) (by linarith)
    rw [cos_pi_div_four] at this
    have : 1.414 ≤ √2 := le_sqrt_of_sq_le (by norm_num)
    norm_num at *; linarith
  have c3 : cos ((2 * π + T) / 3) ≤ -0.866 := by
    have e : cos ((2 * π + T) / 3) = -cos (π - (2 * π + T) / 3) := by rw [cos_pi_sub]; ring
    have : cos (π / 6) ≤ cos (π - (2 * π + T) / 3) := cos_le_cos_of_nonneg_of_le_pi (by linarith) (by linarith) (by linarith)
    rw [cos_pi_div_six] at this
    have : 1.732 ≤ √3 := le_sqrt_of_sq_le (by norm_num)
    norm_num at *; linarith
  have c2' := cos_le_one (T / 3)
  have c3' := neg_one_le_cos ((2 * π + T) / 3)
  have root1 := trig_root (disco := -D) (rp := rp) (W := W) (c := -C) (th := (2 * π - T) / 3) (by linarith only [hW2]) hcW (by rw [show 3 * ((2 * π - T) / 3) = 2 * π - T by ring, cos_two_pi_sub, t1])
  have m1 : W * cos ((2 * π - T) / 3) ≤ 0.262 * W := by rw [mul_comm]; exact mul_le_mul_of_nonneg_right c1' hW.le
  have m1' : 0 ≤ W * cos ((2 * π - T) / 3) := mul_nonneg hW.le c1
  have m2 : 0.707 * W ≤ W * cos (T / 3) := by rw [mul_comm W]; exact mul_le_mul_of_nonneg_right c2 hW.le
  have m2' : W * cos (T / 3) ≤ W := mul_le_of_le_one_right hW.le c2'
  have m3 : W * cos ((2 * π + T) / 3) ≤ -0.866 * W := by rw [mul_comm W]; exact mul_le_mul_of_nonneg_right c3 hW.le
  have m3' : -W ≤ W * cos ((2 * π + T) / 3) := by
    have := mul_le_mul_of_nonneg_left c3' hW.le
    linarith
  generalize W * cos ((2 * π - T) / 3) = F1 at *
  generalize W * cos (T / 3) = F2 at *
  generalize W * cos ((2 * π + T) / 3) = F3 at *
  have rW : rp ≤ 0.23 * W := by
    have := mul_le_mul_of_nonneg_right C1 hW.le
    norm_num at *; linarith
  have pk : pick3 rp F1 F2 F3 = F1 := by
    unfold pick3
    have k1 : |F1 - rp| ≤ 0.262 * W := abs_le.2 ⟨by norm_num at *; linarith, by norm_num at *; linarith⟩
    have k2 : 0.47 * W ≤ |F2 - rp| := le_trans (by norm_num at *; linarith) (le_abs_self _)
    have k3 : 0.47 * W ≤ |F3 - rp| := by rw [abs_sub_comm]; exact le_trans (by norm_num at *; linarith) (le_abs_self _)
    rw [if_pos (by norm_num at *; linarith), if_pos (by norm_num at *; linarith)]
  rw [pk]
  have b1 := abs_le.1 s1
  have b2 := abs_le.1 s2
  have b3 := abs_le.1 s3
  rw [pick_one R w1 w2 rp0.le rW (hr.err.trans (by norm_num at *; linarith)) (abs_le.2 ⟨by norm_num at *; linarith, by norm_num at *; linarith⟩) (by norm_num at *; linarith) (by norm_num at *; linarith)
    (by norm_num at *; linarith) (by norm_num at *; linarith) (by norm_num at *; linarith)]
  refine ⟨s1.trans ?_, m1', ?_⟩
  · calc _ ≤ 5.4e-15 * (1.1548 / √D) := mul_le_mul_of_nonneg_left hsq (by norm_num)
      _ = (5.4e-15 * 1.1548) / √D := by ring
      _ ≤ _ := div_le_div_of_nonneg_right (by norm_num) (sqrt_nonneg _)
  · have f2 : F1 * F1 ≤ (0.262 * W) * (0.262 * W) := mul_self_le_mul_self m1' m1
    have f3 : 3 * D * (F1 * F1) ≤ 0.275 := by
      have := mul_le_mul_of_nonneg_left f2 (show 0 ≤ 3 * D by linarith)
      have e : 3 * D * (0.262 * W * (0.262 * W)) = 0.262 ^ 2 * (3 * D * (W * W)) := by ring
      rw [e, hW2] at this
      norm_num at *; linarith
    have f4 : D * F1 ^ 3 = D * (F1 * F1) * F1 := by ring
    have f5 : D * (F1 * F1) * F1 ≤ 0.1 * F1 := mul_le_mul_of_nonneg_right (by norm_num at *; linarith) m1'
    have f6 : -D * F1 ^ 3 = -(D * F1 ^ 3) := by ring
    rw [f6] at root1
    norm_num at *; linarith

end Pal
