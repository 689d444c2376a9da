import Verif.Lemmas.Coord

/-! # The cubic of radial distortion -/

namespace Pal
open Real Spec

theorem cbrtSign_cube (w : ℝ) : cbrtSign w ^ 3 = w := by
  have h : ∀ a : ℝ, 0 ≤ a → (a ^ (1 / 3 : ℝ)) ^ 3 = a := by
    intro a ha
    rw [← Real.rpow_natCast, ← Real.rpow_mul ha]; norm_num
  unfold cbrtSign
  split_ifs with hw
  · rw [neg_pow, h _ (abs_nonneg _), abs_of_neg hw]; ring
  · rw [h _ (abs_nonneg _), abs_of_nonneg (not_lt.1 hw)]

theorem cube_inj {a b : ℝ} (h : a ^ 3 = b ^ 3) : a = b := (Odd.strictMono_pow (by decide : Odd 3)).injective h

/-- The value computed by the algebraic branch is a root of the cubic. -/
theorem cardano {q r : ℝ} (hw : 0 < q * q * q + r * r) :
    (cbrtSign (r + √(q * q * q + r * r)) + cbrtSign (r - √(q * q * q + r * r))) ^ 3 +
      3 * q * (cbrtSign (r + √(q * q * q + r * r)) + cbrtSign (r - √(q * q * q + r * r))) - 2 * r = 0 := by
  have h1 := cbrtSign_cube (r + √(q * q * q + r * r))
  have h2 := cbrtSign_cube (r - √(q * q * q + r * r))
  have h3 := Real.mul_self_sqrt hw.le
  generalize √(q * q * q + r * r) = d at *
  generalize cbrtSign (r + d) = s at *
  generalize cbrtSign (r - d) = t at *
  have hst : s * t = -q := by
    apply cube_inj
    rw [mul_pow, h1, h2]; linear_combination -h3
  linear_combination h1 + h2 + 3 * (s + t) * hst

/-- The three values computed by the trigonometric branch are roots of the cubic. -/
theorem trig_root {disco rp W c th : ℝ} (hW : -3 * disco * (W * W) = 4) (hc : c * W = -3 * rp) (hth : cos (3 * th) = c) :
    disco * (W * cos th) ^ 3 + W * cos th - rp = 0 := by
  rw [Real.cos_three_mul] at hth
  subst hth
  linear_combination (-(W * cos th ^ 3) / 3) * hW - hc / 3

theorem t3_spec {c : ℝ} (hc : c * c ≤ 1) : cos (atan2 (√(1 - min (c * c) 1)) c) = c ∧ 0 ≤ atan2 (√(1 - min (c * c) 1)) c ∧
    (c ≤ 0 → π / 2 ≤ atan2 (√(1 - min (c * c) 1)) c) ∧ atan2 (√(1 - min (c * c) 1)) c ≤ π := by
  rw [min_eq_left hc]
  have h := hyp_cos_atan2 (√(1 - c * c)) c
  rw [Real.mul_self_sqrt (by linarith), show c * c + (1 - c * c) = 1 by ring, Real.sqrt_one, one_mul] at h
  have h0 : 0 ≤ atan2 (√(1 - c * c)) c := atan2_nonneg (Real.sqrt_nonneg _)
  refine ⟨h, h0, ?_, (atan2_mem _ _).2⟩
  intro hc0
  by_contra hcon
  push Not at hcon
  have := Real.cos_pos_of_mem_Ioo ⟨by linarith [Real.pi_pos], hcon⟩
  linarith

/-- The choice among the three roots. -/
noncomputable def pick3 (rp f1 f2 f3 : ℝ) : ℝ :=
  if |f1 - rp| < |f2 - rp| then (if |f1 - rp| < |f3 - rp| then f1 else f3) else (if |f2 - rp| < |f3 - rp| then f2 else f3)

/-- The radius computed by palUnpcd. -/
noncomputable def unpcdF (disco rp : ℝ) : ℝ :=
  if 1 / (3 * disco) * (1 / (3 * disco)) * (1 / (3 * disco)) + rp / (2 * disco) * (rp / (2 * disco)) > 0 then
    cbrtSign (rp / (2 * disco) + √(1 / (3 * disco) * (1 / (3 * disco)) * (1 / (3 * disco)) + rp / (2 * disco) * (rp / (2 * disco)))) +
    cbrtSign (rp / (2 * disco) - √(1 / (3 * disco) * (1 / (3 * disco)) * (1 / (3 * disco)) + rp / (2 * disco) * (rp / (2 * disco))))
  else
    let W := 2 / √(-3 * disco)
    let c := 4 * rp / (disco * W * W * W)
    let t3 := atan2 (√(1 - min (c * c) 1)) c
    pick3 rp (W * cos ((2 * π - t3) / 3)) (W * cos (t3 / 3)) (W * cos ((2 * π + t3) / 3))

theorem unpcd_eq (disco x y : ℝ) (h : √(x * x + y * y) ≠ 0 ∧ disco ≠ 0) :
    palUnpcd disco x y = (x * (unpcdF disco (√(x * x + y * y)) / √(x * x + y * y)), y * (unpcdF disco (√(x * x + y * y)) / √(x * x + y * y))) := by
  unfold palUnpcd
  dsimp only
  rw [if_pos h]
  rfl

theorem discr_eq {disco : ℝ} (hd : disco ≠ 0) (rp : ℝ) :
    1 / (3 * disco) * (1 / (3 * disco)) * (1 / (3 * disco)) + rp / (2 * disco) * (rp / (2 * disco)) = (4 + 27 * disco * rp ^ 2) / (108 * disco ^ 3) := by
  field_simp; ring

theorem W_spec {disco : ℝ} (hneg : disco < 0) (rp : ℝ) :
    0 < 2 / √(-3 * disco) ∧ -3 * disco * ((2 / √(-3 * disco)) * (2 / √(-3 * disco))) = 4 ∧
    4 * rp / (disco * (2 / √(-3 * disco)) * (2 / √(-3 * disco)) * (2 / √(-3 * disco))) * (2 / √(-3 * disco)) = -3 * rp := by
  have hpos : 0 < -3 * disco := by linarith
  have hs := Real.sqrt_pos.2 hpos
  have hs2 := Real.mul_self_sqrt hpos.le
  have hW2 : -3 * disco * ((2 / √(-3 * disco)) * (2 / √(-3 * disco))) = 4 := by
    rw [div_mul_div_comm, hs2, mul_div_cancel₀ _ hpos.ne']; norm_num
  have hWs : 0 < 2 / √(-3 * disco) := by positivity
  refine ⟨hWs, hW2, ?_⟩
  generalize 2 / √(-3 * disco) = W at *
  have hd : disco ≠ 0 := hneg.ne
  have : 4 * rp / (disco * W * W * W) * W = 4 * rp / (disco * (W * W)) := by field_simp
  rw [this, show disco * (W * W) = -4 / 3 by linarith]; ring

/-- The radius computed is a root of the distortion cubic. -/
theorem unpcdF_root {disco rp : ℝ} (hrp : 0 < rp) (hd : disco ≠ 0) : disco * unpcdF disco rp ^ 3 + unpcdF disco rp - rp = 0 := by
  unfold unpcdF
  split_ifs with hw
  · have h := cardano hw
    generalize cbrtSign (rp / (2 * disco) + √(1 / (3 * disco) * (1 / (3 * disco)) * (1 / (3 * disco)) + rp / (2 * disco) * (rp / (2 * disco)))) +
      cbrtSign (rp / (2 * disco) - √(1 / (3 * disco) * (1 / (3 * disco)) * (1 / (3 * disco)) + rp / (2 * disco) * (rp / (2 * disco)))) = f at *
    field_simp at h
    linarith
  · have hneg : disco < 0 := by
      rcases lt_or_gt_of_ne hd with h | h
      · exact h
      · exact absurd (by positivity) hw
    rw [discr_eq hd] at hw
    have h27 : -27 * disco * rp ^ 2 ≤ 4 := by
      have h3 : 108 * disco ^ 3 < 0 := by
        have := pow_pos (neg_pos.2 hneg) 3
        nlinarith
      rcases div_nonpos_iff.1 (not_lt.1 hw) with ⟨h, _⟩ | ⟨h, h'⟩ <;> linarith
    obtain ⟨hW, hW2, hc⟩ := W_spec hneg rp
    dsimp only
    generalize 4 * rp / (disco * (2 / √(-3 * disco)) * (2 / √(-3 * disco)) * (2 / √(-3 * disco))) = c at *
    generalize 2 / √(-3 * disco) = W at *
    have hc2 : c * c ≤ 1 := by
      have e1 : (c * c) * (W * W) = 9 * rp ^ 2 := by
        calc (c * c) * (W * W) = (c * W) * (c * W) := by ring
          _ = _ := by rw [hc]; ring
      have e2 : (c * c) * 4 ≤ 4 := by
        calc (c * c) * 4 = (c * c) * (W * W) * (-3 * disco) := by rw [← hW2]; ring
          _ = -27 * disco * rp ^ 2 := by rw [e1]; ring
          _ ≤ 4 := h27
      linarith
    obtain ⟨h1, -, -, -⟩ := t3_spec hc2
    generalize atan2 (√(1 - min (c * c) 1)) c = t3 at *
    have r1 := trig_root (th := (2 * π - t3) / 3) hW2 hc (by rw [show 3 * ((2 * π - t3) / 3) = 2 * π - t3 by ring, Real.cos_two_pi_sub, h1])
    have r2 := trig_root (th := t3 / 3) hW2 hc (by rw [show 3 * (t3 / 3) = t3 by ring, h1])
    have r3 := trig_root (th := (2 * π + t3) / 3) hW2 hc (by rw [show 3 * ((2 * π + t3) / 3) = t3 + 2 * π by ring, Real.cos_add_two_pi, h1])
    unfold pick3
    split_ifs <;> assumption

/-- For barrel distortion, when the cubic has a root in the monotonic range, the radius chosen is in that range. -/
theorem unpcdF_range {disco rp r : ℝ} (hrp : 0 < rp) (hneg : disco < 0) (hm : -3 * disco * (r * r) ≤ 1)
    (hroot : disco * r ^ 3 + r - rp = 0) : 0 ≤ unpcdF disco rp ∧ -3 * disco * (unpcdF disco rp * unpcdF disco rp) ≤ 1 := by
  have hrp' : rp = r * (1 + disco * (r * r)) := by linarith
  have h27 : 0 ≤ 4 + 27 * disco * rp ^ 2 := by
    rw [hrp']
    have e : 4 + 27 * disco * (r * (1 + disco * (r * r))) ^ 2 = (1 - -3 * disco * (r * r)) ^ 2 * (4 - -3 * disco * (r * r)) := by ring
    rw [e]
    exact mul_nonneg (sq_nonneg _) (by linarith)
  have hw : ¬ (1 / (3 * disco) * (1 / (3 * disco)) * (1 / (3 * disco)) + rp / (2 * disco) * (rp / (2 * disco)) > 0) := by
    rw [discr_eq hneg.ne, gt_iff_lt, not_lt]
    apply div_nonpos_of_nonneg_of_nonpos h27
    have := pow_pos (neg_pos.2 hneg) 3
    nlinarith
  unfold unpcdF
  rw [if_neg hw]
  obtain ⟨hW, hW2, hc⟩ := W_spec hneg rp
  dsimp only
  generalize 4 * rp / (disco * (2 / √(-3 * disco)) * (2 / √(-3 * disco)) * (2 / √(-3 * disco))) = c at *
  generalize 2 / √(-3 * disco) = W at *
  have hc2 : c * c ≤ 1 := by
    have e1 : (c * c) * (W * W) = 9 * rp ^ 2 := by
      calc (c * c) * (W * W) = (c * W) * (c * W) := by ring
        _ = _ := by rw [hc]; ring
    have e2 : (c * c) * 4 ≤ 4 := by
      calc (c * c) * 4 = (c * c) * (W * W) * (-3 * disco) := by rw [← hW2]; ring
        _ = -27 * disco * rp ^ 2 := by rw [e1]; ring
        _ ≤ 4 := by linarith
    linarith
  have hc0 : c ≤ 0 := by
    by_contra hcon
    push Not at hcon
    have := mul_pos hcon hW
    linarith
  obtain ⟨h1, h2, h3, h4⟩ := t3_spec hc2
  have h3 := h3 hc0
  generalize atan2 (√(1 - min (c * c) 1)) c = t3 at *
  have root1 := trig_root (th := (2 * π - t3) / 3) hW2 hc (by rw [show 3 * ((2 * π - t3) / 3) = 2 * π - t3 by ring, Real.cos_two_pi_sub, h1])
  have hp := Real.pi_pos
  have c1 : 0 ≤ cos ((2 * π - t3) / 3) := Real.cos_nonneg_of_mem_Icc ⟨by linarith, by linarith⟩
  have c1' : cos ((2 * π - t3) / 3) ≤ 1 / 2 := by
    rw [← Real.cos_pi_div_three]
    exact Real.cos_le_cos_of_nonneg_of_le_pi (by positivity) (by linarith) (by linarith)
  have c2 : 1 / 2 ≤ cos (t3 / 3) := by
    rw [← Real.cos_pi_div_three]
    exact Real.cos_le_cos_of_nonneg_of_le_pi (by positivity) (by linarith) (by linarith)
  have c3 : cos ((2 * π + t3) / 3) ≤ -1 / 2 := by
    have : cos ((2 * π + t3) / 3) = -cos (π - (2 * π + t3) / 3) := by rw [Real.cos_pi_sub]; ring
    rw [this]
    have : 1 / 2 ≤ cos (π - (2 * π + t3) / 3) := by
      rw [← Real.cos_pi_div_three]
      exact Real.cos_le_cos_of_nonneg_of_le_pi (by linarith) (by linarith) (by linarith)
    linarith
  have f1W : W * cos ((2 * π - t3) / 3) ≤ W / 2 := by nlinarith
  have f1nn : 0 ≤ W * cos ((2 * π - t3) / 3) := by positivity
  have f2W : W / 2 ≤ W * cos (t3 / 3) := by nlinarith
  have f3W : W * cos ((2 * π + t3) / 3) ≤ -(W / 2) := by nlinarith
  generalize W * cos ((2 * π - t3) / 3) = f1 at *
  generalize W * cos (t3 / 3) = f2 at *
  generalize W * cos ((2 * π + t3) / 3) = f3 at *
  have hf1sq : -3 * disco * (f1 * f1) ≤ 1 := by
    have : f1 * f1 ≤ W / 2 * (W / 2) := mul_self_le_mul_self f1nn f1W
    have := mul_le_mul_of_nonneg_left this (show 0 ≤ -3 * disco by linarith)
    linarith
  have hrp1 : rp ≤ f1 := by
    have hd1 : disco * f1 ^ 3 ≤ 0 := mul_nonpos_of_nonpos_of_nonneg hneg.le (by positivity)
    linarith
  have w1 : |f1 - rp| = f1 - rp := abs_of_nonneg (by linarith)
  have w2 : |f2 - rp| = f2 - rp := abs_of_nonneg (by linarith)
  have w3 : |f3 - rp| = rp - f3 := by rw [abs_of_nonpos (by linarith)]; ring
  unfold pick3
  rw [w1, w2, w3]
  split_ifs with ha hb hb
  · exact ⟨f1nn, hf1sq⟩
  · exfalso; apply hb; linarith
  · have : f2 = f1 := by linarith
    rw [this]; exact ⟨f1nn, hf1sq⟩
  · exfalso; apply hb; linarith

end Pal
