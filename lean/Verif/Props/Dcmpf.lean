import Verif.Lemmas.Vec
import Verif.Model.Fit

/-!
# Property C26: palDcmpf
-/

namespace Pal.Props
open Pal Pal.Spec Real

/-- **C26** For every non-degenerate plate model the zero points, scales, nonperpendicularity and orientation delivered by palDcmpf, applied in the four documented steps, transform every
point as the model does.  The y scale is positive, the x scale has the sign of the determinant, the nonperpendicularity is within ±90° and the orientation in (-π,π]. -/
theorem C26_dcmpf (c : Fin 6 → ℝ) (h : c 1 * c 5 - c 2 * c 4 ≠ 0) :
    let o := palDcmpf c
    (∀ x y, fourSteps o.xz o.yz o.xs o.ys o.perp o.orient x y = palXy2xy x y c) ∧
    0 < o.ys ∧ 0 < o.xs * (c 1 * c 5 - c 2 * c 4) ∧ |o.perp| < π / 2 ∧ -π < o.orient ∧ o.orient ≤ π := by
  intro o
  have hb : 0 < √(c 1 * c 1 + c 4 * c 4) := by
    refine lt_of_le_of_ne (Real.sqrt_nonneg _) (fun h0 => h ?_)
    obtain ⟨e1, e2⟩ := hyp_eq_zero.1 h0.symm
    rw [e1, e2]; ring
  have hc : 0 < √(c 2 * c 2 + c 5 * c 5) := by
    refine lt_of_le_of_ne (Real.sqrt_nonneg _) (fun h0 => h ?_)
    obtain ⟨e1, e2⟩ := hyp_eq_zero.1 h0.symm
    rw [e1, e2]; ring
  -- the sign flip
  obtain ⟨σ, hσ, hσ2, hbex⟩ : ∃ σ : ℝ, 0 < σ * (c 1 * c 5 - c 2 * c 4) ∧ σ * σ = 1 ∧
      (if c 1 * c 5 - c 2 * c 4 ≥ 0 then (c 1, c 4, √(c 1 * c 1 + c 4 * c 4)) else (-c 1, -c 4, -√(c 1 * c 1 + c 4 * c 4))) =
      (σ * c 1, σ * c 4, σ * √(c 1 * c 1 + c 4 * c 4)) := by
    by_cases hs : c 1 * c 5 - c 2 * c 4 ≥ 0
    · exact ⟨1, by rw [one_mul]; exact lt_of_le_of_ne hs (Ne.symm h), by ring, by rw [if_pos hs]; simp⟩
    · exact ⟨-1, by push Not at hs; linarith, by ring, by rw [if_neg hs]; simp⟩
  set r1 := √(c 1 * c 1 + c 4 * c 4) with hr1
  set r2 := √(c 2 * c 2 + c 5 * c 5) with hr2
  set b := σ * c 1
  set e := σ * c 4
  have hσ0 : σ ≠ 0 := by intro h0; rw [h0] at hσ2; norm_num at hσ2
  have hcf : c 2 ≠ 0 ∨ c 5 ≠ 0 := by
    by_contra hn
    push Not at hn
    apply h; rw [hn.1, hn.2]; ring
  have heb : e ≠ 0 ∨ b ≠ 0 := by
    by_contra hn
    push Not at hn
    have e4 : c 4 = 0 := (mul_eq_zero.1 hn.1).resolve_left hσ0
    have e1 : c 1 = 0 := (mul_eq_zero.1 hn.2).resolve_left hσ0
    apply h; rw [e4, e1]; ring
  have hbe : √(b * b + e * e) = r1 := by
    rw [hr1]; congr 1; simp only [b, e]; linear_combination (c 1 * c 1 + c 4 * c 4) * hσ2
  -- polar forms
  have hfc : √(c 5 * c 5 + c 2 * c 2) = r2 := by rw [hr2, add_comm]
  have f1 : r2 * cos (atan2 (c 2) (c 5)) = c 5 := by rw [← hfc]; exact hyp_cos_atan2 _ _
  have f2 : r2 * sin (atan2 (c 2) (c 5)) = c 2 := by rw [← hfc]; exact hyp_sin_atan2 _ _
  have g1 : r1 * cos (atan2 e b) = b := by rw [← hbe]; exact hyp_cos_atan2 _ _
  have g2 : r1 * sin (atan2 e b) = e := by rw [← hbe]; exact hyp_sin_atan2 _ _
  set p1 := atan2 (c 2) (c 5)
  set p2 := atan2 e b
  obtain ⟨hpr, hps⟩ := palDrange_spec (p1 + p2)
  set p := palDrange (p1 + p2) with hp
  have hcosp : 0 < cos p := by
    rw [hps.cos, cos_add]
    have : r1 * r2 * (cos p1 * cos p2 - sin p1 * sin p2) = σ * (c 1 * c 5 - c 2 * c 4) := by
      have : σ * (c 1 * c 5 - c 2 * c 4) = b * c 5 - c 2 * e := by simp only [b, e]; ring
      rw [this, ← f1, ← f2, ← g1, ← g2]; ring
    rw [← this] at hσ
    exact pos_of_mul_pos_right hσ (mul_pos hb hc).le
  have hplt : |p| < π / 2 := by
    by_contra hge
    push Not at hge
    have : cos |p| ≤ 0 := Real.cos_nonpos_of_pi_div_two_le_of_le hge (by linarith [Real.pi_pos])
    rw [Real.cos_abs] at this
    linarith
  have hchp : 0 < cos (p / 2) := by
    rw [abs_lt] at hplt
    exact Real.cos_pos_of_mem_Ioo ⟨by linarith [Real.pi_pos], by linarith [Real.pi_pos]⟩
  -- p2 in terms of p and p1
  have hp2 : SameAngle p2 (p - p1) := by
    obtain ⟨k, hk⟩ := hps
    exact ⟨-k, by rw [hk]; push_cast; ring⟩
  have hk : 0 < 2 * (r1 * r2) * cos (p / 2) := by positivity
  have hws : c 2 * r1 - e * r2 = 2 * (r1 * r2) * cos (p / 2) * sin (p1 - p / 2) := by
    rw [← f2, ← g2, hp2.sin]
    have h1 : sin p1 = sin (p / 2) * cos (p1 - p / 2) + cos (p / 2) * sin (p1 - p / 2) := by rw [← sin_add]; congr 1; ring
    have h2 : sin (p - p1) = sin (p / 2) * cos (p1 - p / 2) - cos (p / 2) * sin (p1 - p / 2) := by rw [← sin_sub]; congr 1; ring
    linear_combination (r1 * r2) * h1 - (r1 * r2) * h2
  have hwc : b * r2 + c 5 * r1 = 2 * (r1 * r2) * cos (p / 2) * cos (p1 - p / 2) := by
    rw [← f1, ← g1, hp2.cos]
    have h1 : cos p1 = cos (p / 2) * cos (p1 - p / 2) - sin (p / 2) * sin (p1 - p / 2) := by rw [← cos_add]; congr 1; ring
    have h2 : cos (p - p1) = cos (p / 2) * cos (p1 - p / 2) + sin (p / 2) * sin (p1 - p / 2) := by rw [← cos_sub]; congr 1; ring
    linear_combination (r1 * r2) * h1 + (r1 * r2) * h2
  obtain ⟨t1, t2⟩ := atan2_trig hk (p1 - p / 2)
  rw [← hws, ← hwc] at t1 t2
  have hor : o.orient = atan2 (c 2 * r1 - e * r2) (b * r2 + c 5 * r1) := by
    have : o.orient = if c 2 * r1 - (if c 1 * c 5 - c 2 * c 4 ≥ 0 then (c 1, c 4, r1) else (-c 1, -c 4, -r1)).2.1 * r2 ≠ 0 ∨
        (if c 1 * c 5 - c 2 * c 4 ≥ 0 then (c 1, c 4, r1) else (-c 1, -c 4, -r1)).1 * r2 + c 5 * r1 ≠ 0 then
        atan2 (c 2 * r1 - (if c 1 * c 5 - c 2 * c 4 ≥ 0 then (c 1, c 4, r1) else (-c 1, -c 4, -r1)).2.1 * r2)
          ((if c 1 * c 5 - c 2 * c 4 ≥ 0 then (c 1, c 4, r1) else (-c 1, -c 4, -r1)).1 * r2 + c 5 * r1) else 0 := rfl
    rw [hbex] at this
    dsimp only at this
    rw [this]
    split_ifs with h0
    · rfl
    · push Not at h0
      rw [h0.1, h0.2, atan2_zero]
  have hper : o.perp = p := by
    have : o.perp = palDrange ((if c 2 ≠ 0 ∨ c 5 ≠ 0 then atan2 (c 2) (c 5) else 0) +
      (if (if c 1 * c 5 - c 2 * c 4 ≥ 0 then (c 1, c 4, r1) else (-c 1, -c 4, -r1)).2.1 ≠ 0 ∨
        (if c 1 * c 5 - c 2 * c 4 ≥ 0 then (c 1, c 4, r1) else (-c 1, -c 4, -r1)).1 ≠ 0 then
        atan2 (if c 1 * c 5 - c 2 * c 4 ≥ 0 then (c 1, c 4, r1) else (-c 1, -c 4, -r1)).2.1
          (if c 1 * c 5 - c 2 * c 4 ≥ 0 then (c 1, c 4, r1) else (-c 1, -c 4, -r1)).1 else 0)) := rfl
    rw [hbex] at this
    dsimp only at this
    rw [this, if_pos hcf, if_pos heb]
  have hxs : o.xs = σ * r1 := by
    have : o.xs = (if c 1 * c 5 - c 2 * c 4 ≥ 0 then (c 1, c 4, r1) else (-c 1, -c 4, -r1)).2.2 := rfl
    rw [hbex] at this
    exact this
  have hys : o.ys = r2 := rfl
  -- zero points
  have hsin := sin_sq_add_cos_sq (p / 2)
  have hdet : 0 < r1 * r2 * ((cos (p / 2) + sin (p / 2)) * (cos (p / 2) - sin (p / 2))) := by
    have : (cos (p / 2) + sin (p / 2)) * (cos (p / 2) - sin (p / 2)) = cos p := by
      rw [show p = 2 * (p / 2) by ring, cos_two_mul]
      rw [show 2 * (p / 2) / 2 = p / 2 by ring]
      linear_combination -hsin
    rw [this]; positivity
  have hd0 : |o.xs * o.ys * (cos (o.perp / 2) + sin (o.perp / 2)) * (cos (o.perp / 2) - sin (o.perp / 2))| > 0 := by
    rw [gt_iff_lt, abs_pos, hxs, hys, hper]
    intro h0
    apply hdet.ne'
    apply mul_left_cancel₀ hσ0
    rw [mul_zero]
    linear_combination h0
  have hx0 : o.xz = o.ys * (c 0 * (cos (o.perp / 2) * cos o.orient - sin (o.perp / 2) * sin o.orient) -
      c 3 * (cos (o.perp / 2) * sin o.orient + sin (o.perp / 2) * cos o.orient)) /
      (o.xs * o.ys * (cos (o.perp / 2) + sin (o.perp / 2)) * (cos (o.perp / 2) - sin (o.perp / 2))) := by
    have : o.xz = (if |o.xs * o.ys * (cos (o.perp / 2) + sin (o.perp / 2)) * (cos (o.perp / 2) - sin (o.perp / 2))| > 0 then
      (o.ys * (c 0 * (cos (o.perp / 2) * cos o.orient - sin (o.perp / 2) * sin o.orient) -
      c 3 * (cos (o.perp / 2) * sin o.orient + sin (o.perp / 2) * cos o.orient)) /
      (o.xs * o.ys * (cos (o.perp / 2) + sin (o.perp / 2)) * (cos (o.perp / 2) - sin (o.perp / 2))),
      o.xs * (c 0 * (cos (o.perp / 2) * sin o.orient - sin (o.perp / 2) * cos o.orient) +
      c 3 * (cos (o.perp / 2) * cos o.orient + sin (o.perp / 2) * sin o.orient)) /
      (o.xs * o.ys * (cos (o.perp / 2) + sin (o.perp / 2)) * (cos (o.perp / 2) - sin (o.perp / 2)))) else (0, 0)).1 := rfl
    rw [if_pos hd0] at this
    exact this
  have hy0 : o.yz = o.xs * (c 0 * (cos (o.perp / 2) * sin o.orient - sin (o.perp / 2) * cos o.orient) +
      c 3 * (cos (o.perp / 2) * cos o.orient + sin (o.perp / 2) * sin o.orient)) /
      (o.xs * o.ys * (cos (o.perp / 2) + sin (o.perp / 2)) * (cos (o.perp / 2) - sin (o.perp / 2))) := by
    have : o.yz = (if |o.xs * o.ys * (cos (o.perp / 2) + sin (o.perp / 2)) * (cos (o.perp / 2) - sin (o.perp / 2))| > 0 then
      (o.ys * (c 0 * (cos (o.perp / 2) * cos o.orient - sin (o.perp / 2) * sin o.orient) -
      c 3 * (cos (o.perp / 2) * sin o.orient + sin (o.perp / 2) * cos o.orient)) /
      (o.xs * o.ys * (cos (o.perp / 2) + sin (o.perp / 2)) * (cos (o.perp / 2) - sin (o.perp / 2))),
      o.xs * (c 0 * (cos (o.perp / 2) * sin o.orient - sin (o.perp / 2) * cos o.orient) +
      c 3 * (cos (o.perp / 2) * cos o.orient + sin (o.perp / 2) * sin o.orient)) /
      (o.xs * o.ys * (cos (o.perp / 2) + sin (o.perp / 2)) * (cos (o.perp / 2) - sin (o.perp / 2)))) else (0, 0)).2 := rfl
    rw [if_pos hd0] at this
    exact this
  have hD : o.xs * o.ys * (cos (o.perp / 2) + sin (o.perp / 2)) * (cos (o.perp / 2) - sin (o.perp / 2)) ≠ 0 := abs_pos.1 hd0
  -- the linear part
  have hso := sin_sq_add_cos_sq o.orient
  have m1 : o.ys * (cos (o.perp / 2) * cos o.orient - sin (o.perp / 2) * sin o.orient) = c 5 := by
    rw [hys, hper, hor, t1, t2, ← cos_add, show p / 2 + (p1 - p / 2) = p1 by ring, f1]
  have m2 : o.ys * (cos (o.perp / 2) * sin o.orient + sin (o.perp / 2) * cos o.orient) = c 2 := by
    rw [hys, hper, hor, t1, t2]
    rw [show cos (p / 2) * sin (p1 - p / 2) + sin (p / 2) * cos (p1 - p / 2) = sin (p / 2 + (p1 - p / 2)) by rw [sin_add]; ring]
    rw [show p / 2 + (p1 - p / 2) = p1 by ring, f2]
  have m3 : o.xs * (cos (o.perp / 2) * cos o.orient + sin (o.perp / 2) * sin o.orient) = c 1 := by
    rw [hxs, hper, hor, t1, t2, ← cos_sub, show p / 2 - (p1 - p / 2) = p - p1 by ring, ← hp2.cos, mul_assoc, g1]
    simp only [b]; linear_combination c 1 * hσ2
  have m4 : o.xs * (sin (o.perp / 2) * cos o.orient - cos (o.perp / 2) * sin o.orient) = c 4 := by
    rw [hxs, hper, hor, t1, t2]
    rw [show sin (p / 2) * cos (p1 - p / 2) - cos (p / 2) * sin (p1 - p / 2) = sin (p / 2 - (p1 - p / 2)) from (sin_sub _ _).symm]
    rw [show p / 2 - (p1 - p / 2) = p - p1 by ring, ← hp2.sin, mul_assoc, g2]
    simp only [e]; linear_combination c 4 * hσ2
  refine ⟨fun x y => ?_, by rw [hys]; exact hc, ?_, by rw [hper]; exact hplt, ?_, ?_⟩
  · have hdd : o.xs * o.ys * (cos (o.perp / 2) + sin (o.perp / 2)) * (cos (o.perp / 2) - sin (o.perp / 2)) = c 1 * c 5 - c 2 * c 4 := by
      rw [← m1, ← m2, ← m3, ← m4]
      generalize cos (o.perp / 2) = C
      generalize sin (o.perp / 2) = S
      linear_combination (-(o.xs * o.ys * (C * C - S * S))) * hso
    rw [hdd] at hx0 hy0
    have ex : (c 1 * c 5 - c 2 * c 4) * o.xz = c 0 * c 5 - c 3 * c 2 := by
      rw [hx0, mul_div_cancel₀ _ h]; linear_combination c 0 * m1 - c 3 * m2
    have ey : (c 1 * c 5 - c 2 * c 4) * o.yz = -(c 0 * c 4) + c 3 * c 1 := by
      rw [hy0, mul_div_cancel₀ _ h]; linear_combination -c 0 * m4 + c 3 * m3
    have k1 : c 1 * o.xz + c 2 * o.yz = c 0 := by
      apply mul_left_cancel₀ h; linear_combination c 1 * ex + c 2 * ey
    have k2 : c 4 * o.xz + c 5 * o.yz = c 3 := by
      apply mul_left_cancel₀ h; linear_combination c 4 * ex + c 5 * ey
    unfold fourSteps palXy2xy
    dsimp only
    ext
    · dsimp only; linear_combination (o.xz + x) * m3 + (o.yz + y) * m2 + k1
    · dsimp only; linear_combination (o.xz + x) * m4 + (o.yz + y) * m1 + k2
  · rw [hxs]
    have := mul_pos hb hσ
    linarith [this, show r1 * (σ * (c 1 * c 5 - c 2 * c 4)) = σ * r1 * (c 1 * c 5 - c 2 * c 4) by ring]
  · rw [hor]; exact (atan2_mem _ _).1
  · rw [hor]; exact (atan2_mem _ _).2

example : (![1, 2, 3, 4, 5, 7] : Fin 6 → ℝ) 1 * (![1, 2, 3, 4, 5, 7] : Fin 6 → ℝ) 5 - (![1, 2, 3, 4, 5, 7] : Fin 6 → ℝ) 2 * (![1, 2, 3, 4, 5, 7] : Fin 6 → ℝ) 4 ≠ 0 := by
  simp; norm_num

end Pal.Props
