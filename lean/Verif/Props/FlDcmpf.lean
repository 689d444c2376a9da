import Verif.Lemmas.FlDcmpf2
import Verif.Props.FlSphere
import Verif.Props.Dcmpf

/-!
# C148: decomposition of a plate model in double precision
-/

namespace Pal.Props
open Real Pal Pal.Spec

variable {fl : ℝ → ℝ} {L : Libm}

set_option maxHeartbeats 1000000 in
/-- **C148** palDcmpf in double precision, for coefficients up to 1e10, scales of at least 1e-10 and axes at least a millionth of a radian from parallel (κ: the cosine of the nonperpendicularity): the two scales, with the sign
of the x scale, are those of exact arithmetic to 5.3e-16 of their size, the nonperpendicularity to 2.1e-15 radians, the orientation to 6.5e-15 radians up to a whole turn, and the zero points to 1.1e-13/κ² of the
constant terms divided by the scale. -/
theorem C148_accuracy (R : Rounding fl) (hL : LibmOK L) (n1 n2 n3 : Bool) (c : Fin 6 → ℝ) (hc : ∀ i, |c i| ≤ 1e10) {A : ℝ} (hA0 : |c 0| ≤ A) (hA3 : |c 3| ≤ A) (A0 : 1e-10 ≤ A) (A1 : A ≤ 1e10)
    (hB : 1e-10 ≤ √(c 1 * c 1 + c 4 * c 4)) (hC : 1e-10 ≤ √(c 2 * c 2 + c 5 * c 5)) (hκ : 1e-6 * (√(c 1 * c 1 + c 4 * c 4) * √(c 2 * c 2 + c 5 * c 5)) ≤ |c 1 * c 5 - c 2 * c 4|) :
    let o := flDcmpf fl L n1 n2 n3 c
    let O := palDcmpf c
    let κ := cos O.perp
    (1e-6 ≤ κ ∧ κ * |O.xs| * O.ys = |c 1 * c 5 - c 2 * c 4|) ∧
    |o.xs - O.xs| ≤ 5.3e-16 * |O.xs| ∧ |o.ys - O.ys| ≤ 5.3e-16 * O.ys ∧ |o.perp - O.perp| ≤ 2.1e-15 ∧ (∃ k : ℤ, |o.orient - (O.orient + k * (2 * π))| ≤ 6.5e-15) ∧
    |o.xz - O.xz| ≤ 1.1e-13 * (A / |O.xs|) / κ ^ 2 ∧ |o.yz - O.yz| ≤ 1.1e-13 * (A / O.ys) / κ ^ 2 := by
  have b0 := mul_self_nonneg (c 1)
  have b1 := mul_self_nonneg (c 4)
  have b2 := mul_self_nonneg (c 2)
  have b3 := mul_self_nonneg (c 5)
  have sq : ∀ i, c i * c i ≤ 1e20 := fun i => by nlinarith [abs_le.1 (hc i), sq_abs (c i), abs_nonneg (c i), hc i]
  have gb := dcmpf_scale R (hc 1) (hc 4) hB
  have gc := dcmpf_scale R (hc 2) (hc 5) hC
  obtain ⟨B, eB⟩ : ∃ B, B = √(c 1 * c 1 + c 4 * c 4) := ⟨_, rfl⟩
  obtain ⟨C, eC⟩ : ∃ C, C = √(c 2 * c 2 + c 5 * c 5) := ⟨_, rfl⟩
  have B1 : B ≤ 2e10 := by rw [eB]; exact sqrt_le_iff.2 ⟨by norm_num, by norm_num; linarith [sq 1, sq 4]⟩
  have C1 : C ≤ 2e10 := by rw [eC]; exact sqrt_le_iff.2 ⟨by norm_num, by norm_num; linarith [sq 2, sq 5]⟩
  have BB : c 1 * c 1 + c 4 * c 4 = B * B := by rw [eB, mul_self_sqrt (by linarith)]
  have CC : c 2 * c 2 + c 5 * c 5 = C * C := by rw [eC, mul_self_sqrt (by linarith)]
  rw [← eB] at hB hκ gb
  rw [← eC] at hC hκ gc
  have Bp : 0 < B := lt_of_lt_of_le (by norm_num) hB
  have Cp : 0 < C := lt_of_lt_of_le (by norm_num) hC
  have i1 : |c 1| ≤ B := abs_le_of_sq_le_sq (by nlinarith) Bp.le
  have i4 : |c 4| ≤ B := abs_le_of_sq_le_sq (by nlinarith) Bp.le
  have i2 : |c 2| ≤ C := abs_le_of_sq_le_sq (by nlinarith) Cp.le
  have i5 : |c 5| ≤ C := abs_le_of_sq_le_sq (by nlinarith) Cp.le
  have sg := dcmpf_sign R i1 i4 i2 i5 hB hC B1 C1 hκ
  have ne2 : c 2 ≠ 0 ∨ c 5 ≠ 0 := by
    by_contra q; push Not at q; rw [q.1, q.2] at CC; nlinarith
  have ne1 : c 4 ≠ 0 ∨ c 1 ≠ 0 := by
    by_contra q; push Not at q; rw [q.1, q.2] at BB; nlinarith
  have core : ∀ (σ b e : ℝ), σ = 1 ∨ σ = -1 → b = σ * c 1 → e = σ * c 4 → 0 ≤ b * c 5 - c 2 * e → |c 1 * c 5 - c 2 * c 4| = b * c 5 - c 2 * e →
      flDcmpf fl L n1 n2 n3 c = (let rb := fl (√(fl (fl (c 1 * c 1) + fl (c 4 * c 4))))
        let rc := fl (√(fl (fl (c 2 * c 2) + fl (c 5 * c 5))))
        let p := flDrange fl (fl (flAtan2 L n1 (c 2) (c 5) + flAtan2 L n2 e b))
        let ws := fl (fl (c 2 * rb) - fl (e * rc))
        let wc := fl (fl (b * rc) + fl (c 5 * rb))
        let o := if ws ≠ 0 ∨ wc ≠ 0 then flAtan2 L n3 ws wc else 0
        let shp := L.sin (fl (p / 2))
        let chp := L.cos (fl (p / 2))
        let xs := σ * rb
        let det := fl (fl (fl (xs * rc) * fl (chp + shp)) * fl (chp - shp))
        let xy : ℝ × ℝ := if |det| > 0 then
          (fl (fl (rc * fl (fl (c 0 * fl (fl (chp * L.cos o) - fl (shp * L.sin o))) - fl (c 3 * fl (fl (chp * L.sin o) + fl (shp * L.cos o))))) / det),
           fl (fl (xs * fl (fl (c 0 * fl (fl (chp * L.sin o) - fl (shp * L.cos o))) + fl (c 3 * fl (fl (chp * L.cos o) + fl (shp * L.sin o))))) / det)) else (0, 0)
        { xz := xy.1, yz := xy.2, xs := xs, ys := rc, perp := p, orient := o }) →
      palDcmpf c = (let p := palDrange (atan2 (c 2) (c 5) + atan2 e b)
        let ws := c 2 * B - e * C
        let wc := b * C + c 5 * B
        let o := if ws ≠ 0 ∨ wc ≠ 0 then atan2 ws wc else 0
        let shp := sin (p / 2)
        let chp := cos (p / 2)
        let xs := σ * B
        let det := xs * C * (chp + shp) * (chp - shp)
        let xy : ℝ × ℝ := if |det| > 0 then
          (C * (c 0 * (chp * cos o - shp * sin o) - c 3 * (chp * sin o + shp * cos o)) / det, xs * (c 0 * (chp * sin o - shp * cos o) + c 3 * (chp * cos o + shp * sin o)) / det) else (0, 0)
        { xz := xy.1, yz := xy.2, xs := xs, ys := C, perp := p, orient := o }) →
      (let o := flDcmpf fl L n1 n2 n3 c
       let O := palDcmpf c
       let κ := cos O.perp
       (1e-6 ≤ κ ∧ κ * |O.xs| * O.ys = |c 1 * c 5 - c 2 * c 4|) ∧
       |o.xs - O.xs| ≤ 5.3e-16 * |O.xs| ∧ |o.ys - O.ys| ≤ 5.3e-16 * O.ys ∧ |o.perp - O.perp| ≤ 2.1e-15 ∧ (∃ k : ℤ, |o.orient - (O.orient + k * (2 * π))| ≤ 6.5e-15) ∧
       |o.xz - O.xz| ≤ 1.1e-13 * (A / |O.xs|) / κ ^ 2 ∧ |o.yz - O.yz| ≤ 1.1e-13 * (A / O.ys) / κ ^ 2) := by
    intro σ b e hσ hb he hpos habs hf hE
    have σσ : σ * σ = 1 := by rcases hσ with h | h <;> rw [h] <;> norm_num
    have σa : |σ| = 1 := by rcases hσ with h | h <;> rw [h] <;> norm_num
    have bb : b * b + e * e = B * B := by rw [hb, he]; linear_combination BB + (c 1 * c 1 + c 4 * c 4) * σσ
    have sB : √(b * b + e * e) = B := by rw [bb]; exact sqrt_mul_self Bp.le
    have sC : √(c 2 * c 2 + c 5 * c 5) = C := eC.symm
    obtain ⟨κ, hk⟩ : ∃ κ, κ * (B * C) = b * c 5 - c 2 * e := ⟨(b * c 5 - c 2 * e) / (B * C), div_mul_cancel₀ _ (mul_pos Bp Cp).ne'⟩
    have κ0 : 1e-6 ≤ κ := by
      rw [habs, ← hk] at hκ
      exact le_of_mul_le_mul_right hκ (mul_pos Bp Cp)
    obtain ⟨q1, q2, q3⟩ := dcmpf_perp R hL n1 n2 sB sC Bp Cp hk κ0
    have κ1 : κ ≤ 1 := by rw [← q2]; exact cos_le_one _
    obtain ⟨w1, w2, j, w3⟩ := dcmpf_orient R hL n3 sB sC gb gc hB hC B1 C1 hk (by linarith) κ1
    have gx : Rr 4.65 B (σ * fl (√(fl (fl (c 1 * c 1) + fl (c 4 * c 4))))) (σ * B) := by
      rcases hσ with h | h
      · rw [h, one_mul, one_mul]; exact gb
      · rw [h, neg_one_mul, neg_one_mul]; exact gb.neg
    have aX : |σ * B| = B := by rw [abs_mul, σa, one_mul, abs_of_pos Bp]
    have aY : |C| = C := abs_of_pos Cp
    obtain ⟨z1, z2, z3, z4⟩ := dcmpf_zero R hL j hA0 hA3 A0 A1 gx gc hB hC B1 C1 aX aY q1 q3 q2 κ0 w3
    dsimp only at hf hE
    rw [if_pos w1, if_pos z1] at hf
    rw [if_pos w2, if_pos z2] at hE
    rw [hf, hE]
    dsimp only
    rw [q2, aX]
    refine ⟨⟨κ0, ?_⟩, ?_, ?_, q1, ⟨j, w3⟩, z3, z4⟩
    · rw [habs, ← hk]; ring
    · exact gx.err.trans (by linarith)
    · exact gc.err.trans (by linarith)
  by_cases hs : c 1 * c 5 - c 2 * c 4 ≥ 0
  · refine core 1 (c 1) (c 4) (Or.inl rfl) (one_mul _).symm (one_mul _).symm hs (abs_of_nonneg hs) ?_ ?_
    · unfold flDcmpf
      dsimp only
      rw [if_pos (sg.2 hs)]
      dsimp only
      rw [if_pos ne2, if_pos ne1, one_mul]
    · unfold palDcmpf
      dsimp only
      rw [if_pos hs]
      dsimp only
      rw [if_pos ne2, if_pos ne1, one_mul, ← eB, ← eC]
  · refine core (-1) (-c 1) (-c 4) (Or.inr rfl) (neg_one_mul _).symm (neg_one_mul _).symm ?_ ?_ ?_ ?_
    · push Not at hs; linarith
    · push Not at hs; rw [abs_of_neg hs]; ring
    · unfold flDcmpf
      dsimp only
      rw [if_neg (fun h => hs (sg.1 h))]
      dsimp only
      rw [if_pos ne2, if_pos (ne1.imp neg_ne_zero.2 neg_ne_zero.2), neg_one_mul]
    · unfold palDcmpf
      dsimp only
      rw [if_neg hs]
      dsimp only
      rw [if_pos ne2, if_pos (ne1.imp neg_ne_zero.2 neg_ne_zero.2), neg_one_mul, ← eB, ← eC]

example : let c : Fin 6 → ℝ := ![100, 3, 0, -200, 4, 5]
    |(flDcmpf ieee roundedLibm false true false c).perp - (palDcmpf c).perp| ≤ 2.1e-15 := by
  intro c
  have b : √(c 1 * c 1 + c 4 * c 4) = 5 := by
    rw [show c 1 * c 1 + c 4 * c 4 = 5 * 5 by simp [c]; norm_num]; exact sqrt_mul_self (by norm_num)
  have d : √(c 2 * c 2 + c 5 * c 5) = 5 := by
    rw [show c 2 * c 2 + c 5 * c 5 = 5 * 5 by simp [c]]; exact sqrt_mul_self (by norm_num)
  refine (C148_accuracy ieee_rounding roundedLibm_ok false true false c (A := 200) ?_ ?_ ?_ (by norm_num) (by norm_num) ?_ ?_ ?_).2.2.2.1
  · intro i; fin_cases i <;> simp [c] <;> norm_num
  · simp [c]; norm_num
  · simp [c]
  · rw [b]; norm_num
  · rw [d]; norm_num
  · rw [b, d]; simp [c]; norm_num

end Pal.Props
