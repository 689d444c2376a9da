import Verif.Lemmas.FlRm2v

/-!
# C144: the axial vector of a rotation matrix in double precision
-/

namespace Pal.Props
open Real Pal Pal.Spec

variable {fl : ℝ → ℝ} {L : Libm}

/-- **C144** palDm2av in double precision, given a matrix every entry of which is within δ of that of the rotation by W: the vector returned is W to 79δ + 3e-14 for rotations up to 3 radians, and to
17δ + 9e-15 up to a quarter of a turn; however small the rotation is. -/
theorem C144_dm2av (R : Rounding fl) (hL : LibmOK L) (m : Mat3) (W : Vec3) (δ : ℝ) (h : len W ≤ 3) (hδ : δ ≤ 1e-9) (hm : ∀ i j, |m i j - palDav2m W i j| ≤ δ) :
    (∀ i, |flRm2v fl L m i - W i| ≤ 79 * δ + 3e-14) ∧ (len W ≤ π / 2 → ∀ i, |flRm2v fl L m i - W i| ≤ 17 * δ + 9e-15) := by
  have δ0 : 0 ≤ δ := (abs_nonneg _).trans (hm 0 0)
  obtain ⟨X, g, ⟨x0, x1, x2⟩, tr, hX, g0, hg, hg2, hW, hl⟩ := rm2v_exact W h
  have rs := rot_small (C74_rotation W).1
  generalize palDav2m W = M at *
  have dd : ∀ i j i' j' (x : ℝ), M i j - M i' j' = x → |m i j - m i' j' - x| ≤ 2 * δ := fun i j i' j' x e => by
    rw [← e, show m i j - m i' j' - (M i j - M i' j') = (m i j - M i j) - (m i' j' - M i' j') by ring]
    have := abs_sub (m i j - M i j) (m i' j' - M i' j')
    linarith [hm i j, hm i' j']
  have dg : ∀ i, |m i i| ≤ 1 + δ := fun i => by
    have := abs_add_le (m i i - M i i) (M i i)
    rw [sub_add_cancel] at this
    linarith [hm i i, rs.entry i i]
  have tt : |m 0 0 + m 1 1 + m 2 2 - 1 - 2 * cos (len W)| ≤ 3 * δ := by
    rw [← tr, show m 0 0 + m 1 1 + m 2 2 - 1 - (M 0 0 + M 1 1 + M 2 2 - 1) = (m 0 0 - M 0 0) + (m 1 1 - M 1 1) + (m 2 2 - M 2 2) by ring]
    have := abs_add_three (m 0 0 - M 0 0) (m 1 1 - M 1 1) (m 2 2 - M 2 2)
    linarith [hm 0 0, hm 1 1, hm 2 2]
  refine ⟨fun i => ?_, fun hp i => ?_⟩
  · refine (flRm2v_core R hL h hδ δ0 (dd _ _ _ _ _ x0) (dd _ _ _ _ _ x1) (dd _ _ _ _ _ x2) (dg 0) (dg 1) (dg 2) tt hX g0 hg le_rfl hW hl i).trans ?_
    linarith
  · refine (flRm2v_core R hL h hδ δ0 (dd _ _ _ _ _ x0) (dd _ _ _ _ _ x1) (dd _ _ _ _ _ x2) (dg 0) (dg 1) (dg 2) tt hX g0 (hg2 hp) (by norm_num) hW hl i).trans ?_
    linarith

/-- **C144** palDm2av undoes palDav2m in double precision: to 7.4e-13 radians for rotations of up to 3 radians, and to 1.4e-13 up to a quarter of a turn (the null vector and lengths down to 1e-29). -/
theorem C144_round_trip (R : Rounding fl) (hL : LibmOK L) (w : Vec3) (h : len w = 0 ∨ 1 / 10 ^ 29 ≤ len w) (h3 : len w ≤ 3) :
    (∀ i, |flRm2v fl L (flRv2m fl L w) i - w i| ≤ 7.4e-13) ∧ (len w ≤ π / 2 → ∀ i, |flRm2v fl L (flRv2m fl L w) i - w i| ≤ 1.4e-13) := by
  have a := C107_av2m R hL w (h.imp id fun h => ⟨h, h3.trans (by norm_num)⟩)
  have n0 := len_nonneg w
  obtain ⟨b1, b2⟩ := C144_dm2av R hL (flRv2m fl L w) w (5.6e-15 + 1.1e-15 * len w) h3 (by linarith) a
  refine ⟨fun i => (b1 i).trans (by linarith), fun hp i => (b2 hp i).trans ?_⟩
  have := pi_lt_d2
  linarith

/-- **C144** palDm2av of a matrix that is exactly symmetric, the unit matrix and all half turns among them, is the null vector. -/
theorem C144_symmetric (R : Rounding fl) (m : Mat3) (h : m.transpose = m) : flRm2v fl L m = ![0, 0, 0] := by
  have e : ∀ i j, m i j - m j i = 0 := fun i j => by
    have := congrFun (congrFun h i) j
    rw [Matrix.transpose_apply] at this
    rw [this, sub_self]
  unfold flRm2v
  simp only [e, R.zero, mul_zero, add_zero, Real.sqrt_zero, gt_iff_lt, lt_irrefl, if_false]

example : (∀ i, |flRm2v ieee roundedLibm (flRv2m ieee roundedLibm ![0, 0, 2]) i - (![0, 0, 2] : Vec3) i| ≤ 7.4e-13) := by
  have l : len (![0, 0, 2] : Vec3) = 2 := by simp [len, Fin.sum_univ_three]
  exact (C144_round_trip ieee_rounding roundedLibm_ok _ (Or.inr (by rw [l]; norm_num)) (by rw [l]; norm_num)).1

example : ∀ i, |flRm2v ieee roundedLibm (palDav2m ![0, 0, 1]) i - (![0, 0, 1] : Vec3) i| ≤ 17 * 0 + 9e-15 := by
  have l : len (![0, 0, 1] : Vec3) = 1 := by simp [len, Fin.sum_univ_three]
  exact (C144_dm2av ieee_rounding roundedLibm_ok (palDav2m ![0, 0, 1]) ![0, 0, 1] 0 (by rw [l]; norm_num) (by norm_num) (fun i j => by simp)).2 (by rw [l]; have := pi_gt_three; linarith)

example : flRm2v ieee roundedLibm (1 : Mat3) = ![0, 0, 0] := C144_symmetric ieee_rounding 1 Matrix.transpose_one

end Pal.Props
