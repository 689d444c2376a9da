import Verif.Lemmas.Prec06

/-! # Helper lemmas: the two sets of IAU 2006 precession angles compared -/

namespace Pal
open Real Spec Matrix Props

theorem poly_abs_sq {a b c d e f t : ℝ} (ht : |t| ≤ 1) :
    |a + (b + (c + (d + (e + f * t) * t) * t) * t) * t| ≤ |a| + |b| * |t| + (|c| + |d| + |e| + |f|) * (|t| * |t|) := by
  have t0 := abs_nonneg t
  have st : ∀ u v : ℝ, |u + v * t| ≤ |u| + |v| := fun u v => by
    refine (abs_add_le _ _).trans ?_
    rw [abs_mul]
    have := mul_le_mul_of_nonneg_left ht (abs_nonneg v)
    linarith
  have h3 := st c (d + (e + f * t) * t)
  have h4 := st d (e + f * t)
  have h5 := st e f
  have h6 : |c + (d + (e + f * t) * t) * t| ≤ |c| + |d| + |e| + |f| := by linarith
  clear h3
  generalize c + (d + (e + f * t) * t) * t = q at *
  have e1 : a + (b + q * t) * t = a + b * t + q * (t * t) := by ring
  rw [e1]
  have k1 := abs_add_le (a + b * t) (q * (t * t))
  have k2 := abs_add_le a (b * t)
  rw [abs_mul b] at k2
  rw [abs_mul q, abs_mul t] at k1
  have k3 := mul_le_mul_of_nonneg_right h6 (mul_nonneg t0 t0)
  linarith

theorem axisZ_diff (a b : ℝ) : Small (axisZ a - axisZ b) |a - b| := by
  have : axisZ a - axisZ b = axisZ b * (axisZ (a - b) - 1) := by
    rw [Matrix.mul_sub, axisZ_add, mul_one]; congr 2; ring
  rw [this]; exact (small_axisZ _).lmul (rot_axisZ _)

theorem axisX_diff (a b : ℝ) : Small (axisX a - axisX b) |a - b| := by
  have : axisX a - axisX b = axisX b * (axisX (a - b) - 1) := by
    rw [Matrix.mul_sub, axisX_add, mul_one]; congr 2; ring
  rw [this]; exact (small_axisX _).lmul (rot_axisX _)

theorem eclTurn_diff (e p q : ℝ) : Small (eclTurn e p - eclTurn e q) |p - q| := by
  have : eclTurn e p - eclTurn e q = eclTurn e q * (eclTurn e (p - q) - 1) := by
    rw [Matrix.mul_sub, eclTurn_mul, mul_one]; congr 2; ring
  rw [this]; exact (eclTurn_small _ _).lmul (eclTurn_rot _ _)

/-- The rotation by the four angles of Lieske's scheme and a Fukushima-Williams matrix. -/
theorem lieske_fw (e0 chi om psi g f p e : ℝ) :
    Small (axisZ chi * axisX (-om) * axisZ (-psi) * axisX e0 - eraFw2m g f p e)
      (|chi - g| + |e0 - om - (f - e)| + |psi - p| + 2 * (|e - e0| * |p|) + 2 * (|g| * |f - e|) + 2 * (|g| * |p|) + 2 * (|f - e| * |p|)) := by
  obtain ⟨d, hd⟩ : ∃ d, d = e - e0 := ⟨_, rfl⟩
  obtain ⟨b, hb⟩ : ∃ b, b = f - e := ⟨_, rfl⟩
  obtain ⟨V, hV⟩ : ∃ V, V = axisX (-d) * eclTurn e0 p * axisX d := ⟨_, rfl⟩
  have eA : axisZ chi * axisX (-om) * axisZ (-psi) * axisX e0 = axisZ chi * axisX (e0 - om) * eclTurn e0 psi := by
    unfold eclTurn
    calc _ = axisZ chi * axisX ((e0 - om) + -e0) * axisZ (-psi) * axisX e0 := by congr 4; ring
      _ = _ := by rw [← axisX_add]; simp only [Matrix.mul_assoc]
  have eB : eraFw2m g f p e = V * axisX b * axisZ g := by
    rw [fw2m_eq, hV, hd, hb]
    unfold eclTurn
    calc _ = axisX (-(e - e0) + -e0) * axisZ (-p) * axisX (e0 + ((e - e0) + (f - e))) * axisZ g := by congr 4 <;> [congr 2; congr 1] <;> ring
      _ = _ := by rw [← axisX_add, ← axisX_add, ← axisX_add]; simp only [Matrix.mul_assoc]
  have rV : IsRotation V := by rw [hV]; exact rot_mul (rot_mul (rot_axisX _) (eclTurn_rot _ _)) (rot_axisX _)
  have i1 := axisX_inv' d
  have sV : Small (V - 1) |p| := by
    have : V - 1 = axisX (-d) * (eclTurn e0 p - 1) * axisX d := by
      rw [hV, Matrix.mul_sub, Matrix.sub_mul, mul_one, i1]
    rw [this]
    exact ((eclTurn_small e0 p).lmul (rot_axisX _)).rmul (rot_axisX _)
  have sUV : Small (eclTurn e0 p - V) (2 * (|d| * |p|)) := by
    have : eclTurn e0 p - V = (eclTurn e0 p * axisX (-d) - axisX (-d) * eclTurn e0 p) * axisX d := by
      rw [hV, Matrix.sub_mul, Matrix.mul_assoc (eclTurn e0 p), i1, mul_one]
    rw [this]
    have c := small_comm (eclTurn_small e0 p) (show Small (axisX (-d) - 1) |d| by have := small_axisX (-d); rwa [abs_neg] at this)
    rw [mul_comm |p|] at c
    exact c.rmul (rot_axisX _)
  have c1 := small_comm (small_axisZ g) (small_axisX b)
  have c2 := small_comm (small_axisZ g) sV
  have c3 := small_comm (small_axisX b) sV
  rw [eA, eB, ← hd, ← hb]
  have key : axisZ chi * axisX (e0 - om) * eclTurn e0 psi - V * axisX b * axisZ g =
      (axisZ chi - axisZ g) * (axisX (e0 - om) * eclTurn e0 psi) + axisZ g * ((axisX (e0 - om) - axisX b) * eclTurn e0 psi) +
      axisZ g * axisX b * (eclTurn e0 psi - eclTurn e0 p) + axisZ g * axisX b * (eclTurn e0 p - V) + (axisZ g * axisX b - axisX b * axisZ g) * V +
      axisX b * (axisZ g * V - V * axisZ g) + (axisX b * V - V * axisX b) * axisZ g := by noncomm_ring
  rw [key]
  exact ((((((axisZ_diff chi g).rmul (rot_mul (rot_axisX _) (eclTurn_rot _ _))).add (((axisX_diff _ b).rmul (eclTurn_rot _ _)).lmul (rot_axisZ _))).add
    ((eclTurn_diff _ _ _).lmul (rot_mul (rot_axisZ _) (rot_axisX _)))).add (sUV.lmul (rot_mul (rot_axisZ _) (rot_axisX _)))).add (c1.rmul rV)).add (c2.lmul (rot_axisX _)) |>.add (c3.rmul (rot_axisZ _))

/-- Both sets of angles for the same date. -/
theorem p06e_near (d1 d2 : ℝ) (ht : |cent06 d1 d2| ≤ 1) :
    Small (axisZ (eraP06e d1 d2).chia * axisX (-(eraP06e d1 d2).oma) * axisZ (-(eraP06e d1 d2).psia) * axisX (eraP06e d1 d2).eps0 - eraPmat06 d1 d2)
      ((0.11 + 8.5 * cent06 d1 d2 ^ 2) * das2r) := by
  have hp := das2r_gt0
  have hq := das2r_ub
  unfold eraPmat06
  refine (lieske_fw _ _ _ _ _ _ _ _).mono ?_
  unfold eraP06e eraPfw06 eraObl06
  dsimp only
  generalize cent06 d1 d2 = t at *
  have t0 := abs_nonneg t
  have tt := mul_nonneg t0 t0
  have ts : |t| * |t| ≤ |t| := mul_le_of_le_one_left t0 ht
  have key : ∀ (p q A B C : ℝ), q = p * das2r → |p| ≤ A + B * |t| + C * (|t| * |t|) → |q| ≤ (A + B * |t| + C * (|t| * |t|)) * das2r := by
    intro p q A B C hq hk
    rw [hq, abs_mul, abs_of_pos hp]
    exact mul_le_mul_of_nonneg_right hk hp.le
  have h1 := key (0.052928 + ((10.556403 - 10.556378) + ((-2.3814292 - 0.4932044) + ((-0.00121197 - -0.00031238) + ((0.000170663 - -0.000002788) + (-0.0000000560 - 0.0000000260) * t) * t) * t) * t) * t)
    ((10.556403 + (-2.3814292 + (-0.00121197 + (0.000170663 + (-0.0000000560) * t) * t) * t) * t) * t * das2r - (-0.052928 + (10.556378 + (0.4932044 + (-0.00031238 + (-0.000002788 + 0.0000000260 * t) * t) * t) * t) * t) * das2r)
    0.052928 0.000026 2.8758 (by ring) (by refine (poly_abs_sq ht).trans ?_; norm_num [abs_of_pos, abs_neg, abs_of_nonneg]; nlinarith only [t0, tt])
  have h2 := key (-0.006819 + ((0.025754 - 0.025753) + ((-0.0512623 - 0.0513099) + ((0.00772503 - -0.00147051) + ((0.000000467 - 0.000000136) + (-0.0000003337 - 0.0000000258) * t) * t) * t) * t) * t)
    (84381.406 * das2r - (84381.406 * das2r + (-0.025754 + (0.0512623 + (-0.00772503 + (-0.000000467 + 0.0000003337 * t) * t) * t) * t) * t * das2r) -
      ((84381.412819 + (-46.811016 + (0.0511268 + (0.00053289 + (-0.000000440 + (-0.0000000176) * t) * t) * t) * t) * t) * das2r - (84381.406 + (-46.836769 + (-0.0001831 + (0.00200340 + (-0.000000576 + (-0.0000000434) * t) * t) * t) * t) * t) * das2r))
    0.006819 0.000002 0.1118 (by ring) (by refine (poly_abs_sq ht).trans ?_; norm_num [abs_of_pos, abs_neg, abs_of_nonneg]; nlinarith only [t0, tt])
  have h3 := key (0.041775 + ((5038.481507 - 5038.481484) + ((-1.0790069 - 1.5584175) + ((-0.00114045 - -0.00018522) + ((0.000132851 - -0.000026452) + (-0.0000000951 - -0.0000000148) * t) * t) * t) * t) * t)
    ((5038.481507 + (-1.0790069 + (-0.00114045 + (0.000132851 + (-0.0000000951) * t) * t) * t) * t) * t * das2r - (-0.041775 + (5038.481484 + (1.5584175 + (-0.00018522 + (-0.000026452 + (-0.0000000148) * t) * t) * t) * t) * t) * das2r)
    0.041775 0.000024 2.6386 (by ring) (by refine (poly_abs_sq ht).trans ?_; norm_num [abs_of_pos, abs_neg, abs_of_nonneg]; nlinarith only [t0, tt])
  have h4 := key (0 + (-46.836769 + (-0.0001831 + (0.00200340 + (-0.000000576 + (-0.0000000434) * t) * t) * t) * t) * t)
    ((84381.406 + (-46.836769 + (-0.0001831 + (0.00200340 + (-0.000000576 + (-0.0000000434) * t) * t) * t) * t) * t) * das2r - 84381.406 * das2r)
    0 46.836769 0.0022 (by ring) (by refine (poly_abs_sq ht).trans ?_; norm_num [abs_of_pos, abs_neg, abs_of_nonneg]; nlinarith only [t0, tt])
  have h5 := key _ ((-0.041775 + (5038.481484 + (1.5584175 + (-0.00018522 + (-0.000026452 + (-0.0000000148) * t) * t) * t) * t) * t) * das2r)
    0.041775 5038.481484 1.5587 rfl (by refine (poly_abs_sq ht).trans ?_; norm_num [abs_of_pos, abs_neg, abs_of_nonneg]; nlinarith only [t0, tt])
  have h6 := key _ ((-0.052928 + (10.556378 + (0.4932044 + (-0.00031238 + (-0.000002788 + 0.0000000260 * t) * t) * t) * t) * t) * das2r)
    0.052928 10.556378 0.49353 rfl (by refine (poly_abs_sq ht).trans ?_; norm_num [abs_of_pos, abs_neg, abs_of_nonneg]; nlinarith only [t0, tt])
  have h7 := key (0.006819 + (0.025753 + (0.0513099 + (-0.00147051 + (0.000000136 + 0.0000000258 * t) * t) * t) * t) * t)
    ((84381.412819 + (-46.811016 + (0.0511268 + (0.00053289 + (-0.000000440 + (-0.0000000176) * t) * t) * t) * t) * t) * das2r - (84381.406 + (-46.836769 + (-0.0001831 + (0.00200340 + (-0.000000576 + (-0.0000000434) * t) * t) * t) * t) * t) * das2r)
    0.006819 0.025753 0.0528 (by ring) (by refine (poly_abs_sq ht).trans ?_; norm_num [abs_of_pos, abs_neg, abs_of_nonneg]; nlinarith only [t0, tt])
  generalize |(10.556403 + (-2.3814292 + (-0.00121197 + (0.000170663 + (-0.0000000560) * t) * t) * t) * t) * t * das2r - (-0.052928 + (10.556378 + (0.4932044 + (-0.00031238 + (-0.000002788 + 0.0000000260 * t) * t) * t) * t) * t) * das2r| = a1 at *
  generalize |84381.406 * das2r - (84381.406 * das2r + (-0.025754 + (0.0512623 + (-0.00772503 + (-0.000000467 + 0.0000003337 * t) * t) * t) * t) * t * das2r) -
      ((84381.412819 + (-46.811016 + (0.0511268 + (0.00053289 + (-0.000000440 + (-0.0000000176) * t) * t) * t) * t) * t) * das2r - (84381.406 + (-46.836769 + (-0.0001831 + (0.00200340 + (-0.000000576 + (-0.0000000434) * t) * t) * t) * t) * t) * das2r)| = a2 at *
  generalize |(5038.481507 + (-1.0790069 + (-0.00114045 + (0.000132851 + (-0.0000000951) * t) * t) * t) * t) * t * das2r - (-0.041775 + (5038.481484 + (1.5584175 + (-0.00018522 + (-0.000026452 + (-0.0000000148) * t) * t) * t) * t) * t) * das2r| = a3 at *
  have n4 := abs_nonneg ((84381.406 + (-46.836769 + (-0.0001831 + (0.00200340 + (-0.000000576 + (-0.0000000434) * t) * t) * t) * t) * t) * das2r - 84381.406 * das2r)
  have n5 := abs_nonneg ((-0.041775 + (5038.481484 + (1.5584175 + (-0.00018522 + (-0.000026452 + (-0.0000000148) * t) * t) * t) * t) * t) * das2r)
  have n6 := abs_nonneg ((-0.052928 + (10.556378 + (0.4932044 + (-0.00031238 + (-0.000002788 + 0.0000000260 * t) * t) * t) * t) * t) * das2r)
  have n7 := abs_nonneg ((84381.412819 + (-46.811016 + (0.0511268 + (0.00053289 + (-0.000000440 + (-0.0000000176) * t) * t) * t) * t) * t) * das2r - (84381.406 + (-46.836769 + (-0.0001831 + (0.00200340 + (-0.000000576 + (-0.0000000434) * t) * t) * t) * t) * t) * das2r)
  generalize |(84381.406 + (-46.836769 + (-0.0001831 + (0.00200340 + (-0.000000576 + (-0.0000000434) * t) * t) * t) * t) * t) * das2r - 84381.406 * das2r| = a4 at *
  generalize |(-0.041775 + (5038.481484 + (1.5584175 + (-0.00018522 + (-0.000026452 + (-0.0000000148) * t) * t) * t) * t) * t) * das2r| = a5 at *
  generalize |(-0.052928 + (10.556378 + (0.4932044 + (-0.00031238 + (-0.000002788 + 0.0000000260 * t) * t) * t) * t) * t) * das2r| = a6 at *
  generalize |(84381.412819 + (-46.811016 + (0.0511268 + (0.00053289 + (-0.000000440 + (-0.0000000176) * t) * t) * t) * t) * t) * das2r - (84381.406 + (-46.836769 + (-0.0001831 + (0.00200340 + (-0.000000576 + (-0.0000000434) * t) * t) * t) * t) * t) * das2r| = a7 at *
  have e2 : t ^ 2 = |t| * |t| := by rw [abs_mul_abs_self, sq]
  rw [e2]
  clear e2 key
  generalize |t| = s at *
  generalize das2r = k at *
  obtain ⟨r, hr⟩ : ∃ r, r = s * s := ⟨_, rfl⟩
  have b4 : a4 ≤ 46.84 * s * k := h4.trans (mul_le_mul_of_nonneg_right (by linarith) hp.le)
  have b5 : a5 ≤ (0.042 + 5040.05 * s) * k := h5.trans (mul_le_mul_of_nonneg_right (by linarith) hp.le)
  have b6 : a6 ≤ (0.053 + 11.05 * s) * k := h6.trans (mul_le_mul_of_nonneg_right (by linarith) hp.le)
  have b7 : a7 ≤ (0.007 + 0.0786 * s) * k := h7.trans (mul_le_mul_of_nonneg_right (by linarith) hp.le)
  have p1 := mul_le_mul b4 b5 n5 (by positivity)
  have p2 := mul_le_mul b6 b7 n7 (by positivity)
  have p3 := mul_le_mul b6 b5 n5 (by positivity)
  have p4 := mul_le_mul b7 b5 n5 (by positivity)
  have tot : 46.84 * s * k * ((0.042 + 5040.05 * s) * k) + (0.053 + 11.05 * s) * k * ((0.007 + 0.0786 * s) * k) + (0.053 + 11.05 * s) * k * ((0.042 + 5040.05 * s) * k) + (0.007 + 0.0786 * s) * k * ((0.042 + 5040.05 * s) * k) ≤ (306 + 292170 * r) * k * k := by
    have : 46.84 * s * (0.042 + 5040.05 * s) + (0.053 + 11.05 * s) * (0.007 + 0.0786 * s) + (0.053 + 11.05 * s) * (0.042 + 5040.05 * s) + (0.007 + 0.0786 * s) * (0.042 + 5040.05 * s) ≤ 306 + 292170 * r := by
      have e : 46.84 * s * (0.042 + 5040.05 * s) + (0.053 + 11.05 * s) * (0.007 + 0.0786 * s) + (0.053 + 11.05 * s) * (0.042 + 5040.05 * s) + (0.007 + 0.0786 * s) * (0.042 + 5040.05 * s) =
        (0.053 * 0.007 + 0.053 * 0.042 + 0.007 * 0.042) + (46.84 * 0.042 + 0.053 * 0.0786 + 11.05 * 0.007 + 0.053 * 5040.05 + 11.05 * 0.042 + 0.007 * 5040.05 + 0.0786 * 0.042) * s +
        (46.84 * 5040.05 + 11.05 * 0.0786 + 11.05 * 5040.05 + 0.0786 * 5040.05) * r := by rw [hr]; ring
      rw [e]
      rw [← hr] at tt
      norm_num
      linarith
    have := mul_le_mul_of_nonneg_right (mul_le_mul_of_nonneg_right this hp.le) hp.le
    linarith
  have r0 : 0 ≤ r := by rw [hr]; exact tt
  rw [← hr] at h1 h2 h3 ⊢
  have tot2 : (306 + 292170 * r) * k * k ≤ (0.001484 + 1.4165 * r) * k := by
    refine mul_le_mul_of_nonneg_right ?_ hp.le
    have := mul_le_mul_of_nonneg_left hq.le (show 0 ≤ 306 + 292170 * r by linarith)
    norm_num at *
    linarith
  have fin : (0.052928 + 0.000026 * s + 2.8758 * r) * k + (0.006819 + 0.000002 * s + 0.1118 * r) * k + (0.041775 + 0.000024 * s + 2.6386 * r) * k + 2 * ((0.001484 + 1.4165 * r) * k) ≤ (0.11 + 8.5 * r) * k := by
    rw [← add_mul, ← add_mul, ← mul_assoc, ← add_mul]
    refine mul_le_mul_of_nonneg_right ?_ hp.le
    norm_num
    linarith
  linarith

end Pal
