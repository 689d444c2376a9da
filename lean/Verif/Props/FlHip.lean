import Verif.Lemmas.FlHip2

/-!
# C141: FK5 and Hipparcos in double precision
-/

namespace Pal.Props
open Real Pal Pal.Spec Matrix

variable {fl : ℝ → ℝ} {L : Libm}

theorem hfk5z_mat (rh dh epoch : ℝ) :
    palHfk5z rh dh epoch = (fun s : ((ℝ × ℝ) × (ℝ × ℝ)) => ((eraAnp s.1.1, s.1.2), s.2)) (eraPv2s ((eraRv2m fk5hipEp * eraRv2m (fun i => (epoch - 2000) * fk5hipOm i)).transpose *ᵥ dir rh dh) ((eraRv2m fk5hipEp * eraRv2m (fun i => (epoch - 2000) * fk5hipOm i)).transpose *ᵥ eraPxp (eraRv2m fk5hipEp *ᵥ fk5hipOm) (dir rh dh))) := by
  unfold palHfk5z eraHfk5z eraEpj2jdR
  dsimp only
  have ht : (fun i => (2400000.5 - 2451545 + (51544.5 + (epoch - 2000) * 365.25)) / 365.25 * fk5hipOm i) = fun i => (epoch - 2000) * fk5hipOm i := by
    funext i; ring
  rw [ht, eraS2c_eq, eraTrxp_eq, eraTrxp_eq, eraRxr_eq, eraRxp_eq]

/-- palHfk5z is a rotation of the sphere: it keeps distances. -/
theorem hfk5z_isometry (a b c d epoch : ℝ) :
    len (fun i => dir (palHfk5z a b epoch).1.1 (palHfk5z a b epoch).1.2 i - dir (palHfk5z c d epoch).1.1 (palHfk5z c d epoch).1.2 i) = len (fun i => dir a b i - dir c d i) := by
  have key : ∀ a b, dir (palHfk5z a b epoch).1.1 (palHfk5z a b epoch).1.2 = (eraRv2m fk5hipEp * eraRv2m (fun i => (epoch - 2000) * fk5hipOm i)).transpose *ᵥ dir a b := fun a b => by
    obtain ⟨k, l, hk, hl, hw, hv⟩ := hip_vectors
    rw [(C94_hfk5z a b epoch hk hl hw hv).2.2, Matrix.transpose_mul, ← Matrix.mulVec_mulVec, ← eraTrxp_eq, ← eraTrxp_eq, om_eq, ep_eq]
    have e1 : (fun i => (epoch - 2000) * hipSpin i) = fun i => ((epoch - 2000) * len hipSpin) * k i := by
      funext i; rw [show hipSpin i = len hipSpin * k i from congrFun hw i]; ring
    rw [e1, turn_transpose hk]
    have e2 : eraTrxp (eraRv2m hipOrientation) (dir a b) = turnAxes l (-len hipOrientation) (dir a b) := by
      conv_lhs => rw [hv]
      exact turn_transpose hl _ _
    rw [e2]
  rw [key, key]
  have q5 : IsRotation (eraRv2m fk5hipEp) := (C74_rotation fk5hipEp).1
  have qs : IsRotation (eraRv2m fun i => (epoch - 2000) * fk5hipOm i) := (C74_rotation fun i => (epoch - 2000) * fk5hipOm i).1
  have qt := rot_transpose (rot_mul q5 qs)
  generalize (eraRv2m fk5hipEp * eraRv2m (fun i => (epoch - 2000) * fk5hipOm i)).transpose = Q at *
  rw [show (fun i => (Q *ᵥ dir a b) i - (Q *ᵥ dir c d) i) = Q *ᵥ (fun i => dir a b i - dir c d i) by rw [show (fun i => dir a b i - dir c d i) = dir a b - dir c d from rfl, Matrix.mulVec_sub]; rfl, rot_len qt]

/-- **C141** palFk5hz in double precision: within 1000 years of 2000 the place is that of exact arithmetic to 8e-14 radians, for every star. -/
theorem C141_fk5hz (R : Rounding fl) (hL : LibmOK L) (nz : Bool) (r5 d5 epoch : ℝ) (h : |epoch - 2000| ≤ 1000) :
    let o := flFk5hz fl L nz r5 d5 epoch
    0 ≤ o.1 ∧ o.1 ≤ flD2PI fl ∧ |o.2| ≤ π / 2 + 4.5e-16 ∧ len (fun i => dir o.1 o.2 i - dir (palFk5hz r5 d5 epoch).1 (palFk5hz r5 d5 epoch).2 i) ≤ 8e-14 := by
  intro o
  have q5 : IsRotation (eraRv2m fk5hipEp) := (C74_rotation fk5hipEp).1
  have qs : IsRotation (eraRv2m fun i => -(epoch - 2000) * fk5hipOm i) := (C74_rotation fun i => -(epoch - 2000) * fk5hipOm i).1
  obtain ⟨d1, d2⟩ := flHipDays_err R epoch h
  obtain ⟨s1, s2, s3⟩ := flHipSpin R (d := -flHipDays fl epoch) (T := -(epoch - 2000)) (by rw [show -flHipDays fl epoch - -(epoch - 2000) * 365.25 = -(flHipDays fl epoch - (epoch - 2000) * 365.25) by ring, abs_neg]; exact d1)
    (by rw [neg_eq_zero, abs_neg]; exact d2) rfl (by rwa [abs_neg])
  have m5 := flHip_r5h R hL
  have ms := flRv2m_small R hL s1 s2 s3
  have p1 := flTrxp_near R qs ms (by norm_num) (flS2c_len R hL (r := r5) (d := d5) (r' := r5) (d' := d5) (δ := 0) (by simp [len])) (by norm_num) (len_one (dot_dir r5 d5))
  have p2 := flRxp_near R q5 m5 (by norm_num) p1.2 (by norm_num) p1.1
  have k := flAnpC2s_unit R hL nz p2.2 (by norm_num) p2.1
  have e : dir (palFk5hz r5 d5 epoch).1 (palFk5hz r5 d5 epoch).2 = eraRv2m fk5hipEp *ᵥ ((eraRv2m fun i => -(epoch - 2000) * fk5hipOm i).transpose *ᵥ dir r5 d5) := by
    unfold palFk5hz eraFk5hz eraEpj2jdR
    dsimp only
    have ht : (fun i => -(2400000.5 - 2451545 + (51544.5 + (epoch - 2000) * 365.25)) / 365.25 * fk5hipOm i) = fun i => -(epoch - 2000) * fk5hipOm i := by
      funext i; ring
    rw [ht, eraS2c_eq, eraTrxp_eq, eraRxp_eq]
    exact c2s_anp _ (by rw [← len_sq, p2.1, one_mul])
  rw [e]
  refine ⟨k.1, k.2.1, k.2.2.1, k.2.2.2.trans (by norm_num)⟩

/-- **C141** palHfk5z in double precision: within 1000 years of 2000 the place is that of exact arithmetic to 8e-14 radians, for every star, and the proper motion, at least 1e-6 radians from the
poles, that of exact arithmetic to 3e-21 radians a year divided by the square of the cosine of the declination in right ascension and 7.5e-21 divided by that cosine in declination. -/
theorem C141_hfk5z (R : Rounding fl) (hL : LibmOK L) (nz : Bool) (rh dh epoch : ℝ) (h : |epoch - 2000| ≤ 1000) :
    let o := flHfk5z fl L nz rh dh epoch
    let e := palHfk5z rh dh epoch
    0 ≤ o.1.1 ∧ o.1.1 ≤ flD2PI fl ∧ |o.1.2| ≤ π / 2 + 4.5e-16 ∧ len (fun i => dir o.1.1 o.1.2 i - dir e.1.1 e.1.2 i) ≤ 8e-14 ∧
    (1e-6 ≤ cos e.1.2 → |o.2.1 - e.2.1| ≤ 3e-21 / (cos e.1.2 * cos e.1.2) ∧ |o.2.2 - e.2.2| ≤ 7.5e-21 / cos e.1.2) := by
  intro o e
  have pv := flHfk5zPv_err R hL rh dh epoch h
  dsimp only at pv
  have q5 : IsRotation (eraRv2m fk5hipEp) := (C74_rotation fk5hipEp).1
  have qs : IsRotation (eraRv2m fun i => (epoch - 2000) * fk5hipOm i) := (C74_rotation fun i => (epoch - 2000) * fk5hipOm i).1
  have qt := rot_transpose (rot_mul q5 qs)
  have he : e = _ := hfk5z_mat rh dh epoch
  have ho : o = (let pv := flHfk5zPv fl L rh dh epoch
    let s := flPv2s fl L nz pv.1 pv.2
    ((flAnp fl s.1.1, s.1.2), s.2)) := rfl
  have vb : len ((eraRv2m fk5hipEp * eraRv2m (fun i => (epoch - 2000) * fk5hipOm i)).transpose *ᵥ eraPxp (eraRv2m fk5hipEp *ᵥ fk5hipOm) (dir rh dh)) ≤ 4.8e-9 := by
    rw [rot_len qt]; exact pv.2.2.2
  obtain ⟨a1, a2, a3, -⟩ := pv
  dsimp only at he ho
  have hz : dot ((eraRv2m fk5hipEp * eraRv2m (fun i => (epoch - 2000) * fk5hipOm i)).transpose *ᵥ dir rh dh)
      ((eraRv2m fk5hipEp * eraRv2m (fun i => (epoch - 2000) * fk5hipOm i)).transpose *ᵥ eraPxp (eraRv2m fk5hipEp *ᵥ fk5hipOm) (dir rh dh)) = 0 := by
    rw [rot_dot qt]; exact dot_cross_self _ _
  generalize (eraRv2m fk5hipEp * eraRv2m (fun i => (epoch - 2000) * fk5hipOm i)).transpose *ᵥ eraPxp (eraRv2m fk5hipEp *ᵥ fk5hipOm) (dir rh dh) = V at *
  generalize (eraRv2m fk5hipEp * eraRv2m (fun i => (epoch - 2000) * fk5hipOm i)).transpose *ᵥ dir rh dh = P at *
  generalize flHfk5zPv fl L rh dh epoch = pv at *
  obtain ⟨p, v⟩ := pv
  dsimp only at a1 a3 ho
  have hP : dot P P = 1 := by rw [← len_sq, a2, one_mul]
  obtain ⟨s1, s2, -, -⟩ := pv2s_spec P V hP hz
  obtain ⟨k1, k2, k3, k4⟩ := flPv2s_dir R hL nz v a1 (by norm_num) a2
  rw [he, ho]
  refine ⟨k1, k2, k3, ?_, ?_⟩
  · rw [dir_anp, s2]; exact k4.trans (by norm_num)
  · dsimp only
    intro hc
    have hsum : P 0 * P 0 + P 1 * P 1 = cos (eraPv2s P V).1.2 * cos (eraPv2s P V).1.2 := by
      have := sin_sq_add_cos_sq (eraPv2s P V).1.1
      have c0 := congrFun s2 0
      have c1 := congrFun s2 1
      generalize (eraPv2s P V).1.1 = A at *
      generalize (eraPv2s P V).1.2 = B at *
      simp only [dir, Matrix.cons_val_zero, Matrix.cons_val_one] at c0 c1
      linear_combination cos B ^ 2 * this - (P 0 + cos B * cos A) * c0 - (P 1 + cos B * sin A) * c1
    have hρ : cos (eraPv2s P V).1.2 = √(P 0 * P 0 + P 1 * P 1) := by
      rw [hsum, Real.sqrt_mul_self (le_trans (by norm_num) hc)]
    have hr := hip_rates R (fun i => ((comp_le_len _ i).trans a1).trans (by norm_num)) (fun i => (comp_le_len _ i).trans a3) hP (fun i => (comp_le_len _ i).trans vb) hρ hc
    obtain ⟨r1, r2, r3⟩ := hr
    have hne : P 0 * P 0 + P 1 * P 1 ≠ 0 := by
      rw [hsum]; have : 0 < cos (eraPv2s P V).1.2 := lt_of_lt_of_le (by norm_num) hc
      positivity
    have hpr : √(P 0 * P 0 + P 1 * P 1 + P 2 * P 2) = 1 := by rw [← dot_eq, hP, Real.sqrt_one]
    have hex : (eraPv2s P V).2 = ((P 0 * V 1 - P 1 * V 0) / (P 0 * P 0 + P 1 * P 1), (V 2 * (P 0 * P 0 + P 1 * P 1) - P 2 * (P 0 * V 0 + P 1 * V 1)) / ((P 0 * P 0 + P 1 * P 1 + P 2 * P 2) * √(P 0 * P 0 + P 1 * P 1))) := by
      unfold eraPv2s
      dsimp only
      simp only [hpr, one_ne_zero, if_false, if_pos hne]
    rw [← hρ, hsum] at hex
    rw [hex, flPv2s_eq R nz v a1 (by norm_num) a2, if_pos r1]
    exact ⟨r2, r3⟩

/-- **C141** the round trip in double precision, for every star. -/
theorem C141_round_trip (R : Rounding fl) (hL : LibmOK L) (nz nz' : Bool) (r d epoch : ℝ) (h : |epoch - 2000| ≤ 1000) :
    let f := flFk5hz fl L nz r d epoch
    let o := flHfk5z fl L nz' f.1 f.2 epoch
    len (fun i => dir o.1.1 o.1.2 i - dir r d i) ≤ 1.6e-13 := by
  intro f o
  have h1 := (C141_fk5hz R hL nz r d epoch h).2.2.2
  have h2 := (C141_hfk5z R hL nz' f.1 f.2 epoch h).2.2.2.1
  have h3 := hfk5z_isometry f.1 f.2 (palFk5hz r d epoch).1 (palFk5hz r d epoch).2 epoch
  rw [(C94_inverse r d epoch).1] at h3
  have := len_tri (dir o.1.1 o.1.2) (dir (palHfk5z f.1 f.2 epoch).1.1 (palHfk5z f.1 f.2 epoch).1.2) (dir r d)
  have h1' : len (fun i => dir f.1 f.2 i - dir (palFk5hz r d epoch).1 (palFk5hz r d epoch).2 i) ≤ 8e-14 := h1
  have h2' : len (fun i => dir o.1.1 o.1.2 i - dir (palHfk5z f.1 f.2 epoch).1.1 (palHfk5z f.1 f.2 epoch).1.2 i) ≤ 8e-14 := h2
  norm_num at *; linarith

/-- The hypotheses for IEEE 754 arithmetic, a library of the stated accuracy and the Hipparcos epoch. -/
example : Rounding (ieee) ∧ LibmOK roundedLibm ∧ |(1991.25 : ℝ) - 2000| ≤ 1000 := ⟨ieee_rounding, roundedLibm_ok, by norm_num [abs_le]⟩

/-- There are stars away from the poles for C141_hfk5z: that whose FK5 place is (1, 0.5). -/
example : ∃ rh dh, 1e-6 ≤ cos (palHfk5z rh dh 1991.25).1.2 := by
  have hp := Real.pi_gt_three
  refine ⟨(palFk5hz 1 0.5 1991.25).1, (palFk5hz 1 0.5 1991.25).2, ?_⟩
  · rw [C94_inverse_coords 1 0.5 1991.25 ⟨by norm_num, by linarith⟩ (by rw [abs_of_pos (by norm_num)]; linarith)]
    have := Real.one_sub_sq_div_two_le_cos (x := 0.5)
    norm_num at this ⊢; linarith

end Pal.Props
