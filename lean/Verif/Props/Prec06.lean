import Verif.Lemmas.Prec06
import Verif.Lemmas.Prec06Num

/-!
# Property C97: precession with the actual IAU 2006 angles

`fromJ2000 T e` (Verif/Props/Prec.lean) is the theory's matrix from J2000 to epoch `e`; `palPrec`, `palPrenut`, `palNut`, `palEqecl` ... are PAL's functions with the IAU 2006
precession in place of the theory parameter (`iau2006`), whatever the nutation series `nut`.
-/

namespace Pal.Props
open Pal Pal.Spec Real Matrix

theorem cent_epoch (e : ℝ) : cent06 2451545 ((e - 2000) * 365.25) = (e - 2000) / 100 := by unfold cent06; ring

/-- **C97** (rotations) With the IAU 2006 precession every hypothesis "the theory's matrices are rotations" of the other theorems holds, so palPrec, palPrenut and palNut always return proper rotations. -/
theorem C97_rotations (nut : ℝ → ℝ → ℝ × ℝ) :
    (∀ a b, IsRotation ((iau2006 nut).pmat06 a b)) ∧ (∀ a b, IsRotation ((iau2006 nut).pnm06a a b)) ∧
    (∀ a b, IsRotation (palPrec (iau2006 nut) a b) ∧ IsRotation (palPrenut (iau2006 nut) a b) ∧ IsRotation (palNut (iau2006 nut) a)) :=
  ⟨pmat06_rot, pnm06a_rot nut, fun a b => ⟨(C42_prec_rotation (iau2006 nut) pmat06_rot a b).1, (C43_rotations (iau2006 nut) (pnm06a_rot nut) a b).2.2,
    (C43_rotations (iau2006 nut) (pnm06a_rot nut) a b).2.1⟩⟩

/-- **C97** (ecliptic round trip) With the IAU 2006 precession, conversion to ecliptic coordinates of date and back gives the direction one started from, at every date. -/
theorem C97_ecliptic_inverse (nut : ℝ → ℝ → ℝ × ℝ) (x y date : ℝ) :
    (let e := palEcleq (iau2006 nut) x y date; let r := palEqecl (iau2006 nut) e.1 e.2 date; dir r.1 r.2 = dir x y) ∧
    (let q := palEqecl (iau2006 nut) x y date; let r := palEcleq (iau2006 nut) q.1 q.2 date; dir r.1 r.2 = dir x y) :=
  ⟨(C35_ecliptic_inverse (iau2006 nut) pmat06_rot x y date).1.1, (C35_ecliptic_inverse (iau2006 nut) pmat06_rot x y date).2.1⟩

/-- **C97** (composition) The three ways PAL offers from J2000 to the true equator and equinox of date agree exactly: palPrenut from epoch 2000 is palNut after palPrec; without nutation it is palPrec alone. -/
theorem C97_prenut_composition (nut : ℝ → ℝ → ℝ × ℝ) (date : ℝ) :
    palPrenut (iau2006 nut) 2000 date = palNut (iau2006 nut) date * palPrec (iau2006 nut) 2000 (palEpjR date) ∧
    (nut rMJD0 date = (0, 0) → palPrenut (iau2006 nut) 2000 date = palPrec (iau2006 nut) 2000 (palEpjR date)) := by
  have h1 : palPrenut (iau2006 nut) 2000 date = eraPnm06a nut rMJD0 date := by
    have h := C43_prenut (iau2006 nut) 2000 date
    have hc : cent06 rMJD0 (51544.5 + (2000 - 2000) * 365.25) = 0 := by unfold cent06 rMJD0; norm_num
    dsimp only [iau2006] at h
    unfold eraP06e at h
    dsimp only at h
    rw [hc] at h
    simp only [mul_zero, zero_mul, add_zero, neg_zero, axisZ_zero, one_mul, mul_one] at h
    rw [axisX_inv', mul_one] at h
    exact h
  have hc : cent06 2451545 ((palEpjR date - 2000) * 365.25) = cent06 rMJD0 date := by unfold cent06 palEpjR rMJD0; ring
  have h2 : palPrec (iau2006 nut) 2000 (palEpjR date) = eraPmat06 rMJD0 date := by
    unfold palPrec
    dsimp only
    rw [if_pos rfl]
    show eraPmat06 _ _ = _
    unfold eraPmat06 eraPfw06 eraObl06
    rw [hc]
  have h3 : eraPnm06a nut rMJD0 date = palNut (iau2006 nut) date * eraPmat06 rMJD0 date := by
    have e : palNut (iau2006 nut) date = axisX (-(eraObl06 rMJD0 date + (nut rMJD0 date).2)) * axisZ (-(nut rMJD0 date).1) * axisX (eraObl06 rMJD0 date) := by
      unfold palNut
      dsimp only
      rw [deuler3 'X' 'Z' 'X' axisX axisZ axisX (by simp [axisOf]) (by simp [axisOf]) (by simp [axisOf])]
      rfl
    rw [e]
    unfold eraPnm06a eraPmat06
    dsimp only
    rw [fw2m_eq, fw2m_eq]
    have hz : axisZ (-((eraPfw06 rMJD0 date).psib + (nut rMJD0 date).1)) = axisZ (-(nut rMJD0 date).1) * axisZ (-(eraPfw06 rMJD0 date).psib) := by
      rw [axisZ_add]; congr 1; ring
    have he : (eraPfw06 rMJD0 date).epsa = eraObl06 rMJD0 date := rfl
    rw [hz, he]
    calc _ = axisX (-(eraObl06 rMJD0 date + (nut rMJD0 date).2)) * axisZ (-(nut rMJD0 date).1) * (axisX (eraObl06 rMJD0 date) * axisX (-(eraObl06 rMJD0 date))) *
          axisZ (-(eraPfw06 rMJD0 date).psib) * axisX (eraPfw06 rMJD0 date).phib * axisZ (eraPfw06 rMJD0 date).gamb := by
          rw [axisX_inv, mul_one]; simp only [Matrix.mul_assoc]
      _ = _ := by simp only [Matrix.mul_assoc]
  refine ⟨by rw [h1, h2, h3], fun h => ?_⟩
  rw [h1, h2]
  unfold eraPnm06a eraPmat06
  dsimp only
  rw [h]
  simp

example : ∃ nut : ℝ → ℝ → ℝ × ℝ, nut rMJD0 51544.5 = (0, 0) ∧ nut rMJD0 60000 ≠ (0, 0) :=
  ⟨fun _ d => (d - 51544.5, 0), by simp, by simp; norm_num⟩

/-- **C97** (what precession is) For every epoch from 1900 to 2100 the precession matrix from J2000 is, to within 6.54e-5 (13.5 arcsec), a turn of the axes about the ecliptic pole of J2000 (obliquity 84381.406 arcsec),
by an angle that grows by 50.38481 arcsec a year to within 1.7 arcsec. -/
theorem C97_ecliptic_turn (nut : ℝ → ℝ → ℝ × ℝ) (ep : ℝ) (h0 : 1900 ≤ ep) (h1 : ep ≤ 2100) :
    ∃ p : ℝ, |p - 50.38481 * (ep - 2000) * (π / 648000)| ≤ 1.7 * (π / 648000) ∧
      ∀ x : Vec3, len (fun i => (fromJ2000 (iau2006 nut) ep *ᵥ x) i -
        ((axisX (-(84381.406 * (π / 648000))) * axisZ (-p) * axisX (84381.406 * (π / 648000))) *ᵥ x) i) ≤ 6.54e-5 * len x := by
  have ht : |cent06 2451545 ((ep - 2000) * 365.25)| ≤ 1 := by
    rw [cent_epoch, abs_le]; constructor <;> linarith
  refine ⟨(eraPfw06 2451545 ((ep - 2000) * 365.25)).psib, ?_, fun x => ?_⟩
  · unfold eraPfw06
    dsimp only
    have he : 50.38481 * (ep - 2000) = 5038.481 * ((ep - 2000) / 100) := by ring
    rw [he, ← cent_epoch]
    generalize cent06 2451545 ((ep - 2000) * 365.25) = t at *
    have hp : |(-0.041775 : ℝ) + (0.000484 + (1.5584175 + (-0.00018522 + (-0.000026452 + (-0.0000000148) * t) * t) * t) * t) * t| ≤ 1.7 := by
      refine (poly_abs ht).trans ?_
      simp only [abs_neg]
      norm_num [abs_of_pos, abs_neg, abs_of_nonneg]
    have e2 : (-0.041775 + (5038.481484 + (1.5584175 + (-0.00018522 + (-0.000026452 + -0.0000000148 * t) * t) * t) * t) * t) * das2r - 5038.481 * t * (π / 648000) =
        ((-0.041775 : ℝ) + (0.000484 + (1.5584175 + (-0.00018522 + (-0.000026452 + (-0.0000000148) * t) * t) * t) * t) * t) * (π / 648000) := by
      unfold das2r; ring
    rw [e2, abs_mul, abs_of_pos (show (0 : ℝ) < π / 648000 by positivity)]
    exact mul_le_mul_of_nonneg_right hp (by positivity)
  · have h := pmat_near 2451545 ((ep - 2000) * 365.25) ht x
    rw [Matrix.sub_mulVec] at h
    exact h

example : (1900 : ℝ) ≤ 1950 ∧ (1950 : ℝ) ≤ 2100 := by norm_num

theorem bias_small : Small (eraPmat06 2451545 ((2000 - 2000) * 365.25) - 1) 5e-7 := by
  have hc : cent06 2451545 ((2000 - 2000) * 365.25) = 0 := by rw [cent_epoch]; norm_num
  have hf := fw_near (84381.406 * das2r) (-0.052928 * das2r) (84381.412819 * das2r) (-0.041775 * das2r) (84381.406 * das2r)
  have ht := eclTurn_small (84381.406 * das2r) (-0.041775 * das2r)
  have h := hf.add ht
  have e : eraPmat06 2451545 ((2000 - 2000) * 365.25) = eraFw2m (-0.052928 * das2r) (84381.412819 * das2r) (-0.041775 * das2r) (84381.406 * das2r) := by
    unfold eraPmat06 eraPfw06 eraObl06
    rw [hc]
    simp only [mul_zero, add_zero]
  rw [e]
  rw [sub_add_sub_cancel] at h
  refine h.mono ?_
  have hp := das2r_gt0
  have hq := das2r_ub
  have e1 : 84381.412819 * das2r - 84381.406 * das2r = 0.006819 * das2r := by ring
  rw [e1, sub_self, abs_zero, zero_mul, mul_zero]
  simp only [abs_mul, abs_neg, abs_of_pos hp]
  norm_num [abs_of_pos, abs_neg, abs_of_nonneg]
  linarith

/-- **C97** (error of palPrec) palPrec multiplies the two matrices in the wrong order and does not remove the frame bias at J2000, but with the IAU 2006 angles and both epochs between 1900 and 2100 the vector it gives differs from
the correctly precessed one (from epoch ep0 to J2000 and on to ep1) by at most 6.41e-6 of its length, 1.33 arcsec. -/
theorem C97_accuracy (nut : ℝ → ℝ → ℝ × ℝ) (ep0 ep1 : ℝ) (a0 : 1900 ≤ ep0) (a1 : ep0 ≤ 2100) (b0 : 1900 ≤ ep1) (b1 : ep1 ≤ 2100) (x : Vec3) :
    len (fun i => (palPrec (iau2006 nut) ep0 ep1 *ᵥ x) i - (fromJ2000 (iau2006 nut) ep1 *ᵥ ((fromJ2000 (iau2006 nut) ep0).transpose *ᵥ x)) i) ≤ 6.41e-6 * len x := by
  have goal : Small (palPrec (iau2006 nut) ep0 ep1 - fromJ2000 (iau2006 nut) ep1 * (fromJ2000 (iau2006 nut) ep0).transpose) 6.41e-6 := by
    have hT : ∀ a b, (iau2006 nut).pmat06 a b = eraPmat06 a b := fun _ _ => rfl
    unfold palPrec fromJ2000
    dsimp only
    simp only [hT]
    rw [eraTr_eq, eraRxr_eq]
    by_cases h0 : ep0 = 2000
    · rw [if_pos h0, h0]
      have : eraPmat06 2451545 ((ep1 - 2000) * 365.25) - eraPmat06 2451545 ((ep1 - 2000) * 365.25) * (eraPmat06 2451545 ((2000 - 2000) * 365.25)).transpose =
          eraPmat06 2451545 ((ep1 - 2000) * 365.25) * (eraPmat06 2451545 ((2000 - 2000) * 365.25) - 1) * (eraPmat06 2451545 ((2000 - 2000) * 365.25)).transpose := by
        rw [Matrix.mul_sub, Matrix.sub_mul, Matrix.mul_assoc _ _ (eraPmat06 2451545 ((2000 - 2000) * 365.25)).transpose, (pmat06_rot _ _).1]; simp
      rw [this]
      exact ((bias_small.lmul (pmat06_rot _ _)).rmul (rot_transpose (pmat06_rot _ _))).mono (by norm_num)
    · rw [if_neg h0]
      by_cases h1 : ep1 = 2000
      · rw [if_pos h1, h1]
        have := (bias_small.rmul (rot_transpose (pmat06_rot 2451545 ((ep0 - 2000) * 365.25)))).neg
        rw [Matrix.sub_mul, one_mul, neg_sub] at this
        exact this.mono (by norm_num)
      · rw [if_neg h1]
        have t0 : |cent06 2451545 ((ep0 - 2000) * 365.25)| ≤ 1 := by rw [cent_epoch, abs_le]; constructor <;> linarith
        have t1 : |cent06 2451545 ((ep1 - 2000) * 365.25)| ≤ 1 := by rw [cent_epoch, abs_le]; constructor <;> linarith
        have hp := das2r_gt0
        have hq := das2r_ub
        have g : ∀ p, |p| ≤ 5040.0819 * das2r → |p| ≤ 0.02444 := fun p h => h.trans (by linarith)
        exact (near_comm (pmat06_rot _ _) (pmat_near _ _ t0) (pmat_near _ _ t1) (g _ (fw_sizes _ _ t0).2.1) (g _ (fw_sizes _ _ t1).2.1)).mono (by norm_num)
  have h := goal x
  rw [Matrix.sub_mulVec, ← Matrix.mulVec_mulVec] at h
  exact h

/-- **C97** (palPrec at 2000) With the IAU 2006 angles, palPrec from 2000 to 2000 is not the identity: it is the frame bias between the mean equator and equinox of J2000 and the ICRS, 14.6 mas about the pole, 16.6 mas and
6.8 mas about the other two axes, to within 1e-9. -/
theorem C97_bias (nut : ℝ → ℝ → ℝ × ℝ) :
    (∀ i j, |palPrec (iau2006 nut) 2000 2000 i j - (!![1, -7.08e-8, 8.06e-8; 7.08e-8, 1, 3.31e-8; -8.06e-8, -3.31e-8, 1] : Mat3) i j| ≤ 1e-9) ∧
    palPrec (iau2006 nut) 2000 2000 ≠ 1 := by
  have hc : cent06 2451545 ((2000 - 2000) * 365.25) = 0 := by rw [cent_epoch]; norm_num
  have e : palPrec (iau2006 nut) 2000 2000 = eraFw2m (-(0.0529280000 * das2r)) (84381.4128190000 * das2r) (-(0.0417750000 * das2r)) (84381.4060000000 * das2r) := by
    unfold palPrec
    dsimp only
    rw [if_pos rfl]
    show eraPmat06 _ _ = _
    unfold eraPmat06 eraPfw06 eraObl06
    rw [hc]
    dsimp only
    congr 1 <;> ring
  have hs := fw_z
  rw [← e] at hs
  have h : ∀ i j, |palPrec (iau2006 nut) 2000 2000 i j - (!![1, -7.08e-8, 8.06e-8; 7.08e-8, 1, 3.31e-8; -8.06e-8, -3.31e-8, 1] : Mat3) i j| ≤ 1e-9 := by
    intro i j
    have := hs.entry i j
    rw [Matrix.sub_apply] at this
    have a := abs_le.1 this
    rw [abs_le]
    fin_cases i <;> fin_cases j <;> simp [rxq, rzq, Matrix.mul_apply, Fin.sum_univ_three] at a ⊢ <;> constructor <;> norm_num at a ⊢ <;> linarith [a.1, a.2]
  refine ⟨h, fun h1 => ?_⟩
  have := h 0 1
  rw [h1] at this
  simp at this
  norm_num [abs_of_pos] at this

/-- **C97** (negation) With the IAU 2006 angles palPrec from 1900 to 2100 does not take mean places of 1900 to mean places of 2100: it misplaces the pole of 1900 by more than 2.2e-7 (0.045 arcsec). -/
theorem C97_order_refuted (nut : ℝ → ℝ → ℝ × ℝ) :
    2.2e-7 ≤ len (fun i => (palPrec (iau2006 nut) 1900 2100 *ᵥ ![0, 0, 1]) i - (fromJ2000 (iau2006 nut) 2100 *ᵥ ((fromJ2000 (iau2006 nut) 1900).transpose *ᵥ ![0, 0, 1])) i) ∧
    palPrec (iau2006 nut) 1900 2100 * fromJ2000 (iau2006 nut) 1900 ≠ fromJ2000 (iau2006 nut) 2100 := by
  have hm : cent06 2451545 ((1900 - 2000) * 365.25) = -1 := by rw [cent_epoch]; norm_num
  have hp : cent06 2451545 ((2100 - 2000) * 365.25) = 1 := by rw [cent_epoch]; norm_num
  have em : fromJ2000 (iau2006 nut) 1900 = eraFw2m (-(10.1157920340 * das2r)) (84428.2744284876 * das2r) (-(5036.9646827172 * das2r)) (84428.2405819674 * das2r) := by
    show eraPmat06 _ _ = _
    unfold eraPmat06 eraPfw06 eraObl06
    rw [hm]
    dsimp only
    congr 1 <;> ring
  have ep : fromJ2000 (iau2006 nut) 2100 = eraFw2m (10.9963392580 * das2r) (84334.6534622324 * das2r) (5039.9979148132 * das2r) (84334.5710506806 * das2r) := by
    show eraPmat06 _ _ = _
    unfold eraPmat06 eraPfw06 eraObl06
    rw [hp]
    dsimp only
    congr 1 <;> ring
  have e : palPrec (iau2006 nut) 1900 2100 = (fromJ2000 (iau2006 nut) 1900).transpose * fromJ2000 (iau2006 nut) 2100 := by
    unfold palPrec fromJ2000
    dsimp only
    rw [if_neg (by norm_num), if_neg (by norm_num), eraRxr_eq, eraTr_eq]
  have r0 : IsRotation (fromJ2000 (iau2006 nut) 1900) := pmat06_rot _ _
  have r1 : IsRotation (fromJ2000 (iau2006 nut) 2100) := pmat06_rot _ _
  have s0 := fw_m
  have s1 := fw_p
  rw [← em] at s0
  rw [← ep] at s1
  have d := ((s0.transp).prod (rot_transpose r0) r1 s1).sub (s1.prod r1 (rot_transpose r0) s0.transp)
  have d12 := d.entry 1 2
  have big : 2.2e-7 ≤ |(palPrec (iau2006 nut) 1900 2100 - fromJ2000 (iau2006 nut) 2100 * (fromJ2000 (iau2006 nut) 1900).transpose) 1 2| := by
    rw [e]
    generalize fromJ2000 (iau2006 nut) 1900 = A at *
    generalize fromJ2000 (iau2006 nut) 2100 = B at *
    rw [Matrix.sub_apply, Matrix.sub_apply, Matrix.sub_apply] at d12
    rw [Matrix.sub_apply]
    refine le_trans ?_ (le_abs_self _)
    have d1 := (abs_le.1 d12).1
    generalize (A.transpose * B) 1 2 = x at *
    generalize (B * A.transpose) 1 2 = y at *
    simp [rxq, rzq, Matrix.mul_apply, Fin.sum_univ_three] at d1
    norm_num at d1 ⊢
    linarith
  have col : len (fun i => (palPrec (iau2006 nut) 1900 2100 *ᵥ ![0, 0, 1]) i - (fromJ2000 (iau2006 nut) 2100 *ᵥ ((fromJ2000 (iau2006 nut) 1900).transpose *ᵥ ![0, 0, 1])) i) =
      len ((palPrec (iau2006 nut) 1900 2100 - fromJ2000 (iau2006 nut) 2100 * (fromJ2000 (iau2006 nut) 1900).transpose) *ᵥ ![0, 0, 1]) := by
    rw [Matrix.sub_mulVec, ← Matrix.mulVec_mulVec]; rfl
  have c12 := comp_le_len ((palPrec (iau2006 nut) 1900 2100 - fromJ2000 (iau2006 nut) 2100 * (fromJ2000 (iau2006 nut) 1900).transpose) *ᵥ ![0, 0, 1]) 1
  have c13 : ((palPrec (iau2006 nut) 1900 2100 - fromJ2000 (iau2006 nut) 2100 * (fromJ2000 (iau2006 nut) 1900).transpose) *ᵥ ![0, 0, 1]) 1 =
      (palPrec (iau2006 nut) 1900 2100 - fromJ2000 (iau2006 nut) 2100 * (fromJ2000 (iau2006 nut) 1900).transpose) 1 2 := by
    generalize (palPrec (iau2006 nut) 1900 2100 - fromJ2000 (iau2006 nut) 2100 * (fromJ2000 (iau2006 nut) 1900).transpose) = M
    simp [Matrix.mulVec, dotProduct, Fin.sum_univ_three]
  rw [c13] at c12
  refine ⟨by rw [col]; exact big.trans c12, fun h => ?_⟩
  have : palPrec (iau2006 nut) 1900 2100 = fromJ2000 (iau2006 nut) 2100 * (fromJ2000 (iau2006 nut) 1900).transpose := by
    rw [← h, Matrix.mul_assoc, r0.1, mul_one]
  rw [this, sub_self] at big
  norm_num at big

end Pal.Props
