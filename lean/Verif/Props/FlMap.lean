import Verif.Lemmas.FlAmp
import Verif.Props.FlSphere

/-!
# Mean to apparent place in double precision

The reference is the model over the real numbers (palMapqk, palMapqkz), whose own meaning is C45-C47.
-/

namespace Pal.Props
open Real Pal.Spec Matrix

/-- C123: palMapqkz in double precision, for any mean place and any parameter block with a unit Sun direction (to 1e-9), a deflection constant of at most 2.1e-8, an Earth velocity of at most 1.1e-4 c
and a matrix that is orthogonal to 1e-10. The right ascension is in [0, 2π], the declination in [-π/2, π/2] to 4.5e-16, and the place is that of exact arithmetic with the same block to 2.2e-14 radians: also for a star
behind the Sun, where the denominator of the deflection loses most of its digits. -/
theorem C123_mapqkz {fl : ℝ → ℝ} (R : Rounding fl) {L : Libm} (hL : LibmOK L) (nz : Bool) (am : Amprms) (he : |len am.ehn - 1| ≤ 1e-9) (hg0 : 0 ≤ am.gr2e) (hg : am.gr2e ≤ 2.1e-8)
    (hv : len am.abv ≤ 1.1e-4) (ha : 0.999 ≤ am.ab1) (ha' : am.ab1 ≤ 1) (ho : ∀ i j, |(am.mat.transpose * am.mat) i j - (1 : Mat3) i j| ≤ 1e-10) (rm dm : ℝ) :
    let o := flMapqkz fl L nz rm dm am
    let x := palMapqkz rm dm am
    0 ≤ o.1 ∧ o.1 ≤ flD2PI fl ∧ |o.2| ≤ π / 2 + 4.5e-16 ∧ len (fun i => dir o.1 o.2 i - dir x.1 x.2 i) ≤ 2.2e-14 := by
  intro o x
  obtain ⟨a, b, c, d⟩ := flChain_err R hL nz he hg0 hg hv ha ha' ho (flS2c_err R hL rm dm) (by norm_num) (len_dir rm dm) (Or.inl ⟨rfl, rfl⟩)
  refine ⟨a, b, c, ?_⟩
  have e : x = mapFinish am.mat (fun i => am.ab1 * defl0 am.gr2e am.ehn (dir rm dm) i + (1 + dot (defl0 am.gr2e am.ehn (dir rm dm)) am.abv / (am.ab1 + 1)) * am.abv i) := mapqkz_eq rm dm am
  rw [e]
  exact d.trans (by norm_num)

/-- C123: palMapqk in double precision, for a star with proper motions of at most 3e-4 rad/year, a parallax of at most 1 arcsec and a radial velocity of at most 300 km/s, at most a century from the reference epoch, and a
block as for palMapqkz. The place is that of exact arithmetic to 6e-14 radians. -/
theorem C123_mapqk {fl : ℝ → ℝ} (R : Rounding fl) {L : Libm} (hL : LibmOK L) (nz : Bool) (am : Amprms) (he : |len am.ehn - 1| ≤ 1e-9) (hg0 : 0 ≤ am.gr2e) (hg : am.gr2e ≤ 2.1e-8)
    (hv : len am.abv ≤ 1.1e-4) (ha : 0.999 ≤ am.ab1) (ha' : am.ab1 ≤ 1) (ho : ∀ i j, |(am.mat.transpose * am.mat) i j - (1 : Mat3) i j| ≤ 1e-10)
    (ht : |am.pmt| ≤ 100) (heb : ∀ i, |am.eb i| ≤ 1.1) (rm dm pr pd px rv : ℝ) (hpr : |pr| ≤ 3e-4) (hpd : |pd| ≤ 3e-4) (hpx : |px| ≤ 1) (hrv : |rv| ≤ 300) :
    let o := flMapqk fl L nz rm dm pr pd px rv am
    let x := palMapqk rm dm pr pd px rv am
    0 ≤ o.1 ∧ o.1 ≤ flD2PI fl ∧ |o.2| ≤ π / 2 + 4.5e-16 ∧ len (fun i => dir o.1 o.2 i - dir x.1 x.2 i) ≤ 6e-14 := by
  intro o x
  have hs := fun i => flSpace_err R hL (am := am) rm dm pr pd px rv hpr hpd hpx hrv ht heb i
  have ex : x = mapFinish am.mat (fun i => am.ab1 * defl0 am.gr2e am.ehn (eraPn (space0 rm dm pr pd px rv am)).2 i + (1 + dot (space0 rm dm pr pd px rv am) am.abv / (am.ab1 + 1)) * am.abv i) := by
    change palMapqk rm dm pr pd px rv am = _
    unfold palMapqk
    dsimp only
    rw [eraS2c_eq, eraPdp_eq, eraPdp_eq]
    rfl
  have eo : o = flMapFinish fl L nz am.mat (flAberr fl am.ab1 am.abv (flSpace fl L rm dm pr pd px rv am) (flDeflect fl am.gr2e am.ehn (flPn fl (flSpace fl L rm dm pr pd px rv am)).2)) := rfl
  rw [ex, eo]
  generalize flSpace fl L rm dm pr pd px rv am = p at *
  generalize space0 rm dm pr pd px rv am = P at *
  have l1 := abs_le.1 ((len_rev_tri P (dir rm dm)).trans (len_le_of_comp (fun i => (hs i).2)))
  rw [len_dir] at l1
  have l2 := len_le_of_comp (fun i => (hs i).1)
  have l3 := abs_le.1 ((len_rev_tri p P).trans l2)
  have p0 : 0.84 ≤ len p := by norm_num at *; linarith
  have P0 : 0.84 ≤ len P := by norm_num at *; linarith
  have p0' : 0 < len p := lt_of_lt_of_le (by norm_num) p0
  have P0' : 0 < len P := lt_of_lt_of_le (by norm_num) P0
  have u := unit_close p0' P0'
  have u2 : len (fun i => p i / len p - P i / len P) ≤ 2e-15 := by
    refine abs_le_of_sq_le_sq' (a := len (fun i => p i / len p - P i / len P)) ?_ (by norm_num) |>.2
    have s1 := pow_le_pow_left₀ (len_nonneg _) l2 2
    have s2 : (0.84 : ℝ) * 0.84 ≤ len p * len P := mul_le_mul p0 P0 (by norm_num) p0'.le
    have s3 : (0.84 : ℝ) * 0.84 * len (fun i => p i / len p - P i / len P) ^ 2 ≤ len p * len P * len (fun i => p i / len p - P i / len P) ^ 2 := mul_le_mul_of_nonneg_right s2 (sq_nonneg _)
    norm_num at *; linarith
  have n := (C104_dvn R p (le_trans (by norm_num) p0) (le_trans (by norm_num at *; linarith : len p ≤ 2) (by norm_num))).2
  have ep : (eraPn P).2 = fun i => P i / len P := by
    rw [pn_val P0'.ne']; funext i; rw [inv_mul_eq_div]
  have hu : len (fun i => P i / len P) = 1 := by
    have : (fun i => P i / len P) = fun i => (len P)⁻¹ * P i := by funext i; field_simp
    rw [this, len_smul, abs_of_pos (inv_pos.2 P0'), inv_mul_cancel₀ P0'.ne']
  have hc : ∀ i, |(flPn fl p).2 i - P i / len P| ≤ 2.9e-15 := fun i => by
    have a := comp_le_len (fun i => p i / len p - P i / len P) i
    have := abs_sub_le ((flPn fl p).2 i) (p i / len p) (P i / len P)
    have := n i
    norm_num at *; linarith
  rw [ep]
  obtain ⟨a, b, c, d⟩ := flChain_err R hL nz he hg0 hg hv ha ha' ho hc (by norm_num) hu (Or.inr ⟨fun i => (hs i).1.trans (by norm_num), by norm_num at *; linarith⟩)
  exact ⟨a, b, c, d.trans (by norm_num)⟩

/-- A block as in the examples of C45: the parameters meet the hypotheses of both theorems. -/
example : |len demoAm.ehn - 1| ≤ 1e-9 ∧ 0 ≤ demoAm.gr2e ∧ demoAm.gr2e ≤ 2.1e-8 ∧ len demoAm.abv ≤ 1.1e-4 ∧ 0.999 ≤ demoAm.ab1 ∧ demoAm.ab1 ≤ 1 ∧ (∀ i j, |demoAm.mat i j| ≤ 1) ∧
    (∀ i j, |(demoAm.mat.transpose * demoAm.mat) i j - (1 : Mat3) i j| ≤ 1e-10) ∧ |demoAm.pmt| ≤ 100 ∧ ∀ i, |demoAm.eb i| ≤ 1.1 := by
  have e1 : len demoAm.ehn = 1 := by simp [len, demoAm, Fin.sum_univ_three]
  have e2 : len demoAm.abv ≤ 1.1e-4 := by
    refine Real.sqrt_le_iff.2 ⟨by norm_num, ?_⟩
    rw [Fin.sum_univ_three]; simp [demoAm]; norm_num
  refine ⟨by rw [e1]; norm_num, by simp [demoAm]; norm_num, by simp [demoAm]; norm_num, e2, Real.le_sqrt_of_sq_le (by norm_num), Real.sqrt_le_iff.2 ⟨by norm_num, by norm_num⟩, ?_, ?_, by simp [demoAm], ?_⟩
  · intro i j; fin_cases i <;> fin_cases j <;> simp [demoAm]
  · intro i j; simp [demoAm]; norm_num
  · intro i; fin_cases i <;> simp [demoAm] <;> norm_num

/-- C123: palAmpqk in double precision, for any apparent place at least 3.7 degrees from the Sun (the scalar product of its direction in the mean frame with the direction from Sun to Earth is at least -0.998) and a block as above:
the mean place is that of exact arithmetic, with the same number of passes, to 4.5e-14 radians. -/
theorem C123_ampqk {fl : ℝ → ℝ} (R : Rounding fl) {L : Libm} (hL : LibmOK L) (nz : Bool) (am : Amprms) (he : |len am.ehn - 1| ≤ 1e-9) (hg0 : 0 ≤ am.gr2e) (hg : am.gr2e ≤ 2.1e-8)
    (hv : len am.abv ≤ 1.1e-4) (ha : 0.99999998 ≤ am.ab1) (ha' : am.ab1 ≤ 1) (ho : ∀ i j, |(am.mat * am.mat.transpose) i j - (1 : Mat3) i j| ≤ 1e-10) (ra da : ℝ)
    (hs : -0.998 ≤ dot (am.mat.transpose *ᵥ dir ra da) am.ehn) :
    let o := flAmpqk fl L nz ra da am
    let x := palAmpqk ra da am
    0 ≤ o.1 ∧ o.1 ≤ flD2PI fl ∧ |o.2| ≤ π / 2 + 4.5e-16 ∧ len (fun i => dir o.1 o.2 i - dir x.1 x.2 i) ≤ 4.5e-14 := by
  intro o x
  have ho' : ∀ i j, |(am.mat.transpose.transpose * am.mat.transpose) i j - (1 : Mat3) i j| ≤ 1e-10 := by rw [Matrix.transpose_transpose]; exact ho
  have l2 := near_len2 ho' (dir ra da)
  rw [len_dir] at l2
  have h2 := fun i => flRxp_comp R (m := am.mat.transpose) ho' (flS2c_err R hL ra da) (by norm_num) (by rw [len_dir]; norm_num) i
  have ex : x = mapFinish 1 ((ampDefl am ((ampAberr am (am.mat.transpose *ᵥ dir ra da))^[2] (am.mat.transpose *ᵥ dir ra da)))^[5] ((ampAberr am (am.mat.transpose *ᵥ dir ra da))^[2] (am.mat.transpose *ᵥ dir ra da))) := by
    change palAmpqk ra da am = _
    unfold palAmpqk mapFinish
    dsimp only
    rw [eraS2c_eq, eraTrxp_eq, eraRxp_eq, one_mulVec]
  have eo : o = (let v := (flAmpDefl fl am ((flAmpAberr fl am (flRxp fl am.mat.transpose (flS2c fl L ra da)))^[2] (flRxp fl am.mat.transpose (flS2c fl L ra da))))^[5] ((flAmpAberr fl am (flRxp fl am.mat.transpose (flS2c fl L ra da)))^[2] (flRxp fl am.mat.transpose (flS2c fl L ra da)))
      (flAnp fl (flC2s fl L nz v).1, (flC2s fl L nz v).2)) := by
    change flAmpqk fl L nz ra da am = _
    unfold flAmpqk flTrxp
    rw [eraTr_eq]
  rw [ex, eo]
  generalize flRxp fl am.mat.transpose (flS2c fl L ra da) = p2 at *
  generalize am.mat.transpose *ᵥ dir ra da = P2 at *
  have l2' : |len P2 - 1| ≤ 2e-9 := by rw [abs_le]; constructor <;> norm_num at * <;> linarith
  have h2' : ∀ i, |p2 i - P2 i| ≤ 1.8e-15 := fun i => (h2 i).trans (by norm_num)
  obtain ⟨b1, b2, b3⟩ := flAmpAberr_err R hv ha ha' h2' (by norm_num) l2' (fun i => (h2' i).trans (by norm_num)) (by norm_num at *; linarith)
  obtain ⟨c1, c2, c3⟩ := flAmpAberr_err R hv ha ha' h2' (by norm_num) l2' (fun i => (b1 i).trans (by norm_num)) (b2.le.trans (by norm_num))
  have i2 : ∀ (f : Vec3 → Vec3) (v : Vec3), f^[2] v = f (f v) := fun f v => rfl
  rw [i2, i2]
  generalize ampAberr am P2 (ampAberr am P2 P2) = P1 at *
  generalize flAmpAberr fl am p2 (flAmpAberr fl am p2 p2) = p1 at *
  have c1' : ∀ i, |p1 i - P1 i| ≤ 4.86e-15 := fun i => (c1 i).trans (by norm_num)
  have lE : len am.ehn ≤ 1.001 := by have := abs_le.1 he; norm_num at *; linarith
  have dd : ∀ (a b : Vec3) (r : ℝ), len (fun i => a i - b i) ≤ r → dot b am.ehn - 1.001 * r ≤ dot a am.ehn := fun a b r h => by
    have k := (abs_le.1 (dot_le_len (fun i => a i - b i) am.ehn)).1
    have k2 : len (fun i => a i - b i) * len am.ehn ≤ r * 1.001 := mul_le_mul h lE (len_nonneg _) ((len_nonneg _).trans h)
    have e : dot (fun i => a i - b i) am.ehn = dot a am.ehn - dot b am.ehn := by rw [dot_eq, dot_eq, dot_eq]; ring
    linarith
  have hP1 := dd _ _ _ c3
  have it : ∀ n : ℕ, (∀ i, |(flAmpDefl fl am p1)^[n] p1 i - (ampDefl am P1)^[n] P1 i| ≤ 1.19e-14) ∧ len ((ampDefl am P1)^[n] P1) = 1 ∧ len (fun i => (ampDefl am P1)^[n] P1 i - P1 i) ≤ 1e-4 := by
    intro n
    induction n with
    | zero => exact ⟨fun i => (c1' i).trans (by norm_num), c2, by simp [len]; norm_num⟩
    | succ n ih =>
      obtain ⟨i1, i2, i3⟩ := ih
      have hX := dd _ _ _ i3
      rw [Function.iterate_succ', Function.iterate_succ']
      obtain ⟨r1, r2, r3⟩ := flAmpDefl_err R he hg0 hg c1' (by norm_num) c2 i1 (by norm_num) i2 (by norm_num at *; linarith)
      exact ⟨fun i => (r1 i).trans (by norm_num), r2, r3⟩
  obtain ⟨r1, r2, -⟩ := it 5
  generalize (flAmpDefl fl am p1)^[5] p1 = v at *
  generalize (ampDefl am P1)^[5] P1 = V at *
  have hu := finish_dir 1 V
  rw [one_mulVec] at hu
  obtain ⟨a1, a2, a3, a4⟩ := flC2s_dir R hL nz v V _ r1 (by norm_num) (by rw [r2]; norm_num) (by rw [r2]; norm_num) _ hu
  rw [flC2s_anpm R hL nz r1 (by norm_num) (by rw [r2]; norm_num) (by rw [r2]; norm_num)] at a3 a4
  exact ⟨a1, a2, a3, a4.trans (by norm_num)⟩

/-- The block of the example above meets the hypotheses, with a star across from the Sun. -/
example : 0.99999998 ≤ demoAm.ab1 ∧ (∀ i j, |(demoAm.mat * demoAm.mat.transpose) i j - (1 : Mat3) i j| ≤ 1e-10) ∧ -0.998 ≤ dot (demoAm.mat.transpose *ᵥ dir (π / 2) 0) demoAm.ehn := by
  refine ⟨Real.le_sqrt_of_sq_le (by norm_num), fun i j => by simp [demoAm]; norm_num, ?_⟩
  rw [dot_eq]
  simp [demoAm, dir]
  norm_num

end Pal.Props
