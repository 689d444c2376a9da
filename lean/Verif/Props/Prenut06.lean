import Verif.Lemmas.Prenut06
import Verif.Props.Prec06

/-!
# palPrenut from any epoch

palPrenut goes back to J2000 with another set of IAU 2006 angles than palPrec uses.
-/

namespace Pal.Props
open Pal Pal.Spec Real Matrix

/-- **C97** (palPrenut from any epoch) For every epoch within a century of 2000 and every date and nutation, palPrenut is precession from the epoch back to J2000 followed by palPrenut from 2000 to the date: the vector it gives
differs by at most 0.11 arcsec plus 8.5 arcsec times the square of the number of centuries between epoch and 2000. -/
theorem C97_prenut_epoch (nut : ℝ → ℝ → ℝ × ℝ) (ep date : ℝ) (h0 : 1900 ≤ ep) (h1 : ep ≤ 2100) (x : Vec3) :
    len (fun i => (palPrenut (iau2006 nut) ep date *ᵥ x) i - (palPrenut (iau2006 nut) 2000 date *ᵥ ((fromJ2000 (iau2006 nut) ep).transpose *ᵥ x)) i) ≤
      (0.11 + 8.5 * ((ep - 2000) / 100) ^ 2) * (π / 648000) * len x := by
  have hc : cent06 rMJD0 (51544.5 + (ep - 2000) * 365.25) = (ep - 2000) / 100 := by unfold cent06 rMJD0; norm_num; ring
  have ht : |cent06 rMJD0 (51544.5 + (ep - 2000) * 365.25)| ≤ 1 := by rw [hc, abs_le]; constructor <;> linarith
  have hs := p06e_near rMJD0 (51544.5 + (ep - 2000) * 365.25) ht
  have hm : eraPmat06 rMJD0 (51544.5 + (ep - 2000) * 365.25) = eraPmat06 2451545 ((ep - 2000) * 365.25) := by
    unfold eraPmat06 eraPfw06 eraObl06
    rw [hc, cent_epoch]
  have h2 : palPrenut (iau2006 nut) 2000 date = eraPnm06a nut rMJD0 date := by
    have h := C43_prenut (iau2006 nut) 2000 date
    have hc : cent06 rMJD0 (51544.5 + (2000 - 2000) * 365.25) = 0 := by unfold cent06 rMJD0; norm_num
    dsimp only [iau2006] at h
    unfold eraP06e at h
    dsimp only at h
    rw [hc] at h
    simp only [mul_zero, zero_mul, add_zero, neg_zero, axisZ_zero, one_mul, mul_one] at h
    rw [axisX_inv', mul_one] at h
    exact h
  have h3 := C43_prenut (iau2006 nut) ep date
  dsimp only [iau2006] at h3
  rw [hc, hm] at hs
  have goal : Small (palPrenut (iau2006 nut) ep date - palPrenut (iau2006 nut) 2000 date * (fromJ2000 (iau2006 nut) ep).transpose) ((0.11 + 8.5 * ((ep - 2000) / 100) ^ 2) * (π / 648000)) := by
    have hA : IsRotation (axisZ (eraP06e rMJD0 (51544.5 + (ep - 2000) * 365.25)).chia * axisX (-(eraP06e rMJD0 (51544.5 + (ep - 2000) * 365.25)).oma) *
        axisZ (-(eraP06e rMJD0 (51544.5 + (ep - 2000) * 365.25)).psia) * axisX (eraP06e rMJD0 (51544.5 + (ep - 2000) * 365.25)).eps0) :=
      rot_mul (rot_mul (rot_mul (rot_axisZ _) (rot_axisX _)) (rot_axisZ _)) (rot_axisX _)
    generalize axisZ (eraP06e rMJD0 (51544.5 + (ep - 2000) * 365.25)).chia * axisX (-(eraP06e rMJD0 (51544.5 + (ep - 2000) * 365.25)).oma) *
        axisZ (-(eraP06e rMJD0 (51544.5 + (ep - 2000) * 365.25)).psia) * axisX (eraP06e rMJD0 (51544.5 + (ep - 2000) * 365.25)).eps0 = A at *
    have e : palPrenut (iau2006 nut) ep date = eraPnm06a nut rMJD0 date * A.transpose := by
      rw [← h3, Matrix.mul_assoc, hA.1, mul_one]; rfl
    have ht := hs.transp.lmul (pnm06a_rot nut rMJD0 date)
    rw [Matrix.mul_sub, ← e, ← h2] at ht
    exact ht
  have h := goal x
  rw [Matrix.sub_mulVec, ← Matrix.mulVec_mulVec] at h
  exact h

example : (1900 : ℝ) ≤ 1950 ∧ (1950 : ℝ) ≤ 2100 ∧ (0.11 + 8.5 * ((1950 - 2000) / 100) ^ 2 : ℝ) < 2.3 := by norm_num

end Pal.Props
