import Verif.Model.FlObsTable
import Verif.Model.ObsTable
import Verif.Props.FlDafin
import Verif.Lemmas.FlPcd5

/-!
# The station coordinates of palObs in double precision: property C155
-/

namespace Pal.Props
open Real Pal
variable {fl : ℝ → ℝ}

/-- C155 A station coordinate written in the table of palObs as whole degrees, whole minutes below 60 and seconds is, in double precision, the angle of the exact table to 5.5e-16 of itself, to the west and north as well as (with the opposite sign, bit for bit) to the east and south. -/
theorem C155_station_angles (R : Rounding fl) (d m : ℕ) (s : ℚ) (hd : d ≤ 10 ^ 9) (hm : m < 60) (h0 : 0 ≤ s) (hs : s ≤ 59.999999999999) :
    |flWestNorth fl d m s - (westNorth d m s : ℚ) * Spec.arcsec| ≤ 5.5e-16 * ((westNorth d m s : ℚ) * Spec.arcsec) + 1e-190 ∧
    |flEastSouth fl d m s - (eastSouth d m s : ℚ) * Spec.arcsec| ≤ 5.5e-16 * ((westNorth d m s : ℚ) * Spec.arcsec) + 1e-190 ∧
    flEastSouth fl d m s = -flWestNorth fl d m s := by
  have s0 : (0 : ℝ) ≤ s := by exact_mod_cast h0
  have s1 : (s : ℝ) ≤ 59.999999999999 := by
    have : (s : ℝ) ≤ ((59.999999999999 : ℚ) : ℝ) := by exact_mod_cast hs
    norm_num at this ⊢; exact this
  have hd2 : fl (flDAS2R fl) = flDAS2R fl := R.idem' (by rw [abs_of_pos] <;> norm_num)
  have e : flEastSouth fl d m s = -flWestNorth fl d m s := by
    unfold flEastSouth flWestNorth
    rw [neg_one_mul, R.odd, hd2, neg_mul, R.odd]
  obtain ⟨a, h1, h2⟩ := C153_decodes R false d m s hd hm s0 s1
  have ea : flWestNorth fl d m s = a := by
    unfold flDafin at h1
    have hj := (Prod.mk.inj h1).1
    have h3 := (Prod.mk.inj h1).2
    rw [hj, if_pos le_rfl] at h3
    rw [← Option.some.inj h3]
    unfold flDafinAngle flWestNorth
    simp only [Bool.false_eq_true, if_false, lt_irrefl]
    rw [fl_nat R (hd.trans (by norm_num)), fl_nat R (by omega), abs_of_nonneg (Nat.cast_nonneg d)]
  have w : ((westNorth d m s : ℚ) : ℝ) = 3600 * d + 60 * m + s := by unfold westNorth; push_cast; ring
  have w' : ((eastSouth d m s : ℚ) : ℝ) = -((westNorth d m s : ℚ) : ℝ) := by unfold eastSouth; push_cast; ring
  have main : |flWestNorth fl d m s - (westNorth d m s : ℚ) * Spec.arcsec| ≤ 5.5e-16 * ((westNorth d m s : ℚ) * Spec.arcsec) + 1e-190 := by
    rw [ea, w]
    simpa using h2
  refine ⟨main, ?_, e⟩
  rw [e, w', show -flWestNorth fl d m s - -((westNorth d m s : ℚ) : ℝ) * Spec.arcsec = -(flWestNorth fl d m s - (westNorth d m s : ℚ) * Spec.arcsec) by ring, abs_neg]
  exact main

/-- With IEEE doubles: the latitude of the William Herschel Telescope, 28° 45' 38.1" north, is 103538.1 arcseconds to 3e-16 radian, and the longitude of the AAT is negative (east). -/
example : |flWestNorth ieee 28 45 ((38.1 : ℚ) : ℝ) - 103538.1 * Spec.arcsec| ≤ 3e-16 ∧ flEastSouth ieee 149 3 ((57.91 : ℚ) : ℝ) < 0 := by
  have d0 : 4.84e-6 ≤ Spec.arcsec := das2r_bounds.1
  have d1 : Spec.arcsec ≤ 4.85e-6 := das2r_bounds.2.1
  have z : (1e-190 : ℝ) ≤ 1e-30 := by norm_num
  constructor
  · have h := (C155_station_angles ieee_rounding 28 45 38.1 (by norm_num) (by norm_num) (by norm_num) (by norm_num)).1
    have w : ((westNorth (28 : ℕ) (45 : ℕ) 38.1 : ℚ) : ℝ) = 103538.1 := by unfold westNorth; norm_num
    rw [w] at h
    refine h.trans ?_
    generalize (1e-190 : ℝ) = t at *
    norm_num at *; linarith
  · have h := (abs_le.1 (C155_station_angles ieee_rounding 149 3 57.91 (by norm_num) (by norm_num) (by norm_num) (by norm_num)).2.1).2
    have w : ((eastSouth (149 : ℕ) (3 : ℕ) 57.91 : ℚ) : ℝ) = -536637.91 := by unfold eastSouth westNorth; norm_num
    have w' : ((westNorth (149 : ℕ) (3 : ℕ) 57.91 : ℚ) : ℝ) = 536637.91 := by unfold westNorth; norm_num
    rw [w, w'] at h
    generalize (1e-190 : ℝ) = t at *
    norm_num at *; linarith

end Pal.Props
