import Verif.Props.OrbitPlan
import Verif.Props.Moon
import Verif.Props.Prec06

/-!
# C118: the apparent size of the Moon and the Sun
-/

namespace Pal.Props
open Real Pal.Spec Pal.Orbit

/-- The observer is between the polar and the equatorial radius of the Earth from its centre. -/
theorem pvobs_len (phi st : ℝ) : 6356.752 / 149597870.7 ≤ len (palPvobs phi 0 st).1 ∧ len (palPvobs phi 0 st).1 ≤ 6378.137 / 149597870.7 := by
  have hcs := sin_sq_add_cos_sq phi
  set w : ℝ := (1 - 1 / 298.257223563) * (1 - 1 / 298.257223563) with hw
  have hw0 : (6356.752 / 6378.137) ^ 2 ≤ w := by rw [hw]; norm_num
  have hw00 : (1 : ℝ) / 2 < w := by rw [hw]; norm_num
  have hw1 : w < 1 := by rw [hw]; norm_num
  clear_value w
  set d : ℝ := cos phi * cos phi + w * sin phi * sin phi with hd
  have hs0 : 0 ≤ sin phi ^ 2 := sq_nonneg _
  have hs1 : sin phi ^ 2 ≤ 1 := by have := sq_nonneg (cos phi); linarith
  have hdv : d = 1 - (1 - w) * sin phi ^ 2 := by rw [hd]; linear_combination hcs
  have hd0 : 0 < d := by
    rw [hdv]
    have : (1 - w) * sin phi ^ 2 ≤ (1 - w) * 1 := mul_le_mul_of_nonneg_left hs1 (by linarith)
    linarith
  have hq : dot (palPvobs phi 0 st).1 (palPvobs phi 0 st).1 = (6378.137 / 149597870.7) ^ 2 * ((cos phi ^ 2 + w ^ 2 * sin phi ^ 2) / d) := by
    have hst := sin_sq_add_cos_sq st
    unfold palPvobs gd2gcWGS84 erfaDAU
    dsimp only
    rw [← hw, ← hd]
    have hr : √d * √d = d := mul_self_sqrt hd0.le
    have hr0 : √d ≠ 0 := (sqrt_pos.2 hd0).ne'
    simp only [dot_eq, cos_zero, add_zero, mul_one, Matrix.cons_val_zero, Matrix.cons_val_one, Matrix.cons_val]
    have e : (6378.137 / 149597870.7 : ℝ) ^ 2 * ((cos phi ^ 2 + w ^ 2 * sin phi ^ 2) / d) = (6378.137 / 149597870.7 : ℝ) ^ 2 * ((cos phi ^ 2 + w ^ 2 * sin phi ^ 2) / (√d * √d)) := by rw [hr]
    rw [e]
    generalize √d = q at hr0
    field_simp
    norm_num
    ring
  clear_value d
  have hc : cos phi ^ 2 = 1 - sin phi ^ 2 := by linarith
  generalize sin phi ^ 2 = x at *
  generalize cos phi ^ 2 = y at *
  subst hc hdv
  have hx : 0 ≤ (1 - x) * x := mul_nonneg (by linarith) hs0
  rw [len_eq]
  constructor
  · refine le_sqrt_of_sq_le ?_
    rw [hq]
    have : w ≤ (1 - x + w ^ 2 * x) / (1 - (1 - w) * x) := by
      rw [le_div_iff₀ hd0]
      have : 0 ≤ (1 - w) * (1 - x) := mul_nonneg (by linarith) (by linarith)
      linarith
    calc (6356.752 / 149597870.7 : ℝ) ^ 2 = (6378.137 / 149597870.7 : ℝ) ^ 2 * (6356.752 / 6378.137) ^ 2 := by norm_num
      _ ≤ _ := mul_le_mul_of_nonneg_left (hw0.trans this) (by positivity)
  · refine sqrt_le_iff.2 ⟨by norm_num, ?_⟩
    rw [hq]
    have : (1 - x + w ^ 2 * x) / (1 - (1 - w) * x) ≤ 1 := by
      rw [div_le_one hd0]
      have : 0 ≤ w * (1 - w) * x := mul_nonneg (mul_nonneg (by linarith) (by linarith)) hs0
      linarith
    calc _ ≤ (6378.137 / 149597870.7 : ℝ) ^ 2 * 1 := mul_le_mul_of_nonneg_left this (by positivity)
      _ = _ := by ring

/-- Lengths of differences. -/
theorem len_shift (a b : Vec3) : |len (a - b) - len a| ≤ len b := by
  have h1 := len_sub_le a b
  have h2 := len_add_le (fun i => a i - b i) b
  have e : (fun i => a i - b i + b i) = a := by funext i; ring
  rw [e] at h2
  have e2 : (fun i => a i - b i) = a - b := rfl
  rw [e2] at h1 h2
  rw [abs_le]; constructor <;> linarith

/-- The angle that a sphere of radius R subtends at a distance r. -/
theorem diam_range {R r diam lo hi : ℝ} (h0 : 0 < diam) (h1 : diam ≤ π) (hr : 0 < r) (h : sin (diam / 2) * r = R) (hlo : lo * r ≤ 2 * R) (hhi0 : 0 < hi)
    (hhi : R < (hi / 2 - (hi / 2) ^ 3 / 6) * r) : lo < diam ∧ diam < hi := by
  have hs : sin (diam / 2) < diam / 2 := sin_lt (by linarith)
  constructor
  · by_contra hc
    push Not at hc
    have : sin (diam / 2) * r < lo / 2 * r := mul_lt_mul_of_pos_right (by linarith) hr
    linarith
  · by_contra hc
    push Not at hc
    have h2 : sin (hi / 2) ≤ sin (diam / 2) := sin_le_sin_of_le_of_le_pi_div_two (by linarith [pi_pos]) (by linarith) (by linarith)
    have h3 : hi / 2 - (hi / 2) ^ 3 / 6 < sin (hi / 2) := sin_gt_sub_cube (by linarith)
    have := mul_lt_mul_of_pos_right (h3.trans_le h2) hr
    linarith

/-- **C118** For thirty centuries before and after 1900, everywhere on the Earth (and whatever the nutation series and sidereal time), palRdplan gives the Moon (body 3) an apparent diameter between 28.1 and 34.3
arcminutes.  It corresponds to a distance that differs from that of palDmoon by no more than the equatorial radius of the Earth. -/
theorem C118_moon (T : Theory) (plan94 : ℝ → ℝ → ℤ → PV × ℤ) (gst : ℝ → ℝ) (date elong phi : ℝ) (hd : |date - 15019.5| ≤ 1095750) :
    ∃ ra dec diam r, palRdplan T plan94 palDmoon gst date 3 elong phi = some (ra, dec, diam) ∧ sin (diam / 2) * r = 1738 ∧ |r - len (palDmoon date).p * 149597870| ≤ 6378.137 ∧
      28.1 / 60 * (π / 180) < diam ∧ diam < 34.3 / 60 * (π / 180) := by
  obtain ⟨m1, m2⟩ := C88_distance date hd
  obtain ⟨-, o2⟩ := pvobs_len phi (gst date + elong)
  have hN : IsRotation (palNut T date) := deuler_rot _ _ _ _
  obtain ⟨-, h⟩ := C68_rdplan T plan94 palDmoon gst date 3 elong phi _ rfl _ _ rfl rfl
  set P := (geoBody (palPrenut T 2000 date) (palNut T date) (fun k => (palPlanet plan94 date k).1) (palDmoon date) 3).p - (observerAt gst date elong phi).p with hP
  have hl : |len P - len (palDmoon date).p| ≤ 6378.137 / 149597870.7 := by
    have e : P = (palNut T date).mulVec (palDmoon date).p - (palPvobs phi 0 (gst date + elong)).1 := rfl
    rw [e, ← rot_len hN (palDmoon date).p]
    exact (len_shift _ _).trans o2
  have hl' := abs_le.1 hl
  have hR : bodyRadius 3 = 1738 := rfl
  rw [hR] at h
  obtain ⟨ra, dec, diam, e, -, d0, d1, ds⟩ := h (by norm_num at *; linarith [hl'.1])
  have hpi := pi_gt_d4
  have hpi2 := pi_lt_d4
  have hr : |len P * 149597870 - len (palDmoon date).p * 149597870| ≤ 6378.137 := by
    rw [← sub_mul, abs_mul, abs_of_pos (show (0 : ℝ) < 149597870 by norm_num)]
    calc _ ≤ 6378.137 / 149597870.7 * 149597870 := mul_le_mul_of_nonneg_right hl (by norm_num)
      _ ≤ _ := by norm_num
  have hr' := abs_le.1 hr
  have r1 : 349210 < len P * 149597870 := by norm_num at *; linarith [hr'.1]
  have r2 : len P * 149597870 < 424810 := by norm_num at *; linarith [hr'.2]
  refine ⟨ra, dec, diam, len P * 149597870, e, ds, hr, diam_range d0 d1 (by linarith) ds ?_ (by positivity) ?_⟩
  · have : 28.1 / 60 * (π / 180) * (len P * 149597870) ≤ 28.1 / 60 * (3.1416 / 180) * 424810 := by
      refine mul_le_mul (by linarith) r2.le (by linarith) (by norm_num)
    linarith
  · have e1 : 0.00997 ≤ 34.3 / 60 * (π / 180) := by norm_num at *; linarith
    have e2 : 34.3 / 60 * (π / 180) ≤ 0.00998 := by norm_num at *; linarith
    generalize 34.3 / 60 * (π / 180) = x at e1 e2
    have e3 : (x / 2) ^ 3 ≤ (0.00998 / 2) ^ 3 := pow_le_pow_left₀ (by linarith) (by linarith) 3
    have e4 : 0.004984 ≤ x / 2 - (x / 2) ^ 3 / 6 := by norm_num at e3 e1 ⊢; linarith
    have : (0.004984 : ℝ) * 349210 ≤ (x / 2 - (x / 2) ^ 3 / 6) * (len P * 149597870) := mul_le_mul e4 r1.le (by norm_num) (by linarith)
    linarith

/-- **C118** Whenever the ephemeris puts the Earth-Moon barycentre between 0.98 and 1.02 AU from the Sun (and the precession-nutation matrix is a rotation), palRdplan gives the Sun (body 0) an apparent diameter
between 31.3 and 32.7 arcminutes, everywhere on the Earth. -/
theorem C118_sun (T : Theory) (hT : ∀ a b, IsRotation (T.pnm06a a b)) (plan94 : ℝ → ℝ → ℤ → PV × ℤ) (gst : ℝ → ℝ) (date elong phi : ℝ) (hd : |date - 15019.5| ≤ 1095750)
    (h1 : 0.98 ≤ len (plan94 2400000.5 date 3).1.p) (h2 : len (plan94 2400000.5 date 3).1.p ≤ 1.02) :
    ∃ ra dec diam, palRdplan T plan94 palDmoon gst date 0 elong phi = some (ra, dec, diam) ∧ 31.3 / 60 * (π / 180) < diam ∧ diam < 32.7 / 60 * (π / 180) := by
  obtain ⟨m1, m2⟩ := C88_distance date hd
  obtain ⟨-, o2⟩ := pvobs_len phi (gst date + elong)
  obtain ⟨-, hN, hM⟩ := C43_rotations T hT 2000 date
  replace hN : IsRotation (palNut T date) := deuler_rot _ _ _ _
  obtain ⟨-, h⟩ := C68_rdplan T plan94 palDmoon gst date 0 elong phi _ rfl _ _ rfl rfl
  set P := (geoBody (palPrenut T 2000 date) (palNut T date) (fun k => (palPlanet plan94 date k).1) (palDmoon date) 0).p - (observerAt gst date elong phi).p with hP
  set E := (plan94 2400000.5 date 3).1.p with hE
  have hl : |len P - len E| ≤ 1 / 10000 := by
    have e : P = -((palPrenut T 2000 date).mulVec E - (0.012150581 : ℝ) • (palNut T date).mulVec (palDmoon date).p) - (palPvobs phi 0 (gst date + elong)).1 := rfl
    have k1 := abs_le.1 (len_shift (-((palPrenut T 2000 date).mulVec E - (0.012150581 : ℝ) • (palNut T date).mulVec (palDmoon date).p)) (palPvobs phi 0 (gst date + elong)).1)
    have k2 := abs_le.1 (len_shift ((palPrenut T 2000 date).mulVec E) ((0.012150581 : ℝ) • (palNut T date).mulVec (palDmoon date).p))
    have k3 : len ((0.012150581 : ℝ) • (palNut T date).mulVec (palDmoon date).p) = 0.012150581 * len (palDmoon date).p := by
      have := len_smul 0.012150581 ((palNut T date).mulVec (palDmoon date).p)
      rw [rot_len hN, abs_of_pos (by norm_num)] at this
      exact this
    have k4 : ∀ v : Vec3, len (-v) = len v := by
      intro v
      have := len_smul (-1) v
      rw [abs_neg, abs_one, one_mul] at this
      rw [← this]; congr 1; funext i; simp
    rw [k4, ← e] at k1
    rw [rot_len hM, k3] at k2
    rw [abs_le]
    norm_num at *
    constructor <;> linarith [k1.1, k1.2, k2.1, k2.2]
  have hl' := abs_le.1 hl
  have hR : bodyRadius 0 = 696000 := rfl
  rw [hR] at h
  have r1 : 146590000 < len P * 149597870 := by norm_num at *; linarith [hl'.1]
  have r2 : len P * 149597870 < 152605000 := by norm_num at *; linarith [hl'.2]
  obtain ⟨ra, dec, diam, e, -, d0, d1, ds⟩ := h (by linarith)
  have hpi := pi_gt_d4
  have hpi2 := pi_lt_d4
  refine ⟨ra, dec, diam, e, diam_range d0 d1 (by linarith) ds ?_ (by positivity) ?_⟩
  · have : 31.3 / 60 * (π / 180) * (len P * 149597870) ≤ 31.3 / 60 * (3.1416 / 180) * 152605000 := by
      refine mul_le_mul (by linarith) r2.le (by linarith) (by norm_num)
    linarith
  · have e1 : 0.009511 ≤ 32.7 / 60 * (π / 180) := by norm_num at *; linarith
    have e2 : 32.7 / 60 * (π / 180) ≤ 0.00952 := by norm_num at *; linarith
    generalize 32.7 / 60 * (π / 180) = x at e1 e2
    have e3 : (x / 2) ^ 3 ≤ (0.00952 / 2) ^ 3 := pow_le_pow_left₀ (by linarith) (by linarith) 3
    have e4 : 0.004755 ≤ x / 2 - (x / 2) ^ 3 / 6 := by norm_num at e3 e1 ⊢; linarith
    have : (0.004755 : ℝ) * 146590000 ≤ (x / 2 - (x / 2) ^ 3 / 6) * (len P * 149597870) := mul_le_mul e4 r1.le (by norm_num) (by linarith)
    linarith

/-- The hypotheses are met: a date in 2000, an Earth at 1 AU, the precession of IAU 2006. -/
example : |(51544.5 : ℝ) - 15019.5| ≤ 1095750 ∧ (0.98 : ℝ) ≤ len (![1, 0, 0] : Vec3) ∧ len (![1, 0, 0] : Vec3) ≤ 1.02 ∧ ∀ a b, IsRotation ((iau2006 fun _ _ => (0, 0)).pnm06a a b) := by
  have hl : len (![1, 0, 0] : Vec3) = 1 := by rw [len_eq]; simp [dot_eq]
  refine ⟨by norm_num [abs_of_pos], by rw [hl]; norm_num, by rw [hl]; norm_num, (C97_rotations _).2.1⟩

end Pal.Props
