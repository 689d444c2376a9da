import Verif.Props.Rot
import Verif.Props.Sphere

/-!
# C115: the parallactic angle
-/

namespace Pal.Props
open Real Matrix Pal Pal.Spec

/-- **C115** The parallactic angle is the bearing of the zenith: with local sidereal time `lst` the star has right ascension `lst - ha` and the zenith is at right ascension `lst`, declination `phi`.
In particular (C75) sin(zenith distance) times its cosine and sine are the components of the zenith towards the north and the east at the star. -/
theorem C115_bearing_of_zenith (ha dec phi lst : ℝ) : palPa ha dec phi = palDbear (lst - ha) dec lst phi := by
  unfold palPa palDbear eraPas
  dsimp only
  rw [show lst - (lst - ha) = ha by ring, mul_comm (sin ha) (cos phi)]
  by_cases h : cos phi * sin ha = 0 ∧ sin phi * cos dec - cos phi * sin dec * cos ha = 0
  · rw [if_pos h, if_neg (by rw [h.1, h.2]; simp), h.1]
    exact atan2_zero_pos (by norm_num)
  · rw [if_neg h, if_pos]
    rw [not_and_or] at h
    tauto

/-- The elevation is an arc tangent with a denominator that is not negative. -/
theorem pa_cos_el (ha dec phi : ℝ) : 0 ≤ cos (palDe2h ha dec phi).2 := by
  have h : |(palDe2h ha dec phi).2| ≤ π / 2 := abs_atan2_le (Real.sqrt_nonneg _)
  exact cos_nonneg_of_mem_Icc (abs_le.1 h)

/-- **C115** (components) With the elevation given by palDe2h: cos(el) times the sine and cosine of the parallactic angle. -/
theorem C115_components (ha dec phi : ℝ) :
    cos (palDe2h ha dec phi).2 * sin (palPa ha dec phi) = cos phi * sin ha ∧
    cos (palDe2h ha dec phi).2 * cos (palPa ha dec phi) = sin phi * cos dec - cos phi * sin dec * cos ha := by
  have hz : sin (palDe2h ha dec phi).2 = cos ha * cos dec * cos phi + sin dec * sin phi := by
    have := congrFun (de2h_dir ha dec phi) 2
    simpa [dir] using this
  have h0 := pa_cos_el ha dec phi
  generalize (palDe2h ha dec phi).2 = E at *
  have e : cos E = √((sin phi * cos dec - cos phi * sin dec * cos ha) * (sin phi * cos dec - cos phi * sin dec * cos ha) + cos phi * sin ha * (cos phi * sin ha)) := by
    rw [eq_comm, Real.sqrt_eq_iff_mul_self_eq (add_nonneg (mul_self_nonneg _) (mul_self_nonneg _)) h0]
    have q := sin_sq_add_cos_sq E
    rw [hz] at q
    have q1 := sin_sq_add_cos_sq ha
    have q2 := sin_sq_add_cos_sq dec
    have q3 := sin_sq_add_cos_sq phi
    grind
  have hp : palPa ha dec phi = atan2 (cos phi * sin ha) (sin phi * cos dec - cos phi * sin dec * cos ha) := by
    unfold palPa
    dsimp only
    split_ifs with h
    · rw [h.1, h.2, atan2_zero]; exact atan2_zero_pos (by norm_num)
    · rfl
  rw [hp, e]
  exact ⟨hyp_sin_atan2 _ _, hyp_cos_atan2 _ _⟩

/-- Horizon components of a second point about the first, from the equatorial components. -/
theorem pa_turn (h1 d1 h2 d2 p : ℝ) :
    let x1 := -cos h1 * cos d1 * sin p + sin d1 * cos p
    let y1 := -sin h1 * cos d1
    let z1 := cos h1 * cos d1 * cos p + sin d1 * sin p
    let x2 := -cos h2 * cos d2 * sin p + sin d2 * cos p
    let y2 := -sin h2 * cos d2
    let z2 := cos h2 * cos d2 * cos p + sin d2 * sin p
    let s := cos p * sin h1
    let c := sin p * cos d1 - cos p * sin d1 * cos h1
    let n := -z1 * (x1 * x2 + y1 * y2) + (x1 * x1 + y1 * y1) * z2
    let e := x2 * y1 - y2 * x1
    (x1 * x1 + y1 * y1) * (sin d2 * cos d1 - cos d2 * sin d1 * cos (h1 - h2)) = c * n - s * e ∧
    (x1 * x1 + y1 * y1) * (sin (h1 - h2) * cos d2) = s * n + c * e := by
  rw [cos_sub, sin_sub]
  have q1 := sin_sq_add_cos_sq h1
  have q2 := sin_sq_add_cos_sq d1
  have q3 := sin_sq_add_cos_sq p
  dsimp only
  generalize sin h1 = sh at *
  generalize cos h1 = ch at *
  generalize sin d1 = sd at *
  generalize cos d1 = cd at *
  generalize sin p = sp at *
  generalize cos p = cp at *
  constructor <;> grind

/-- **C115** (field rotation) The parallactic angle turns position angles in the horizon system into position angles in the equatorial system: for a star not at the zenith or nadir and any second
point neither coincident nor opposite, the bearing of the second point measured from the pole (towards increasing right ascension, so with hour angles negated) is its bearing measured from the
zenith (with azimuths negated, since they too run the other way) plus the parallactic angle, up to whole turns; and the two points are equally far apart in either system. -/
theorem C115_field_rotation (ha1 dec1 ha2 dec2 phi : ℝ) (hz : cos (palDe2h ha1 dec1 phi).2 ≠ 0) (hs : sin (palDsep (-ha1) dec1 (-ha2) dec2) ≠ 0) :
    let h1 := palDe2h ha1 dec1 phi
    let h2 := palDe2h ha2 dec2 phi
    SameAngle (palDbear (-ha1) dec1 (-ha2) dec2) (palDbear (-h1.1) h1.2 (-h2.1) h2.2 + palPa ha1 dec1 phi) ∧
    palDsep (-h1.1) h1.2 (-h2.1) h2.2 = palDsep (-ha1) dec1 (-ha2) dec2 := by
  intro h1 h2
  have k := pa_turn ha1 dec1 ha2 dec2 phi
  dsimp only at k
  obtain ⟨c1, c2⟩ := C115_components ha1 dec1 phi
  have d1 := de2h_dir ha1 dec1 phi
  have d2 := de2h_dir ha2 dec2 phi
  obtain ⟨b1, b2, -, -⟩ := C75_dbear (-ha1) dec1 (-ha2) dec2
  obtain ⟨g1, g2, -, -⟩ := C75_dbear (-h1.1) h1.2 (-h2.1) h2.2
  change cos h1.2 ≠ 0 at hz
  change dir h1.1 h1.2 = _ at d1
  change dir h2.1 h2.2 = _ at d2
  change cos h1.2 * _ = _ at c1
  change cos h1.2 * _ = _ at c2
  obtain ⟨-, s1, s2, s3, -, -⟩ := C31_dsep (-ha1) dec1 (-ha2) dec2 0 0
  obtain ⟨-, t1, t2, t3, -, -⟩ := C31_dsep (-h1.1) h1.2 (-h2.1) h2.2 0 0
  have m : ∀ v w : Vec3, v = w → v 0 = w 0 ∧ v 1 = w 1 ∧ v 2 = w 2 := fun v w h => by rw [h]; exact ⟨rfl, rfl, rfl⟩
  obtain ⟨u1, u2, u3⟩ := m _ _ d1
  obtain ⟨w1, w2, w3⟩ := m _ _ d2
  simp only [dir, Matrix.cons_val_zero, Matrix.cons_val_one, Matrix.cons_val] at u1 u2 u3 w1 w2 w3
  simp only [dot_eq, dir, northAt, eastAt, Matrix.cons_val_zero, Matrix.cons_val_one, Matrix.cons_val, cos_neg, sin_neg] at b1 b2 g1 g2 s3 t3
  have hsep : palDsep (-h1.1) h1.2 (-h2.1) h2.2 = palDsep (-ha1) dec1 (-ha2) dec2 := by
    refine injOn_cos ⟨t1, t2⟩ ⟨s1, s2⟩ ?_
    rw [t3, s3]
    have q := sin_sq_add_cos_sq phi
    have : cos h1.2 * cos h1.1 * (cos h2.2 * cos h2.1) + cos h1.2 * -sin h1.1 * (cos h2.2 * -sin h2.1) + sin h1.2 * sin h2.2 =
        cos h1.2 * cos h1.1 * (cos h2.2 * cos h2.1) + cos h1.2 * sin h1.1 * (cos h2.2 * sin h2.1) + sin h1.2 * sin h2.2 := by ring
    rw [this, u1, u2, u3, w1, w2, w3]
    linear_combination (cos ha1 * cos dec1 * (cos ha2 * cos dec2) + sin dec1 * sin dec2) * q
  refine ⟨?_, hsep⟩
  rw [hsep] at g1 g2
  rw [← u1, ← u2, ← u3, ← w1, ← w2, ← w3, ← c1, ← c2, cos_sub, sin_sub] at k
  obtain ⟨k1, k2⟩ := k
  clear u1 u2 u3 w1 w2 w3 c1 c2 s1 s2 s3 t1 t2 t3 d1 d2
  generalize palDbear (-h1.1) h1.2 (-h2.1) h2.2 = β at *
  generalize palDbear (-ha1) dec1 (-ha2) dec2 = p at *
  generalize sin (palDsep (-ha1) dec1 (-ha2) dec2) = S at *
  generalize palPa ha1 dec1 phi = q at *
  have e1 := sin_sq_add_cos_sq h1.1
  have n1 : -sin h1.2 * (cos h1.2 * cos h1.1 * (cos h2.2 * cos h2.1) + cos h1.2 * sin h1.1 * (cos h2.2 * sin h2.1)) +
      (cos h1.2 * cos h1.1 * (cos h1.2 * cos h1.1) + cos h1.2 * sin h1.1 * (cos h1.2 * sin h1.1)) * sin h2.2 = cos h1.2 * (S * cos β) := by
    rw [g1]; linear_combination (cos h1.2 ^ 2 * sin h2.2) * e1
  have n2 : cos h2.2 * cos h2.1 * (cos h1.2 * sin h1.1) - cos h2.2 * sin h2.1 * (cos h1.2 * cos h1.1) = cos h1.2 * (S * sin β) := by
    rw [g2]; ring
  have n3 : cos h1.2 * cos h1.1 * (cos h1.2 * cos h1.1) + cos h1.2 * sin h1.1 * (cos h1.2 * sin h1.1) = cos h1.2 * cos h1.2 := by
    linear_combination (cos h1.2 ^ 2) * e1
  rw [n1, n2, n3] at k1 k2
  have hC : cos h1.2 * cos h1.2 * S ≠ 0 := mul_ne_zero (mul_ne_zero hz hz) hs
  refine sincos_same ?_ ?_
  · refine mul_left_cancel₀ hC ?_
    rw [sin_add]
    linear_combination cos h1.2 * cos h1.2 * b2 + k2
  · refine mul_left_cancel₀ hC ?_
    rw [cos_add]
    linear_combination cos h1.2 * cos h1.2 * b1 + k1

/-- **C115** (meridian and poles) Off the meridian, and away from the poles of the Earth, the parallactic angle has the sign of the sine of the hour angle (positive when the star is in the west); on
the meridian it is 0 or π; it is in (-π, π]; at the zenith it is zero. At the celestial pole it is not zero, as the documentation may suggest, but π minus the hour angle (to whole turns). -/
theorem C115_signs_and_poles (ha dec phi : ℝ) (hp : 0 < cos phi) :
    (0 < sin ha → 0 < palPa ha dec phi ∧ palPa ha dec phi < π) ∧ (sin ha < 0 → -π < palPa ha dec phi ∧ palPa ha dec phi < 0) ∧
    (sin ha = 0 → palPa ha dec phi = 0 ∨ palPa ha dec phi = π) ∧ palPa ha dec phi ∈ Set.Ioc (-π) π ∧ palPa 0 phi phi = 0 ∧
    SameAngle (palPa ha (π / 2) phi) (π - ha) := by
  have m : ∀ d, palPa ha d phi ∈ Set.Ioc (-π) π := fun d => by unfold palPa; exact atan2_mem _ _
  have hm := m dec
  have c1 := (C115_components ha dec phi).1
  have h0 := pa_cos_el ha dec phi
  refine ⟨fun h => ?_, fun h => ?_, fun h => ?_, hm, ?_, ?_⟩
  · have : 0 < sin (palPa ha dec phi) := by
      by_contra hn
      have := mul_pos hp h
      nlinarith
    constructor
    · by_contra hn
      have := sin_nonpos_of_nonpos_of_neg_pi_le (not_lt.1 hn) hm.1.le
      linarith
    · refine lt_of_le_of_ne hm.2 fun e => ?_
      rw [e, sin_pi] at this
      exact lt_irrefl _ this
  · have : sin (palPa ha dec phi) < 0 := by
      by_contra hn
      have := mul_pos hp (neg_pos.2 h)
      nlinarith
    refine ⟨hm.1, ?_⟩
    by_contra hn
    have := sin_nonneg_of_nonneg_of_le_pi (not_lt.1 hn) hm.2
    linarith
  · unfold palPa
    dsimp only
    rw [h, mul_zero]
    split_ifs with h1
    · left; exact atan2_zero_pos (by norm_num)
    · by_cases hx : 0 ≤ sin phi * cos dec - cos phi * sin dec * cos ha
      · left; exact atan2_zero_pos hx
      · right
        refine atan2_eq_of (r := -(sin phi * cos dec - cos phi * sin dec * cos ha)) (by linarith) ⟨by linarith [pi_pos], le_rfl⟩ (by rw [sin_pi, mul_zero]) (by rw [cos_pi]; ring)
  · unfold palPa
    dsimp only
    rw [sin_zero, mul_zero, cos_zero, if_pos ⟨rfl, by ring⟩]
    exact atan2_zero_pos (by norm_num)
  · unfold palPa
    dsimp only
    rw [cos_pi_div_two, sin_pi_div_two, mul_zero, mul_one, zero_sub]
    have hne : ¬(cos phi * sin ha = 0 ∧ -(cos phi * cos ha) = 0) := by
      rintro ⟨a, b⟩
      have q := sin_sq_add_cos_sq ha
      have a' : sin ha = 0 := by simpa [hp.ne'] using a
      have b' : cos ha = 0 := by simpa [hp.ne'] using b
      rw [a', b'] at q; norm_num at q
    rw [if_neg hne]
    have e := atan2_trig hp (π - ha)
    rw [sin_pi_sub, cos_pi_sub] at e
    rw [← mul_neg]
    exact sincos_same (e.2.trans (sin_pi_sub _).symm) (e.1.trans (cos_pi_sub _).symm)

/-- A star on the equator at upper culmination, seen from 45° north: the hypotheses of the field-rotation theorem hold with the pole as the second point. -/
example : sin (palDsep (-0) 0 (-0) (π / 2)) ≠ 0 ∧ cos (palDe2h 0 0 (π / 4)).2 ≠ 0 ∧ 0 < cos (π / 4) := by
  refine ⟨?_, ?_, by rw [cos_pi_div_four]; positivity⟩
  · have h := (C31_dsep (-0) 0 (-0) (π / 2) 0 0).2.2.2.1
    have q := sin_sq_add_cos_sq (palDsep (-0) 0 (-0) (π / 2))
    rw [h] at q
    intro h'
    rw [h'] at q
    simp [dot_eq, dir] at q
  · have h := (C115_components 0 0 (π / 4)).2
    intro h'
    rw [h'] at h
    have : sin (π / 4) * cos 0 - cos (π / 4) * sin 0 * cos 0 = √2 / 2 := by rw [sin_pi_div_four]; simp
    rw [this] at h
    have : (0 : ℝ) < √2 / 2 := by positivity
    linarith

end Pal.Props
