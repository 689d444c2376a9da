import Verif.Lemmas.FlSmall
import Verif.Props.FlSphere

/-!
# Air mass, velocity components and ΔT in double precision

The reference is the model over the real (or rational) numbers, whose own meaning is C17, C41 and C42.
-/

namespace Pal.Props
open Real Pal.Spec

/-- C124: the velocity components of palRvgalc, palRvlg, palRvlsrd and palRvlsrk in double precision, for every direction (any angles): to 5.8e-13, 7.9e-13, 5.2e-14 and 6.1e-14 km/s those of exact arithmetic. -/
theorem C124_rv {fl : ℝ → ℝ} (R : Rounding fl) {L : Libm} (hL : LibmOK L) (r d : ℝ) :
    |flRvgalc fl L r d - palRvgalc r d| ≤ 5.8e-13 ∧ |flRvlg fl L r d - palRvlg r d| ≤ 7.9e-13 ∧ |flRvlsrd fl L r d - palRvlsrd r d| ≤ 5.2e-14 ∧ |flRvlsrk fl L r d - palRvlsrk r d| ≤ 6.1e-14 := by
  refine ⟨(flDot_err R hL r d (M := 165) (by norm_num) (by norm_num) (by norm_num) (by norm_num) (by norm_num)).trans (by norm_num),
    (flDot_err R hL r d (M := 225) (by norm_num) (by norm_num) (by norm_num) (by norm_num) (by norm_num)).trans (by norm_num),
    (flDot_err R hL r d (M := 14.6) (by norm_num) (by norm_num) (by norm_num) (by norm_num) (by norm_num)).trans (by norm_num),
    (flDot_err R hL r d (M := 17.4) (by norm_num) (by norm_num) (by norm_num) (by norm_num) (by norm_num)).trans (by norm_num)⟩

/-- C124: palRverot in double precision, for every latitude, direction and sidereal time (hour angles up to 1e10 radians): the error is at most 6e-16 km/s plus 0.52e-16 km/s per radian of hour angle (the subtraction
rounds it). -/
theorem C124_rverot {fl : ℝ → ℝ} (R : Rounding fl) {L : Libm} (hL : LibmOK L) (phi ra da st : ℝ) (h : |st - ra| ≤ 10 ^ 10) :
    |flRverot fl L phi ra da st - palRverot phi ra da st| ≤ 0.52e-16 * |st - ra| + 6e-16 := flRverot_err R hL phi ra da st le_rfl h

/-- An hour angle of one radian, with IEEE rounding and a library that rounds the exact values. -/
example : |flRverot ieee roundedLibm 0.5 1 0.3 2 - palRverot 0.5 1 0.3 2| ≤ 0.52e-16 * |(2 : ℝ) - 1| + 6e-16 := C124_rverot ieee_rounding roundedLibm_ok 0.5 1 0.3 2 (by norm_num)

/-- C124: palAirmas in double precision, for every zenith distance: to 4.7e-13 that of exact arithmetic, also on both sides of the limit of 87 degrees (whose stored value is not exact) and beyond. -/
theorem C124_airmas {fl : ℝ → ℝ} (R : Rounding fl) {L : Libm} (hL : LibmOK L) (zd : ℝ) : |flAirmas fl L zd - palAirmas zd| ≤ 4.7e-13 := flAirmas_err R hL zd

set_option maxHeartbeats 1000000 in
/-- C124: palDt in double precision, for every epoch within 10000 years of the era: to 1e-9 s that of exact arithmetic, also next to the breaks between the models (whose stored values are not exact). -/
theorem C124_dt {fl : ℝ → ℝ} (R : Rounding fl) (epoch : ℚ) (h : |epoch| ≤ 10000) : |flDt fl epoch - (palDt epoch : ℝ)| ≤ 1e-9 := by
  have h' : |(epoch : ℝ)| ≤ 10000 := by exact_mod_cast h
  obtain ⟨a, b, c⟩ := flDt_polys R epoch h'
  have k1 := R.cst 1708.185161980887 (M := 1709) (by norm_num) (by norm_num) (by norm_num)
  have k2 := R.cst 979.0258204760233 (M := 980) (by norm_num) (by norm_num) (by norm_num)
  have e : (palDt epoch : ℝ) = if (1708.185161980887 : ℝ) ≤ epoch then 5.156 + 13.3066 * (((epoch : ℝ) - 1800) / 100 - 0.19) * (((epoch : ℝ) - 1800) / 100 - 0.19)
      else if (979.0258204760233 : ℝ) ≤ epoch then 25.5 * (((epoch : ℝ) - 1800) / 100) * (((epoch : ℝ) - 1800) / 100) else 1360 + (320 + 44.3 * (((epoch : ℝ) - 1800) / 100)) * (((epoch : ℝ) - 1800) / 100) := by
    have e1 : ((1708.185161980887 : ℝ) ≤ epoch) ↔ ((1708.185161980887 : ℚ) ≤ epoch) := by rw [← Rat.cast_le (K := ℝ)]; norm_num
    have e2 : ((979.0258204760233 : ℝ) ≤ epoch) ↔ ((979.0258204760233 : ℚ) ≤ epoch) := by rw [← Rat.cast_le (K := ℝ)]; norm_num
    unfold palDt
    dsimp only
    split_ifs <;> first | tauto | (push_cast; ring)
  rw [e]
  unfold flDt
  dsimp only
  generalize (epoch : ℝ) = x at *
  generalize fl (fl 5.156 + fl (fl (fl 13.3066 * fl (fl (fl (x - 1800) / 100) - fl 0.19)) * fl (fl (fl (x - 1800) / 100) - fl 0.19))) = pa at *
  generalize fl (fl (fl 25.5 * fl (fl (x - 1800) / 100)) * fl (fl (x - 1800) / 100)) = pb at *
  generalize fl (1360 + fl (fl (320 + fl (fl 44.3 * fl (fl (x - 1800) / 100))) * fl (fl (x - 1800) / 100))) = pc at *
  generalize fl 1708.185161980887 = b1 at *
  generalize fl 979.0258204760233 = b2 at *
  have t1 : ∀ y : ℝ, |y| ≤ 1.2e-12 → x = 1708.185161980887 + y → |(5.156 + 13.3066 * ((x - 1800) / 100 - 0.19) * ((x - 1800) / 100 - 0.19)) - 25.5 * ((x - 1800) / 100) * ((x - 1800) / 100)| ≤ 1e-12 := by
    intro y hy hx
    rw [hx]
    have q := mul_bd hy hy
    obtain ⟨y1, y2⟩ := abs_le.1 hy
    obtain ⟨q1, q2⟩ := abs_le.1 q
    rw [abs_le]; constructor <;> norm_num at * <;> nlinarith
  have t2 : ∀ y : ℝ, |y| ≤ 1.2e-12 → x = 979.0258204760233 + y → |25.5 * ((x - 1800) / 100) * ((x - 1800) / 100) - (1360 + (320 + 44.3 * ((x - 1800) / 100)) * ((x - 1800) / 100))| ≤ 1e-12 := by
    intro y hy hx
    rw [hx]
    have q := mul_bd hy hy
    obtain ⟨y1, y2⟩ := abs_le.1 hy
    obtain ⟨q1, q2⟩ := abs_le.1 q
    rw [abs_le]; constructor <;> norm_num at * <;> nlinarith
  have n1 : (1.1104e-16 : ℝ) * 1709 ≤ 1.2e-12 := by norm_num
  have n2 : (1.1104e-16 : ℝ) * 980 ≤ 1.2e-12 := by norm_num
  obtain ⟨k11, k12⟩ := abs_le.1 (k1.trans n1)
  obtain ⟨k21, k22⟩ := abs_le.1 (k2.trans n2)
  have near : ∀ {p P Q : ℝ} {e : ℝ}, |p - P| ≤ e → e ≤ 8e-10 → |P - Q| ≤ 1e-12 → |p - Q| ≤ 1e-9 := fun {p P Q e} u v w => by
    have := abs_sub_le p P Q
    norm_num at *; linarith
  split_ifs with i1 i2 i3 i4 i5 i6 i7
  all_goals first
    | exact a.trans (by norm_num)
    | exact b.trans (by norm_num)
    | exact c.trans (by norm_num)
    | (exfalso; norm_num at *; linarith)
    | (refine near a (by norm_num) (t1 (x - 1708.185161980887) ?_ (by ring)); rw [abs_le]; constructor <;> norm_num at * <;> linarith)
    | (refine near b (by norm_num) (t2 (x - 979.0258204760233) ?_ (by ring)); rw [abs_le]; constructor <;> norm_num at * <;> linarith)
    | (refine near b (by norm_num) (?_ : |_| ≤ _); rw [abs_sub_comm]; refine t1 (x - 1708.185161980887) ?_ (by ring); rw [abs_le]; constructor <;> norm_num at * <;> linarith)
    | (refine near c (by norm_num) (?_ : |_| ≤ _); rw [abs_sub_comm]; refine t2 (x - 979.0258204760233) ?_ (by ring); rw [abs_le]; constructor <;> norm_num at * <;> linarith)

/-- IEEE rounding is an instance: the epoch 1708.185161980887 itself, at the break. -/
example : |flDt ieee ((1708.185161980887 : ℚ) : ℝ) - ((palDt 1708.185161980887 : ℚ) : ℝ)| ≤ 1e-9 := C124_dt ieee_rounding 1708.185161980887 (by norm_num)

end Pal.Props
