import Verif.Lemmas.Nutc
import Verif.Props.Aoppa

/-!
# Sidereal time in palAoppa: properties C91 and C92

`palAoppa` with its own equation of the equinoxes (`pal__Eqeqx`, `pal__Nutc`).
-/

namespace Pal.Props
open Real Pal Pal.Spec
open scoped ContDiff

theorem das2r_arcsec : das2r = arcsec := rfl

theorem arcsec_pos : 0 < arcsec := by unfold arcsec; positivity

/-- The parameters palAoppa returns, as far as the date is concerned. -/
theorem aoppa_st (date dut elongm phim hm xp yp tdk pmb rh wl tlr : ℝ) :
    ∃ p, palAoppa aopEqeqx date dut elongm phim hm xp yp tdk pmb rh wl tlr = some p ∧
      p.st = aopGmst date + (aopSite elongm phim xp yp).1 + dut * 1.0027379093 * ds2r + aopEqeqx date := by
  obtain ⟨r1, r2, a, b, -, -, hab, -, -⟩ := C50_refco hm tdk pmb rh wl (aopSite elongm phim xp yp).2 tlr 1e-10
  unfold palAoppa
  dsimp only
  rw [hab]
  refine ⟨_, rfl, ?_⟩
  unfold palAoppat
  dsimp only
  ring

/-- **C91** (size) Between 1900 and 2100 the sidereal time palAoppa computes is within 18.2 arcseconds (1.22 seconds of time) of Greenwich mean sidereal time plus the (polar-motion corrected)
longitude plus the sidereal equivalent of UT1-UTC. -/
theorem C91_sidereal_time (date dut elongm phim hm xp yp tdk pmb rh wl tlr : ℝ) (hd : |centuries date| ≤ 1) :
    ∃ p, palAoppa aopEqeqx date dut elongm phim hm xp yp tdk pmb rh wl tlr = some p ∧
      |p.st - (aopGmst date + (aopSite elongm phim xp yp).1 + dut * 1.0027379093 * ds2r)| ≤ 18.2 * arcsec := by
  obtain ⟨p, h1, h2⟩ := aoppa_st date dut elongm phim hm xp yp tdk pmb rh wl tlr
  refine ⟨p, h1, ?_⟩
  rw [h2, add_sub_cancel_left, eqeqx_eq, das2r_arcsec, abs_mul, abs_of_pos arcsec_pos]
  exact mul_le_mul_of_nonneg_right (eqeqxS_le hd) arcsec_pos.le

example : |centuries 60000| ≤ 1 := by unfold centuries; rw [abs_of_pos (by norm_num)]; norm_num

/-- **C91** (size, at any date) -/
theorem C91_any_date (date : ℝ) : |aopEqeqx date| ≤ (19.51 + 0.32 * |centuries date|) * arcsec := by
  rw [eqeqx_eq, das2r_arcsec, abs_mul, abs_of_pos arcsec_pos]
  exact mul_le_mul_of_nonneg_right (eqeqxS_le_all _) arcsec_pos.le

/-- **C91** (the right equation of the equinoxes) Between 1900 and 2100 it is within 0.82 arcseconds (0.055 seconds of time) of the textbook value computed from the longitudes of the Moon's node,
the Sun and the Moon. -/
theorem C91_textbook (date dut elongm phim hm xp yp tdk pmb rh wl tlr : ℝ) (hd : |centuries date| ≤ 1) :
    ∃ p, palAoppa aopEqeqx date dut elongm phim hm xp yp tdk pmb rh wl tlr = some p ∧
      |p.st - (aopGmst date + (aopSite elongm phim xp yp).1 + dut * 1.0027379093 * ds2r + equationOfEquinoxes (centuries date) * arcsec)| ≤ 0.82 * arcsec := by
  obtain ⟨p, h1, h2⟩ := aoppa_st date dut elongm phim hm xp yp tdk pmb rh wl tlr
  refine ⟨p, h1, ?_⟩
  rw [h2, add_sub_add_left_eq_sub, eqeqx_eq, das2r_arcsec, ← sub_mul, abs_mul, abs_of_pos arcsec_pos]
  exact mul_le_mul_of_nonneg_right (eqeqx_textbook hd) arcsec_pos.le

/-- **C92** (no jumps) The reductions of the fundamental arguments to one turn leave no trace: the equation of the equinoxes is an infinitely differentiable function of the date. -/
theorem C92_smooth : ContDiff ℝ ∞ aopEqeqx := eqeqx_smooth

/-- **C92** (rate) Between 1900 and 2100 it changes by less than a quarter of an arcsecond a day. -/
theorem C92_rate (d1 d2 : ℝ) (h1 : |centuries d1| ≤ 1) (h2 : |centuries d2| ≤ 1) : |aopEqeqx d1 - aopEqeqx d2| ≤ 0.25 * arcsec * |d1 - d2| := by
  rw [eqeqx_eq, eqeqx_eq, das2r_arcsec, ← sub_mul, abs_mul, abs_of_pos arcsec_pos]
  have h := eqeqxS_rate h1 h2
  have e : centuries d1 - centuries d2 = (d1 - d2) / 36525 := by unfold centuries; ring
  rw [e, abs_div, abs_of_pos (by norm_num : (0 : ℝ) < 36525)] at h
  have h3 : |eqeqxS (centuries d1) - eqeqxS (centuries d2)| ≤ 0.25 * |d1 - d2| := by
    have := abs_nonneg (d1 - d2)
    norm_num at *
    linarith [abs_nonneg (d1 - d2)]
  have := mul_le_mul_of_nonneg_right h3 arcsec_pos.le
  linarith

/-- **C92** (palAoppat instead of palAoppa) Between 1900 and 2100, parameters computed for one date by palAoppa and brought to another date by palAoppat differ from those palAoppa computes for that date
only in the longitude element and the sidereal time, and there by less than a quarter of an arcsecond per day between the dates. -/
theorem C92_update (d1 d2 dut elongm phim hm xp yp tdk pmb rh wl tlr : ℝ) (h1 : |centuries d1| ≤ 1) (h2 : |centuries d2| ≤ 1) :
    ∃ p1 p2, palAoppa aopEqeqx d1 dut elongm phim hm xp yp tdk pmb rh wl tlr = some p1 ∧ palAoppa aopEqeqx d2 dut elongm phim hm xp yp tdk pmb rh wl tlr = some p2 ∧
      ∃ e, |e| ≤ 0.25 * arcsec * |d1 - d2| ∧ palAoppat d2 p1 = { p2 with plon := p2.plon + e, st := p2.st + e } := by
  obtain ⟨p1, p2, a, b, c⟩ := C57_update aopEqeqx d1 d2 dut elongm phim hm xp yp tdk pmb rh wl tlr
  exact ⟨p1, p2, a, b, _, C92_rate d1 d2 h1 h2, c⟩

example : ∃ p1 p2 e, palAoppa aopEqeqx 60000 0 0 0.5 0 0 0 288 1000 0.5 0.5 0.0065 = some p1 ∧ palAoppa aopEqeqx 60000.5 0 0 0.5 0 0 0 288 1000 0.5 0.5 0.0065 = some p2 ∧
    |e| ≤ 0.125 * arcsec ∧ (palAoppat 60000.5 p1).st = p2.st + e := by
  obtain ⟨p1, p2, a, b, e, he, h⟩ := C92_update 60000 60000.5 0 0 0.5 0 0 0 288 1000 0.5 0.5 0.0065
    (by unfold centuries; rw [abs_of_pos (by norm_num)]; norm_num) (by unfold centuries; rw [abs_of_pos (by norm_num)]; norm_num)
  refine ⟨p1, p2, e, a, b, he.trans ?_, by rw [h]⟩
  rw [abs_of_neg (by norm_num)]
  have := arcsec_pos
  norm_num
  linarith

end Pal.Props
