import Verif.Lemmas.FlObs
import Verif.Props.FlSphere

/-!
# The position of the observatory in double precision

The reference is the model over the real numbers, whose own meaning is C43.
-/

namespace Pal.Props
open Real Pal.Spec

/-- C126: palGeoc in double precision, for every latitude (any angle) and every height up to 10000 km above or below the ellipsoid: distances from the axis and the equator are those of exact arithmetic to 2.1e-19 AU (3e-8 m). -/
theorem C126_geoc {fl : ℝ → ℝ} (R : Rounding fl) {L : Libm} (hL : LibmOK L) (p h : ℝ) (hh : |h| ≤ 1e7) :
    |(flGeoc fl L p h).1 - (palGeoc p h).1| ≤ 2.1e-19 ∧ |(flGeoc fl L p h).2 - (palGeoc p h).2| ≤ 2.1e-19 := by
  obtain ⟨x, x', z, z'⟩ := flGd2gc_err R hL p hh
  have c := hL.cos 0
  rw [cos_zero] at c
  have d := R.mulB 6e-5 (noerr 149597870000) c (by norm_num : |(149597870000 : ℝ)| ≤ 149597870000) (by norm_num : |(1 : ℝ)| ≤ 1) (by norm_num) (by norm_num)
  have n1 : Near 4.1e-16 (fl (149597870000 * L.cos 0)) (149597870000 * 1) := ⟨by norm_num, by norm_num, by norm_num, d.trans (by norm_num)⟩
  have n2 : Near 0 (149597870000 : ℝ) 149597870000 := Near.refl (by norm_num)
  have Q : ∀ {v : ℝ}, |v| ≤ 1.64e7 → |v / 149597870000| ≤ 1.1e-4 := fun {v} hv => by
    rw [abs_div, abs_of_pos (by norm_num : (0 : ℝ) < 149597870000), div_le_iff₀ (by norm_num)]; norm_num at *; linarith
  have e1 : (palGeoc p h).1 = gd2gcWGS84 0 p h 0 / (149597870000 * 1) := by
    show gd2gcWGS84 0 p h 0 / (1.49597870e11 * cos 0) = _; rw [cos_zero]; norm_num
  have e2 : (palGeoc p h).2 = gd2gcWGS84 0 p h 2 / 149597870000 := by
    show gd2gcWGS84 0 p h 2 / 1.49597870e11 = _; norm_num
  rw [e1, e2]
  have Q1 : |gd2gcWGS84 0 p h 0 / (149597870000 * 1)| ≤ 1.1e-4 := by rw [mul_one]; exact Q x'
  exact ⟨R.divN 2.1e-19 x n1 (by norm_num : (0 : ℝ) < 149597870000) (by norm_num) Q1 (by norm_num) (by norm_num),
    R.divN 2.1e-19 z n2 (by norm_num : (0 : ℝ) < 149597870000) le_rfl (Q z') (by norm_num) (by norm_num)⟩

/-- C126: palPvobs in double precision, for every latitude and sidereal time and every height up to 10000 km: each component of the position is that of exact arithmetic to 2.1e-19 AU (3e-8 m) and each component of the velocity
to 1.8e-23 AU/s (3e-12 m/s); the third component of the velocity is exactly zero. -/
theorem C126_pvobs {fl : ℝ → ℝ} (R : Rounding fl) {L : Libm} (hL : LibmOK L) (p h stl : ℝ) (hh : |h| ≤ 1e7) (i : Fin 3) :
    |(flPvobs fl L p h stl).1 i - (palPvobs p h stl).1 i| ≤ 2.1e-19 ∧ |(flPvobs fl L p h stl).2 i - (palPvobs p h stl).2 i| ≤ 1.8e-23 ∧ (flPvobs fl L p h stl).2 2 = 0 := by
  obtain ⟨x, x', z, z'⟩ := flGd2gc_err R hL p hh
  have n2 : Near 0 (149597870700 : ℝ) 149597870700 := Near.refl (by norm_num)
  have Q : ∀ {v : ℝ}, |v| ≤ 1.64e7 → |v / 149597870700| ≤ 1.1e-4 := fun {v} hv => by
    rw [abs_div, abs_of_pos (by norm_num : (0 : ℝ) < 149597870700), div_le_iff₀ (by norm_num)]; norm_num at *; linarith
  have au : erfaDAU = 149597870700 := by unfold erfaDAU; norm_num
  have r := R.divN 1.62e-19 x n2 (by norm_num : (0 : ℝ) < 149597870700) le_rfl (Q x') (by norm_num) (by norm_num)
  have rz := R.divN 2.1e-19 z n2 (by norm_num : (0 : ℝ) < 149597870700) le_rfl (Q z') (by norm_num) (by norm_num)
  have q := Q x'
  have s := hL.sin stl
  have c := hL.cos stl
  have s1 := abs_sin_le_one stl
  have c1 := abs_cos_le_one stl
  have k := R.cst 7.2921150e-5 (M := 7.3e-5) (by norm_num) (by norm_num) (by norm_num)
  have hk : |(7.2921150e-5 : ℝ)| ≤ 7.3e-5 := by norm_num
  have v := R.mulB 1.4e-23 k r hk q (by norm_num) (by norm_num)
  have v' := mul_bd hk q
  unfold flPvobs palPvobs palSR
  dsimp only
  rw [au]
  generalize fl (flGd2gc fl L 0 p h 0 / 149597870700) = a at *
  generalize gd2gcWGS84 0 p h 0 / 149597870700 = A at *
  generalize fl (flGd2gc fl L 0 p h 2 / 149597870700) = b at *
  generalize gd2gcWGS84 0 p h 2 / 149597870700 = B at *
  have w : |-fl (fl 7.2921150e-5 * a) - -(7.2921150e-5 * A)| ≤ 1.4e-23 := by rw [show ∀ x y : ℝ, -x - -y = -(x - y) from fun x y => by ring, abs_neg]; exact v
  have p0 := R.mulB 2.1e-19 r c q c1 (by norm_num) (by norm_num)
  have p1 := R.mulB 2.1e-19 r s q s1 (by norm_num) (by norm_num)
  have v'' : |-(7.2921150e-5 * A)| ≤ 7.3e-5 * 1.1e-4 := by rw [abs_neg]; exact v'
  have q0 := R.mulB 1.8e-23 w s v'' s1 (by norm_num) (by norm_num)
  have q1 := R.mulB 1.8e-23 v c v' c1 (by norm_num) (by norm_num)
  refine ⟨?_, ?_, rfl⟩
  · fin_cases i
    · exact p0
    · exact p1
    · exact rz
  · fin_cases i
    · exact q0
    · exact q1
    · show |(0 : ℝ) - 0| ≤ _; norm_num

/-- Mauna Kea, with IEEE rounding and a library that rounds the exact values. -/
example : |(flGeoc ieee roundedLibm 0.346 4205).1 - (palGeoc 0.346 4205).1| ≤ 2.1e-19 ∧ |(flPvobs ieee roundedLibm 0.346 4205 1).1 0 - (palPvobs 0.346 4205 1).1 0| ≤ 2.1e-19 :=
  ⟨(C126_geoc ieee_rounding roundedLibm_ok 0.346 4205 (by norm_num)).1, (C126_pvobs ieee_rounding roundedLibm_ok 0.346 4205 1 (by norm_num) 0).1⟩

end Pal.Props
