import Verif.Lemmas.FlEqeqx
import Verif.Props.Eqeqx
import Verif.Props.FlSphere

/-!
# The equation of the equinoxes in double precision: property C150
-/

namespace Pal.Props
open Real Pal Pal.Spec
variable {fl : ℝ → ℝ} {L : Libm}

/-- The polynomial part of the locator of the celestial intermediate origin, arcseconds, `t` centuries after 2000. -/
noncomputable def locatorPoly (t : ℝ) : ℝ := 94.00e-6 + 3808.65e-6 * t - 122.68e-6 * t ^ 2 - 72574.11e-6 * t ^ 3 + 27.98e-6 * t ^ 4 + 15.62e-6 * t ^ 5

set_option maxHeartbeats 1000000 in
/-- C150 (against exact arithmetic) Between 1900 and 2100, with nutation angles from the library of at most 20″ and 11″, computed with errors of up to 1e-14 radians, and the sum of the series of the locator (polynomial plus at most 0.01″ of periodic terms) computed with an error of up to 1e-9 arcseconds,
palEqeqx in double precision returns the value of exact arithmetic to 2.1e-13 radians (4.4e-8 arcseconds): the Earth rotation angle, which is large, drops out, and no turn is gained or lost. -/
theorem C150_model (R : Rounding fl) (hL : LibmOK L) (nz : Bool) (nf nx : ℝ → ℝ → ℝ × ℝ) (ser : ℝ → ℝ → ℝ) (per : ℝ → ℝ) (date : ℝ) (ht : |centuries date| ≤ 1)
    (e1 : |(nf rMJD0 date).1 - (nx rMJD0 date).1| ≤ 1e-14) (e2 : |(nf rMJD0 date).2 - (nx rMJD0 date).2| ≤ 1e-14) (h1 : |(nx rMJD0 date).1| ≤ 20 * Spec.arcsec) (h2 : |(nx rMJD0 date).2| ≤ 11 * Spec.arcsec)
    (h3 : |per (centuries date)| ≤ 0.01) (e3 : |ser rMJD0 date - (locatorPoly (centuries date) + per (centuries date))| ≤ 1e-9) :
    |flEqeqx fl L nz nf ser date - palEqeqx nx per date| ≤ 2.1e-13 := by
  have A0 := das2r_gt0
  have A1 := das2r_ub
  have ac : Spec.arcsec = das2r := rfl
  have hc := cent06_mjd date
  have hr0 : rMJD0 = 2400000.5 := rfl
  have hsz := C106_size nx per date ht h1 h2 h3
  rw [ac] at h1 h2 hsz
  rw [hr0] at e1 e2 h1 h2 e3 hc
  have b1 : |(nx 2400000.5 date).1| ≤ 1e-4 := h1.trans (by norm_num at *; linarith)
  have b2 : |(nx 2400000.5 date).2| ≤ 6e-5 := h2.trans (by norm_num at *; linarith)
  have hd : |date - 51544.5| ≤ 36525 := by
    have : date - 51544.5 = centuries date * 36525 := by unfold centuries; ring
    rw [this, abs_mul, abs_of_pos (by norm_num : (0 : ℝ) < 36525)]
    linarith
  have ht' : |cent06 2400000.5 date| ≤ 1 := by rw [hc]; exact ht
  obtain ⟨m1, m2⟩ := flCent_mjd R (hd.trans (by norm_num))
  have sm := flPnm06a_small R hL m1 m2 e1 e2 le_rfl (b1.trans (by norm_num)) (b2.trans (by norm_num))
  have hr : ∀ i j, |flPnm06a fl L nf 2400000.5 date i j - eraPnm06a nx 2400000.5 date i j| ≤ 2.83e-14 := fun i j => (sm.entry i j).trans (by norm_num)
  have hX : ∀ i j, |eraPnm06a nx 2400000.5 date i j - (1 : Mat3) i j| ≤ 0.0248 := fun i j => (pnm_size nx ht' b1 b2).entry i j
  have hx := near_one_bd hX
  have x20 : |eraPnm06a nx 2400000.5 date 2 0| ≤ 0.0248 := hx 2 0
  have x21 : |eraPnm06a nx 2400000.5 date 2 1| ≤ 0.0248 := hx 2 1
  -- the two terms of the sidereal time
  have tt : |fl (fl (fl (2400000.5 - 2451545) + date) / 36525) - cent06 2400000.5 date| ≤ 2.5e-15 := by
    have h' : |(-51544.5 : ℝ) + date| ≤ 36525 := by rw [add_comm, ← sub_eq_add_neg]; exact hd
    have a3 := R.add_err2 4.1e-12 (noerr (-51544.5 + date)) h' (by norm_num) (by norm_num)
    have a4 := R.add_err2 2.4e-15 (div_const a3 (by norm_num : (0 : ℝ) < 36525)) (div_bd h' (by norm_num : (0 : ℝ) < 36525)) (by norm_num) (by norm_num)
    unfold cent06
    rw [fl_mjd0 R, show (2400000.5 - 2451545 : ℝ) = -51544.5 by norm_num]
    exact a4.trans (by norm_num)
  obtain ⟨p1, p2⟩ := flGmstPoly_err R tt (ht'.trans (by norm_num))
  have dr := flDAS2R_err R
  have db : |das2r| ≤ 4.85e-6 := by rw [abs_of_pos A0]; norm_num at *; linarith
  have q1 := R.mulB 3e-16 p1 dr p2 db (by norm_num) (by norm_num)
  have q2 := mul_bd p2 db
  -- the locator
  have sp : |locatorPoly (centuries date) + per (centuries date)| ≤ 0.1 := by
    have := poly_abs (a := 94.00e-6) (b := 3808.65e-6) (c := -122.68e-6) (d := -72574.11e-6) (e := 27.98e-6) (f := 15.62e-6) ht
    refine (abs_add_le _ _).trans ?_
    rw [show locatorPoly (centuries date) = 94.00e-6 + (3808.65e-6 + (-122.68e-6 + (-72574.11e-6 + (27.98e-6 + 15.62e-6 * centuries date) * centuries date) * centuries date) * centuries date) * centuries date by unfold locatorPoly; ring]
    norm_num [abs_of_pos, abs_of_neg] at this h3 ⊢
    linarith
  have s1 := R.mulB 4.9e-15 e3 dr sp db (by norm_num) (by norm_num)
  have s2 := R.mulB 1.5e-15 (hr 2 0) (hr 2 1) x20 x21 (by norm_num) (by norm_num)
  have b3 := mul_bd x20 x21
  have s3 := R.add_err2 8e-16 (div_const s2 (by norm_num : (0 : ℝ) < 2)) (div_bd b3 (by norm_num : (0 : ℝ) < 2)) (by norm_num) (by norm_num)
  obtain ⟨s4, b4⟩ := R.subB 5.8e-15 s1 s3 (mul_bd sp db) (div_bd b3 (by norm_num : (0 : ℝ) < 2)) (by norm_num) (by norm_num)
  have hS : eraS06 per 2400000.5 date (eraPnm06a nx 2400000.5 date 2 0) (eraPnm06a nx 2400000.5 date 2 1) =
      (locatorPoly (centuries date) + per (centuries date)) * das2r - eraPnm06a nx 2400000.5 date 2 0 * eraPnm06a nx 2400000.5 date 2 1 / 2 := by
    unfold eraS06 locatorPoly
    dsimp only
    rw [hc]; ring
  rw [← hS] at s4 b4
  obtain ⟨k, hk, hk'⟩ := flEors_err R hL nz hr hX s4 (by norm_num) (b4.trans (by norm_num))
  have eX : palEqeqx nx per date = eraAnpm (eraAnp (eraEra00 0 0 - eraEors (eraPnm06a nx 2400000.5 date) (eraS06 per 2400000.5 date (eraPnm06a nx 2400000.5 date 2 0) (eraPnm06a nx 2400000.5 date 2 1))) - eraAnp (eraEra00 0 0 +
      (0.014506 + (4612.156534 + (1.3915817 + (-0.00000044 + (-0.000029956 + (-0.0000000368) * cent06 2400000.5 date) * cent06 2400000.5 date) * cent06 2400000.5 date) * cent06 2400000.5 date) * cent06 2400000.5 date) * das2r)) := rfl
  have eF : flEqeqx fl L nz nf ser date = flAnpm fl (fl (flAnp fl (fl (flEra00 fl 0 0 - flEors fl L nz (flPnm06a fl L nf 2400000.5 date) (fl (fl (ser 2400000.5 date * flDAS2R fl) - fl (fl (flPnm06a fl L nf 2400000.5 date 2 0 * flPnm06a fl L nf 2400000.5 date 2 1) / 2))))) -
      flAnp fl (fl (flEra00 fl 0 0 + fl (flGmstPoly fl (fl (fl (fl (2400000.5 - 2451545) + date) / 36525)) * flDAS2R fl))))) := rfl
  rw [eX] at hsz
  rw [eX, eF]
  generalize eraS06 per 2400000.5 date (eraPnm06a nx 2400000.5 date 2 0) (eraPnm06a nx 2400000.5 date 2 1) = S at *
  generalize fl (fl (ser 2400000.5 date * flDAS2R fl) - fl (fl (flPnm06a fl L nf 2400000.5 date 2 0 * flPnm06a fl L nf 2400000.5 date 2 1) / 2)) = s at *
  generalize flEors fl L nz (flPnm06a fl L nf 2400000.5 date) s = o at *
  generalize eraEors (eraPnm06a nx 2400000.5 date) S = O at *
  generalize fl (flGmstPoly fl (fl (fl (fl (2400000.5 - 2451545) + date) / 36525)) * flDAS2R fl) = g at *
  generalize (0.014506 + (4612.156534 + (1.3915817 + (-0.00000044 + (-0.000029956 + (-0.0000000368) * cent06 2400000.5 date) * cent06 2400000.5 date) * cent06 2400000.5 date) * cent06 2400000.5 date) * cent06 2400000.5 date) * das2r = G at *
  have hE := flEra00_zero R
  generalize flEra00 fl 0 0 = E at *
  clear s1 s2 s3 s4 b4 hS eX eF p1 p2 tt sm hr hX hx x20 x21 b3 sp m1 m2 dr db e1 e2 e3 h1 h2 h3
  have gb : |g| ≤ 0.2 := by have := abs_sub_abs_le_abs_sub g G; norm_num at *; linarith
  -- the two normalisations
  have x1 : |E - o| ≤ 9.5 := (abs_sub _ _).trans (by norm_num at *; linarith)
  have x2 : |E + g| ≤ 6.5 := (abs_add_le _ _).trans (by norm_num at *; linarith)
  have r1 := R.add_err2 1.1e-15 (noerr (E - o)) x1 (by norm_num) (by norm_num)
  have r2 := R.add_err2 8e-16 (noerr (E + g)) x2 (by norm_num) (by norm_num)
  obtain ⟨u1, u2, l1, hl1⟩ : 0 ≤ flAnp fl (fl (E - o)) ∧ flAnp fl (fl (E - o)) ≤ flD2PI fl ∧ ∃ l : ℤ, |flAnp fl (fl (E - o)) - (E - o + l * (2 * π))| ≤ 3e-15 := by
    rcases flAnp_near R r1 x1 (by norm_num) with ⟨v1, v2, v3⟩ | v
    · obtain ⟨l, hl⟩ := v3 (x1.trans (by norm_num))
      exact ⟨v1, v2, l, hl.trans (by norm_num)⟩
    · exact absurd (x1.trans (by norm_num)) v
  obtain ⟨u3, u4, l2, hl2⟩ : 0 ≤ flAnp fl (fl (E + g)) ∧ flAnp fl (fl (E + g)) ≤ flD2PI fl ∧ ∃ l : ℤ, |flAnp fl (fl (E + g)) - (E + g + l * (2 * π))| ≤ 3e-15 := by
    rcases flAnp_near R r2 x2 (by norm_num) with ⟨v1, v2, v3⟩ | v
    · obtain ⟨l, hl⟩ := v3 (x2.trans (by norm_num))
      exact ⟨v1, v2, l, hl.trans (by norm_num)⟩
    · exact absurd (x2.trans (by norm_num)) v
  generalize flAnp fl (fl (E - o)) = y at *
  generalize flAnp fl (fl (E + g)) = z at *
  have hb := D2_b
  rw [flD2PI_eq R] at u2 u4
  have yz : |y - z| ≤ 6.29 := by rw [abs_le]; constructor <;> linarith
  have r3 := R.add_err2 7.1e-16 (noerr (y - z)) yz (by norm_num) (by norm_num)
  obtain ⟨⟨l3, hl3⟩, w2⟩ := flAnpm_near R (a := fl (y - z)) (by have := abs_sub_abs_le_abs_sub (fl (y - z)) (y - z); norm_num at *; linarith)
  generalize flAnpm fl (fl (y - z)) = f at *
  -- the exact value
  obtain ⟨n1, hn1⟩ := (eraAnp_spec (eraEra00 0 0 - O)).2
  obtain ⟨n2, hn2⟩ := (eraAnp_spec (eraEra00 0 0 + G)).2
  obtain ⟨n3, hn3⟩ := (eraAnpm_spec (eraAnp (eraEra00 0 0 - O) - eraAnp (eraEra00 0 0 + G))).2
  generalize eraAnpm (eraAnp (eraEra00 0 0 - O) - eraAnp (eraEra00 0 0 + G)) = F at *
  obtain ⟨K, hK⟩ : ∃ K : ℤ, F = -O - G + K * (2 * π) := ⟨n1 - n2 + n3, by rw [hn3, hn1, hn2]; push_cast; ring⟩
  obtain ⟨N, hN⟩ : ∃ N : ℤ, |f - (F + N * (2 * π))| ≤ 2.1e-13 := by
    refine ⟨l3 + l1 - l2 - k - K, ?_⟩
    have e : f - (F + ((l3 + l1 - l2 - k - K : ℤ) : ℝ) * (2 * π)) = (f - (fl (y - z) + l3 * (2 * π))) + (fl (y - z) - (y - z)) + (y - (E - o + l1 * (2 * π))) - (z - (E + g + l2 * (2 * π))) - (o - (O + k * (2 * π))) - (g - G) := by
      rw [hK]; push_cast; ring
    rw [e]
    generalize f - (fl (y - z) + l3 * (2 * π)) = a1 at *
    generalize fl (y - z) - (y - z) = a2 at *
    generalize y - (E - o + l1 * (2 * π)) = a3 at *
    generalize z - (E + g + l2 * (2 * π)) = a4 at *
    generalize o - (O + k * (2 * π)) = a5 at *
    generalize g - G = a6 at *
    have := abs_le.1 hl3
    have := abs_le.1 r3
    have := abs_le.1 hl1
    have := abs_le.1 hl2
    have := abs_le.1 hk
    have := abs_le.1 q1
    rw [abs_le]
    constructor <;> norm_num at * <;> linarith
  have hN0 : N = 0 := by
    by_contra c
    have n1 : (1 : ℝ) ≤ |(N : ℝ)| := by have := Int.one_le_abs c; exact_mod_cast this
    have n2 : 2 * π ≤ |(N : ℝ) * (2 * π)| := by rw [abs_mul, abs_of_pos two_pi_pos]; nlinarith [pi_pos]
    have n3 : |(N : ℝ) * (2 * π)| ≤ 3.3 := by
      have e : (N : ℝ) * (2 * π) = f - F - (f - (F + N * (2 * π))) := by ring
      have c1 := abs_sub (f - F) (f - (F + N * (2 * π)))
      have c2 := abs_sub f F
      rw [← e] at c1
      norm_num at *; linarith
    have := pi_gt_three
    linarith
  rw [hN0] at hN
  simpa using hN

/-- C150 (value) In double precision palEqeqx is the nutation in longitude projected on the equator, plus the complementary terms, to 3.0001 milliarcseconds, and so never exceeds 18.41″ (1.23 seconds of time). -/
theorem C150_value (R : Rounding fl) (hL : LibmOK L) (nz : Bool) (nf nx : ℝ → ℝ → ℝ × ℝ) (ser : ℝ → ℝ → ℝ) (per : ℝ → ℝ) (date : ℝ) (ht : |centuries date| ≤ 1)
    (e1 : |(nf rMJD0 date).1 - (nx rMJD0 date).1| ≤ 1e-14) (e2 : |(nf rMJD0 date).2 - (nx rMJD0 date).2| ≤ 1e-14) (h1 : |(nx rMJD0 date).1| ≤ 20 * Spec.arcsec) (h2 : |(nx rMJD0 date).2| ≤ 11 * Spec.arcsec)
    (h3 : |per (centuries date)| ≤ 0.01) (e3 : |ser rMJD0 date - (locatorPoly (centuries date) + per (centuries date))| ≤ 1e-9) :
    |flEqeqx fl L nz nf ser date - eqEquinoxes (centuries date) (nx rMJD0 date).1 (-per (centuries date))| ≤ 0.0030001 * Spec.arcsec ∧ |flEqeqx fl L nz nf ser date| ≤ 18.41 * Spec.arcsec := by
  have a := C150_model R hL nz nf nx ser per date ht e1 e2 h1 h2 h3 e3
  have b := C106_value nx per date ht h1 h2 (h3.trans (by norm_num))
  have c := C106_size nx per date ht h1 h2 h3
  have A : 4.8e-6 ≤ Spec.arcsec := le_trans (by norm_num) das2r_bounds.1
  have a' := abs_le.1 a
  have b' := abs_le.1 b
  have c' := abs_le.1 c
  constructor <;> rw [abs_le] <;> constructor <;> norm_num at * <;> linarith

/-- With IEEE doubles, correctly rounded library functions and the nutation of one date (−6.19″, 8.25″), in 2026. -/
example : |flEqeqx ieee roundedLibm false (fun _ _ => (-3e-5, 4e-5)) (fun _ d => locatorPoly (centuries d) + 0.002) 61362 - palEqeqx (fun _ _ => (-3e-5, 4e-5)) (fun _ => 0.002) 61362| ≤ 2.1e-13 := by
  have A : 4.8e-6 ≤ Spec.arcsec := le_trans (by norm_num) das2r_bounds.1
  refine C150_model ieee_rounding roundedLibm_ok false _ _ _ _ 61362 ?_ ?_ ?_ ?_ ?_ ?_ ?_
  · unfold centuries; norm_num [abs_le]
  · norm_num
  · norm_num
  · rw [abs_le]; constructor <;> norm_num at * <;> linarith
  · rw [abs_le]; constructor <;> norm_num at * <;> linarith
  · norm_num [abs_le]
  · norm_num

end Pal.Props
