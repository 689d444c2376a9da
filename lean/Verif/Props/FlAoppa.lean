import Verif.Lemmas.FlAoppa
import Verif.Props.FlAop

/-!
# The parameters for observed places (palAoppa, palAoppat) and palAop in double precision

`gmst1982` is Greenwich mean sidereal time (IAU 1982) as a growing angle and `displacedSite` the site vector with polar motion (Props/Aoppa.lean). The equation of the equinoxes `eqeqx`, the refraction constants `refco` and the refraction near the
horizon `refro` are whatever the C functions deliver.
-/

namespace Pal.Props
open Real Pal.Spec

variable {fl : ℝ → ℝ} {L : Libm} {pw : ℝ → ℝ → ℝ}

/-- C132: palAoppat in double precision, for every date within 200000 days (547 years) of J2000 and every longitude term up to 10 radians: the sidereal time is that of the IAU 1982 formula plus the longitude term, to 3.9e-12 radians
(8e-7 arcseconds) and whole turns, at most 17 radians in size, and nothing else is changed. -/
theorem C132_aoppat (R : Rounding fl) (date : ℝ) (p : Aoprms) (h : |date - 51544.5| ≤ 200000) (hl : |p.plon| ≤ 10) :
    let q := flAoppat fl date p
    (∃ k : ℤ, |q.st - (gmst1982 date + p.plon + k * (2 * π))| ≤ 3.9e-12) ∧ |q.st| ≤ |p.plon| + 6.3 ∧ q = { p with st := q.st } := by
  intro q
  obtain ⟨a0, a1, k, hk⟩ := flAopGmst_err R date h
  have hb := D2_b
  rw [flD2PI_eq R] at a1
  have G : |flAopGmst fl date| ≤ 6.29 := by rw [abs_of_nonneg a0]; linarith
  obtain ⟨r, rb⟩ := R.addB 2e-15 (noerr (flAopGmst fl date)) (noerr p.plon) G hl (by norm_num) (by norm_num)
  have e : q.st = fl (flAopGmst fl date + p.plon) := rfl
  refine ⟨⟨k, ?_⟩, ?_, rfl⟩
  · rw [e, show fl (flAopGmst fl date + p.plon) - (gmst1982 date + p.plon + k * (2 * π)) = (fl (flAopGmst fl date + p.plon) - (flAopGmst fl date + p.plon)) + (flAopGmst fl date - (gmst1982 date + k * (2 * π))) by ring]
    refine (abs_add_le _ _).trans ?_
    norm_num at r hk ⊢; linarith
  · rw [e]
    have := abs_sub_abs_le_abs_sub (fl (flAopGmst fl date + p.plon)) (flAopGmst fl date + p.plon)
    have := abs_add_le (flAopGmst fl date) p.plon
    norm_num at r rb G ⊢; linarith

/-- 13 May 1991 at noon and a longitude term of 2.6 radians. -/
example : ∃ k : ℤ, |(flAoppat ieee 48389.5 aopExample).st - (gmst1982 48389.5 + 2.6 + k * (2 * π))| ≤ 3.9e-12 :=
  (C132_aoppat ieee_rounding 48389.5 aopExample (by norm_num [abs_le]) (by norm_num [aopExample])).1

set_option maxHeartbeats 1000000 in
/-- C132: palAoppa in double precision, for every date within 200000 days of J2000, every geographical position, height up to 10000 km, polar motion up to 206 arcseconds (1e-3 radians), UT1-UTC up to 60 s and equation of the equinoxes
up to 0.01 radians. The latitude in the array and some longitude give the direction of the site displaced by the polar motion to 4.6e-15 radians; elements [1] and [2] are sine and cosine of that latitude as the library
gives them; the diurnal aberration is the speed of rotation over the speed of light to 1.2e-20; the meteorological data are copied; the refraction constants are those of palRefco at that latitude; the longitude term is longitude, equation of the
equinoxes and sidereal UT1-UTC to 8e-16 radians; and the sidereal time is right to 3.9e-12 radians and whole turns. -/
theorem C132_aoppa (R : Rounding fl) (hL : LibmOK L) (hp : PowOK pw) (refco : ℝ → ℝ → ℝ → ℝ → ℝ → ℝ → ℝ → ℝ × ℝ) (eqeqx : ℝ) (nz : Bool) (date dut elongm phim hm xp yp tdk pmb rh wl tlr : ℝ)
    (h : |date - 51544.5| ≤ 200000) (hd : |dut| ≤ 60) (hx : |xp| ≤ 1e-3) (hy : |yp| ≤ 1e-3) (hh : |hm| ≤ 1e7) (he : |eqeqx| ≤ 0.01) :
    let q := flAoppa fl L pw refco eqeqx nz date dut elongm phim hm xp yp tdk pmb rh wl tlr
    ∃ elong, len (fun i => dir elong q.phi i - unit (displacedSite elongm phim xp yp) i) ≤ 4.6e-15 ∧ |elong| ≤ π + 4.5e-16 ∧ |q.phi| ≤ π / 2 + 4.5e-16 ∧
      |q.sphi - sin q.phi| ≤ 2.3e-16 ∧ |q.cphi - cos q.phi| ≤ 2.3e-16 ∧
      |q.diurab - 1.0027379093 * (2 * π) * ((6378140 / √(cos q.phi ^ 2 + (1 - 1 / 298.257) ^ 2 * sin q.phi ^ 2) + hm) * cos q.phi / 1.49597870e11) / 173.14463331| ≤ 1.2e-20 ∧ |q.diurab| ≤ 1e-5 ∧
      (q.hm, q.tdk, q.pmb, q.rh, q.wl, q.tlr) = (hm, tdk, pmb, rh, wl, tlr) ∧ (q.refa, q.refb) = refco hm tdk pmb rh wl q.phi tlr ∧
      |q.plon - (elong + eqeqx + dut * 1.0027379093 * (2 * π / 86400))| ≤ 8e-16 ∧
      (∃ k : ℤ, |q.st - (gmst1982 date + q.plon + k * (2 * π))| ≤ 3.9e-12) ∧ |q.st| ≤ 9.5 := by
  intro q
  obtain ⟨s1, s2, s3⟩ := flAopSite_err R hL nz elongm phim hx hy
  have c1 := R.cst 1.0027379093 (M := 1.0028) (by norm_num) (by norm_num) (by norm_num)
  have k1 : |(1.0027379093 : ℝ)| ≤ 1.0028 := by norm_num
  have c2 := R.cst 173.14463331 (M := 173.15) (by norm_num) (by norm_num) (by norm_num)
  have n2 : Near 1.2e-16 (fl 173.14463331) 173.14463331 := ⟨by norm_num, by norm_num, by norm_num, c2.trans (by norm_num)⟩
  obtain ⟨g1, g2⟩ := flAopGeoc_err R hL hp q.phi hh
  have d1 := R.mulB 1.5e-18 (flPal2PI_err R) g1 two_pi_bd g2 (by norm_num) (by norm_num)
  have d1b := mul_bd two_pi_bd g2
  have d2 := R.mulB 1.7e-18 d1 c1 d1b k1 (by norm_num) (by norm_num)
  have d2b := mul_bd d1b k1
  have Q : |2 * π * (aopGeoc q.phi hm).1 * 1.0027379093 / 173.14463331| ≤ 4.1e-6 := by
    rw [abs_div, abs_of_pos (by norm_num : (0 : ℝ) < 173.14463331), div_le_iff₀ (by norm_num)]; exact d2b.trans (by norm_num)
  have d3 := R.divN 1.2e-20 d2 n2 (by norm_num : (0 : ℝ) < 173) (by norm_num) Q (by norm_num) (by norm_num)
  have E1 : |(flAopSite fl L nz elongm phim xp yp).1| ≤ 3.142 := by have := pi_lt_d4; norm_num at *; linarith
  obtain ⟨p1, p1b⟩ := R.addB 3.6e-16 (noerr (flAopSite fl L nz elongm phim xp yp).1) (noerr eqeqx) E1 he (by norm_num) (by norm_num)
  have w1 := R.mulB 1.4e-14 (noerr dut) c1 hd k1 (by norm_num) (by norm_num)
  have w1b := mul_bd hd k1
  have w2 := R.mulB 2.1e-18 w1 (flDS2R_err R) w1b ds2r_bd.1 (by norm_num) (by norm_num)
  obtain ⟨p2, p2b⟩ := R.addB 8e-16 p1 w2 p1b (mul_bd w1b ds2r_bd.1) (by norm_num) (by norm_num)
  have hl : |q.plon| ≤ 3.2 := by
    have := abs_sub_abs_le_abs_sub q.plon ((flAopSite fl L nz elongm phim xp yp).1 + eqeqx + dut * 1.0027379093 * ds2r)
    have t : |q.plon - ((flAopSite fl L nz elongm phim xp yp).1 + eqeqx + dut * 1.0027379093 * ds2r)| ≤ 8e-16 := p2
    norm_num at t p2b ⊢; linarith
  obtain ⟨z1, z2, -⟩ := C132_aoppat R date { q with st := 0 } h (hl.trans (by norm_num))
  change |q.st| ≤ |q.plon| + 6.3 at z2
  have D : q.diurab = fl (fl (fl (flPal2PI fl * flAopGeoc fl L pw q.phi hm) * fl 1.0027379093) / fl 173.14463331) := rfl
  have ex : 1.0027379093 * (2 * π) * ((6378140 / √(cos q.phi ^ 2 + (1 - 1 / 298.257) ^ 2 * sin q.phi ^ 2) + hm) * cos q.phi / 1.49597870e11) / 173.14463331 = 2 * π * (aopGeoc q.phi hm).1 * 1.0027379093 / 173.14463331 := by
    unfold aopGeoc
    dsimp only
    rw [show cos q.phi * cos q.phi + (1 - 1 / 298.257) ^ 2 * sin q.phi * sin q.phi = cos q.phi ^ 2 + (1 - 1 / 298.257) ^ 2 * sin q.phi ^ 2 by ring]
    ring
  refine ⟨(flAopSite fl L nz elongm phim xp yp).1, s3, s1, s2, hL.sin _, hL.cos _, ?_, ?_, rfl, rfl, p2, z1, by norm_num at z2 hl ⊢; linarith⟩
  · rw [ex, D]; exact d3
  · have := abs_sub_abs_le_abs_sub q.diurab (2 * π * (aopGeoc q.phi hm).1 * 1.0027379093 / 173.14463331)
    rw [D] at this ⊢
    generalize fl (fl (fl (flPal2PI fl * flAopGeoc fl L pw q.phi hm) * fl 1.0027379093) / fl 173.14463331) = z at *
    generalize 2 * π * (aopGeoc q.phi hm).1 * 1.0027379093 / 173.14463331 = y at *
    norm_num at d3 Q ⊢; linarith

/-- An exact power function is allowed. -/
theorem powExample_ok : PowOK (fun x y => x ^ y) := fun x y hx => by rw [sub_self, abs_zero]; have := rpow_nonneg hx y; positivity

/-- The site of the C test program, with IEEE rounding. -/
example : ∃ elong, len (fun i => dir elong (flAoppa ieee roundedLibm (fun x y => x ^ y) (fun _ _ _ _ _ _ _ => (2.8e-4, -3.1e-7)) 4e-5 false 51000.1 25 2.1 0.5 3000 (-0.5e-6) 1e-6 280 550 0.6 0.45 0.006).phi i -
    unit (displacedSite 2.1 0.5 (-0.5e-6) 1e-6) i) ≤ 4.6e-15 := by
  obtain ⟨e, h, -⟩ := C132_aoppa ieee_rounding roundedLibm_ok powExample_ok (fun _ _ _ _ _ _ _ => (2.8e-4, -3.1e-7)) 4e-5 false 51000.1 25 2.1 0.5 3000 (-0.5e-6) 1e-6 280 550 0.6 0.45 0.006
    (by norm_num [abs_le]) (by norm_num [abs_le]) (by norm_num [abs_le]) (by norm_num [abs_le]) (by norm_num [abs_le]) (by norm_num [abs_le])
  exact ⟨e, h⟩

/-- C132: palAop in double precision. For every place and every site as above, the hour angle and declination are the direction of the azimuth and zenith distance seen from a latitude φ that, with some longitude, is the direction of the site displaced by the
polar motion; and the right ascension is the local sidereal time (IAU 1982 plus that longitude, equation of the equinoxes and sidereal UT1-UTC) less the hour angle, to 3.9e-12 radians and whole turns, in [0, 2π]. -/
theorem C132_aop_consistent (R : Rounding fl) (hL : LibmOK L) (hp : PowOK pw) (refco : ℝ → ℝ → ℝ → ℝ → ℝ → ℝ → ℝ → ℝ × ℝ) (eqeqx : ℝ) (refro : ℝ → ℝ) (nz nz1 nz2 : Bool) (rap dap date dut elongm phim hm xp yp tdk pmb rh wl tlr : ℝ)
    (h : |date - 51544.5| ≤ 200000) (hd : |dut| ≤ 60) (hx : |xp| ≤ 1e-3) (hy : |yp| ≤ 1e-3) (hh : |hm| ≤ 1e7) (he : |eqeqx| ≤ 0.01) :
    let o := flAop fl L pw refco eqeqx refro nz nz1 nz2 rap dap date dut elongm phim hm xp yp tdk pmb rh wl tlr
    ∃ φ elong, len (fun i => dir elong φ i - unit (displacedSite elongm phim xp yp) i) ≤ 4.6e-15 ∧
      len (fun i => dir o.hob o.dob i - (![-cos o.aob * sin o.zob * sin φ + cos o.zob * cos φ, -sin o.aob * sin o.zob, cos o.aob * sin o.zob * cos φ + cos o.zob * sin φ] : Vec3) i) ≤ 1.1e-14 ∧
      0 ≤ o.rob ∧ o.rob ≤ flD2PI fl ∧ ∃ k : ℤ, |o.rob - (gmst1982 date + elong + eqeqx + dut * 1.0027379093 * (2 * π / 86400) - o.hob + k * (2 * π))| ≤ 3.95e-12 := by
  intro o
  obtain ⟨elong, a1, a2, a3, a4, a5, a6, a7, a8, a9, a10, ⟨k, a11⟩, a12⟩ := C132_aoppa R hL hp refco eqeqx nz date dut elongm phim hm xp yp tdk pmb rh wl tlr h hd hx hy hh he
  obtain ⟨b1, -, -, b2, b3, l, b4⟩ := C130_aopqk_consistent R hL refro nz1 nz2 rap dap _ (flAoppa fl L pw refco eqeqx nz date dut elongm phim hm xp yp tdk pmb rh wl tlr) a4 a5 (a12.trans (by norm_num))
  refine ⟨_, elong, a1, b1, b2, b3, l + k, ?_⟩
  change |o.rob - _| ≤ _ at b4
  have e : ∀ x y z w s : ℝ, x - (y + elong + eqeqx + z - w + ((l + k : ℤ) : ℝ) * (2 * π)) = (x - (s - w + l * (2 * π))) + (s - (y + (flAoppa fl L pw refco eqeqx nz date dut elongm phim hm xp yp tdk pmb rh wl tlr).plon + k * (2 * π))) +
      ((flAoppa fl L pw refco eqeqx nz date dut elongm phim hm xp yp tdk pmb rh wl tlr).plon - (elong + eqeqx + z)) := fun x y z w s => by push_cast; ring
  rw [e _ _ _ _ (flAoppa fl L pw refco eqeqx nz date dut elongm phim hm xp yp tdk pmb rh wl tlr).st]
  refine (abs_add_le _ _).trans ((add_le_add ((abs_add_le _ _).trans (add_le_add b4 a11)) a10).trans (by norm_num))

/-- The same site and a place. -/
example : (flAop ieee roundedLibm (fun x y => x ^ y) (fun _ _ _ _ _ _ _ => (2.8e-4, -3.1e-7)) 4e-5 (fun _ => 0.005) false false false 1.2 (-0.3) 51000.1 25 2.1 0.5 3000 (-0.5e-6) 1e-6 280 550 0.6 0.45 0.006).rob ≤ flD2PI ieee := by
  obtain ⟨_, _, -, -, -, h, -⟩ := C132_aop_consistent ieee_rounding roundedLibm_ok powExample_ok (fun _ _ _ _ _ _ _ => (2.8e-4, -3.1e-7)) 4e-5 (fun _ => 0.005) false false false 1.2 (-0.3) 51000.1 25 2.1 0.5 3000 (-0.5e-6) 1e-6 280 550 0.6 0.45 0.006
    (by norm_num [abs_le]) (by norm_num [abs_le]) (by norm_num [abs_le]) (by norm_num [abs_le]) (by norm_num [abs_le]) (by norm_num [abs_le])
  exact h

end Pal.Props
