import Verif.Lemmas.FlRdplan

/-!
# C149: apparent places of the Moon, the Sun and the planets in double precision

`rdplanGst d` is Greenwich mean sidereal time at the TDB date `d`, with TT - UT = `deltaT`; `geoBody`, `observerAt` and `bodyRadius` (C68) are the exact geocentric state, the observer and the radius of a body.
-/

namespace Pal.Props
open Real Pal Pal.Spec Pal.Orbit Matrix

variable {fl : ℝ → ℝ} {L : Libm}

/-- C149: `deltaT` is palDt, from 1709 on. -/
theorem C149_deltaT (epoch : ℚ) (h : 1709 ≤ epoch) : deltaT epoch = (palDt epoch : ℝ) := by
  have : (1708.185161980887 : ℚ) ≤ epoch := le_trans (by norm_num) h
  unfold deltaT palDt
  dsimp only
  rw [if_pos this]
  push_cast
  ring

/-- C149: palRdplan in double precision, for the Moon, from 1727 to 2273, everywhere on the Earth: right ascension and declination point to within 1.6e-9 radians (0.0004 arcseconds) of the direction of exact arithmetic, the right ascension is
between 0 and 2π, and the diameter is right to 6e-11 radians; the library's nutation angles may be wrong by 1e-14, its arc sine by 2.3e-16. -/
theorem C149_moon (R : Rounding fl) (hL : LibmOK L) (asn : ℝ → ℝ) (hA : ∀ x, |x| ≤ 1 → |asn x - arcsin x| ≤ 2.3e-16) (nz : Bool) (nf nx : ℝ → ℝ → ℝ × ℝ) (plan94 plan94' : ℝ → ℝ → ℤ → PV × ℤ)
    (date elong phi : ℝ) (h : |date - 51544.5| ≤ 100000) (hE : |elong| ≤ 10)
    (h1 : |(nf 2400000.5 date).1 - (nx 2400000.5 date).1| ≤ 1e-14) (h2 : |(nf 2400000.5 date).2 - (nx 2400000.5 date).2| ≤ 1e-14) (b2 : |(nx 2400000.5 date).2| ≤ 1e-3) :
    let q := flRdplan fl L asn nz nf plan94 date 3 elong phi
    ∃ ra dec diam, palRdplan (iau2006 nx) plan94' palDmoon rdplanGst date 3 elong phi = some (ra, dec, diam) ∧ 0 ≤ q.1 ∧ q.1 < 2 * π ∧ |q.2.1| ≤ π / 2 + 4.5e-16 ∧
      len (fun i => dir q.1 q.2.1 i - dir ra dec i) ≤ 1.6e-9 ∧ |q.2.2 - diam| ≤ 6e-11 := by
  intro q
  obtain ⟨m1, m2, m3, m4, m5⟩ := rdplanMoon_err R hL h h1 h2 b2
  have hq : q = flRdplan fl L asn nz nf plan94' date 3 elong phi := by
    show flRdplan fl L asn nz nf plan94 date 3 elong phi = _
    unfold flRdplan flRdplanGeo
    simp
  obtain ⟨b, hb⟩ : ∃ b, b = geoBody (palPrenut (iau2006 nx) 2000 date) (palNut (iau2006 nx) date) (fun k => (palPlanet plan94' date k).1) (palDmoon date) 3 := ⟨_, rfl⟩
  have bp : b.p = palNut (iau2006 nx) date *ᵥ (palDmoon date).p := by rw [hb]; rfl
  have bv : b.v = palNut (iau2006 nx) date *ᵥ (palDmoon date).v := by rw [hb]; rfl
  rw [← bp] at m1 m3 m4
  rw [← bv] at m2 m5
  obtain ⟨-, o4⟩ := pvobs_len phi (rdplanGst date + elong)
  have d := abs_le.1 ((len_shift b.p (observerAt rdplanGst date elong phi).p).trans o4)
  have D1 : 0.002334 ≤ len (b.p - (observerAt rdplanGst date elong phi).p) := by norm_num at *; linarith [d.1]
  obtain ⟨ra, dec, diam, k1, k2, k3, k4, k5, k6⟩ := rdplan_all R hL hA nz nf (iau2006 nx) plan94' (phi := phi) h hE 3 b hb (a := 1.733e-12) m1 (le_trans m2 (by norm_num)) (by norm_num at *; linarith) (by norm_num at *; linarith) (by norm_num)
    (by norm_num at *; linarith) (by norm_num at *; linarith) (by rw [show bodyRadius 3 = 1738 from rfl]; norm_num at *; linarith)
  have hd : (1.733e-12 + 9.2e-15 + 2e-16 * len b.p) / len (b.p - (observerAt rdplanGst date elong phi).p) ≤ 7.5e-10 := by
    rw [div_le_iff₀ (by norm_num at *; linarith)]; norm_num at *; linarith
  have e3 : (((3 : Fin 9) : ℕ) : ℤ) = 3 := rfl
  rw [e3, ← hq] at k2 k3 k4 k5 k6
  rw [e3] at k1
  have hpi : flD2PI fl < 2 * π := by have := D2_pi.1; rw [flD2PI_eq R]; linarith
  exact ⟨ra, dec, diam, k1, k2, lt_of_le_of_lt k3 hpi, k4, k5.trans (by norm_num at *; linarith), k6.trans (by norm_num at *; linarith)⟩

/-- C149: palRdplan in double precision, for the Sun (body 0), when the library's Earth-Moon barycentre is 0.98 to 1.02 AU from the Sun: the direction is right to 3e-13 radians and the diameter to 1e-14. -/
theorem C149_sun (R : Rounding fl) (hL : LibmOK L) (asn : ℝ → ℝ) (hA : ∀ x, |x| ≤ 1 → |asn x - arcsin x| ≤ 2.3e-16) (nz : Bool) (nf nx : ℝ → ℝ → ℝ × ℝ) (plan94 : ℝ → ℝ → ℤ → PV × ℤ)
    (date elong phi : ℝ) (h : |date - 51544.5| ≤ 100000) (hE : |elong| ≤ 10)
    (h1 : |(nf 2400000.5 date).1 - (nx 2400000.5 date).1| ≤ 1e-14) (h2 : |(nf 2400000.5 date).2 - (nx 2400000.5 date).2| ≤ 1e-14) (b1 : |(nx 2400000.5 date).1| ≤ 1e-3) (b2 : |(nx 2400000.5 date).2| ≤ 1e-3)
    (r1 : 0.98 ≤ len (plan94 2400000.5 date 3).1.p) (r2 : len (plan94 2400000.5 date 3).1.p ≤ 1.02) (r3 : len (plan94 2400000.5 date 3).1.v ≤ 0.1) :
    let q := flRdplan fl L asn nz nf plan94 date 0 elong phi
    ∃ ra dec diam, palRdplan (iau2006 nx) plan94 palDmoon rdplanGst date 0 elong phi = some (ra, dec, diam) ∧ 0 ≤ q.1 ∧ q.1 < 2 * π ∧ |q.2.1| ≤ π / 2 + 4.5e-16 ∧
      len (fun i => dir q.1 q.2.1 i - dir ra dec i) ≤ 3e-13 ∧ |q.2.2 - diam| ≤ 1e-14 := by
  intro q
  obtain ⟨e1, e2, e3, e4⟩ := rdplanEarth_err R hL h h1 h2 b1 b2 (r2.trans (by norm_num)) r3
  obtain ⟨m1, m2, m3, m4, m5⟩ := rdplanMoon_err R hL h h1 h2 b2
  obtain ⟨-, -, p3, -⟩ := rdplanHel_err R hL h h1 h2 b1 b2 r2 (by norm_num) r3
  obtain ⟨b, hb⟩ : ∃ b, b = geoBody (palPrenut (iau2006 nx) 2000 date) (palNut (iau2006 nx) date) (fun k => (palPlanet plan94 date k).1) (palDmoon date) 0 := ⟨_, rfl⟩
  have bp : b.p = fun i => -((palPrenut (iau2006 nx) 2000 date *ᵥ (palPlanet plan94 date 3).1.p) i - 0.012150581 * (palNut (iau2006 nx) date *ᵥ (palDmoon date).p) i) := by rw [hb]; rfl
  have bv : b.v = fun i => -((palPrenut (iau2006 nx) 2000 date *ᵥ (palPlanet plan94 date 3).1.v) i - 0.012150581 * (palNut (iau2006 nx) date *ᵥ (palDmoon date).v) i) := by rw [hb]; rfl
  have neg : ∀ x y : Vec3, len (fun i => -x i - -y i) = len (fun i => x i - y i) := fun x y => by
    rw [show (fun i => -x i - -y i) = fun i => y i - x i by funext i; ring, len_sub_comm]
  have neg1 : ∀ x : Vec3, len (fun i => -x i) = len x := fun x => by
    rw [show (fun i => -x i) = fun i => (-1) * x i by funext i; ring, len_smul]; simp
  have l1 : len b.p ≤ 1.101 := by rw [bp, neg1]; exact e3
  have l2 : len b.v ≤ 1.161e-6 := by rw [bv, neg1]; exact e4
  have l0 : 0.9799 ≤ len b.p := by
    rw [bp, neg1]
    have := abs_le.1 (len_rev_tri (fun i => (palPrenut (iau2006 nx) 2000 date *ᵥ (palPlanet plan94 date 3).1.p) i - 0.012150581 * (palNut (iau2006 nx) date *ᵥ (palDmoon date).p) i) (palPrenut (iau2006 nx) 2000 date *ᵥ (palPlanet plan94 date 3).1.p))
    rw [show (fun i => (palPrenut (iau2006 nx) 2000 date *ᵥ (palPlanet plan94 date 3).1.p) i - 0.012150581 * (palNut (iau2006 nx) date *ᵥ (palDmoon date).p) i - (palPrenut (iau2006 nx) 2000 date *ᵥ (palPlanet plan94 date 3).1.p) i) =
      fun i => (-0.012150581) * (palNut (iau2006 nx) date *ᵥ (palDmoon date).p) i by funext i; ring, len_smul, abs_neg, abs_of_pos (by norm_num), p3] at this
    norm_num at *; linarith [this.1]
  have g1 : len (fun i => (flRdplanGeo fl L nf plan94 date ((0 : Fin 9) : ℕ)).p i - b.p i) ≤ 8.3e-14 := by
    unfold flRdplanGeo
    dsimp only
    rw [if_neg (by decide), if_pos (by decide), bp]
    dsimp only
    rw [neg]; exact e1
  have g2 : len (fun i => (flRdplanGeo fl L nf plan94 date ((0 : Fin 9) : ℕ)).v i - b.v i) ≤ 1e-17 := by
    unfold flRdplanGeo
    dsimp only
    rw [if_neg (by decide), if_pos (by decide), bv]
    dsimp only
    rw [neg]; exact e2.trans (by norm_num)
  obtain ⟨-, o4⟩ := pvobs_len phi (rdplanGst date + elong)
  have d := abs_le.1 ((len_shift b.p (observerAt rdplanGst date elong phi).p).trans o4)
  have D1 : 0.979 ≤ len (b.p - (observerAt rdplanGst date elong phi).p) := by norm_num at *; linarith [d.1]
  obtain ⟨ra, dec, diam, k1, k2, k3, k4, k5, k6⟩ := rdplan_all R hL hA nz nf (iau2006 nx) plan94 (phi := phi) h hE 0 b hb g1 g2 (by norm_num at *; linarith) (by norm_num at *; linarith) (by norm_num)
    (by norm_num at *; linarith) (by norm_num at *; linarith) (by rw [show bodyRadius 0 = 696000 from rfl]; norm_num at *; linarith)
  have hd : (8.3e-14 + 9.2e-15 + 2e-16 * len b.p) / len (b.p - (observerAt rdplanGst date elong phi).p) ≤ 9.5e-14 := by
    rw [div_le_iff₀ (by norm_num at *; linarith)]; norm_num at *; linarith
  have hpi : flD2PI fl < 2 * π := by have := D2_pi.1; rw [flD2PI_eq R]; linarith
  exact ⟨ra, dec, diam, k1, k2, lt_of_le_of_lt k3 hpi, k4, k5.trans (by norm_num at *; linarith), k6.trans (by norm_num at *; linarith)⟩

/-- C149: a number outside 0..8 gives exactly the result for the Sun, whatever the rounding. -/
theorem C149_other (asn : ℝ → ℝ) (nz : Bool) (nf : ℝ → ℝ → ℝ × ℝ) (plan94 : ℝ → ℝ → ℤ → PV × ℤ) (date elong phi : ℝ) (np : ℤ) (h : np < 0 ∨ 8 < np) :
    flRdplan fl L asn nz nf plan94 date np elong phi = flRdplan fl L asn nz nf plan94 date 0 elong phi := by
  unfold flRdplan
  have h' : np < 0 ∨ np > 8 := h
  rw [if_pos h', if_neg (show ¬ ((0 : ℤ) < 0 ∨ (0 : ℤ) > 8) by omega)]

/-- C149: palRdplan in double precision, for a planet (bodies 1, 2 and 4 to 8) that the library puts at most B ≤ 50 AU from the Sun, at a distance D of at least 0.1 AU from the observer: the direction is right to (1.5e-13 B + 3e-13) / D radians
(for Venus at its closest 2e-12, for Neptune 2e-13) and the diameter to (5e-15 B + 1e-14) / D. -/
theorem C149_planet (R : Rounding fl) (hL : LibmOK L) (asn : ℝ → ℝ) (hA : ∀ x, |x| ≤ 1 → |asn x - arcsin x| ≤ 2.3e-16) (nz : Bool) (nf nx : ℝ → ℝ → ℝ × ℝ) (plan94 : ℝ → ℝ → ℤ → PV × ℤ)
    (date elong phi : ℝ) (h : |date - 51544.5| ≤ 100000) (hE : |elong| ≤ 10)
    (h1 : |(nf 2400000.5 date).1 - (nx 2400000.5 date).1| ≤ 1e-14) (h2 : |(nf 2400000.5 date).2 - (nx 2400000.5 date).2| ≤ 1e-14) (b1 : |(nx 2400000.5 date).1| ≤ 1e-3) (b2 : |(nx 2400000.5 date).2| ≤ 1e-3)
    (r2 : len (plan94 2400000.5 date 3).1.p ≤ 1.1) (r3 : len (plan94 2400000.5 date 3).1.v ≤ 0.1)
    (n : Fin 9) (hn : n ≠ 0 ∧ n ≠ 3) (B D : ℝ) (s2 : len (plan94 2400000.5 date (n : ℕ)).1.p ≤ B) (hB : B ≤ 50) (s3 : len (plan94 2400000.5 date (n : ℕ)).1.v ≤ 0.1)
    (hD : D = len ((geoBody (palPrenut (iau2006 nx) 2000 date) (palNut (iau2006 nx) date) (fun k => (palPlanet plan94 date k).1) (palDmoon date) n).p - (observerAt rdplanGst date elong phi).p)) (hD' : 0.1 ≤ D) :
    let q := flRdplan fl L asn nz nf plan94 date (n : ℕ) elong phi
    ∃ ra dec diam, palRdplan (iau2006 nx) plan94 palDmoon rdplanGst date (n : ℕ) elong phi = some (ra, dec, diam) ∧ 0 ≤ q.1 ∧ q.1 < 2 * π ∧ |q.2.1| ≤ π / 2 + 4.5e-16 ∧
      len (fun i => dir q.1 q.2.1 i - dir ra dec i) ≤ (1.5e-13 * B + 3e-13) / D ∧ |q.2.2 - diam| ≤ (5e-15 * B + 1e-14) / D := by
  intro q
  have B0 := (len_nonneg _).trans s2
  obtain ⟨e1, e2, e3, e4⟩ := rdplanEarth_err R hL h h1 h2 b1 b2 r2 r3
  obtain ⟨p1, p2, p3, p4⟩ := rdplanHel_err R hL h h1 h2 b1 b2 s2 hB s3
  obtain ⟨b, hb⟩ : ∃ b, b = geoBody (palPrenut (iau2006 nx) 2000 date) (palNut (iau2006 nx) date) (fun k => (palPlanet plan94 date k).1) (palDmoon date) n := ⟨_, rfl⟩
  rw [← hb] at hD
  have bp : b.p = fun i => (palPrenut (iau2006 nx) 2000 date *ᵥ (palPlanet plan94 date (n : ℕ)).1.p) i -
      ((palPrenut (iau2006 nx) 2000 date *ᵥ (palPlanet plan94 date 3).1.p) i - 0.012150581 * (palNut (iau2006 nx) date *ᵥ (palDmoon date).p) i) := by
    rw [hb]; unfold geoBody; dsimp only; rw [if_neg hn.2, if_neg hn.1]; rfl
  have bv : b.v = fun i => (palPrenut (iau2006 nx) 2000 date *ᵥ (palPlanet plan94 date (n : ℕ)).1.v) i -
      ((palPrenut (iau2006 nx) 2000 date *ᵥ (palPlanet plan94 date 3).1.v) i - 0.012150581 * (palNut (iau2006 nx) date *ᵥ (palDmoon date).v) i) := by
    rw [hb]; unfold geoBody; dsimp only; rw [if_neg hn.2, if_neg hn.1]; rfl
  obtain ⟨x1, x2⟩ := fl_vsub R p1 e1 (p3.le.trans s2) e3 (by norm_num at *; linarith)
  obtain ⟨y1, y2⟩ := fl_vsub R p2 e2 p4 e4 (by norm_num)
  have n3 : ¬ ((n : ℕ) : ℤ) = 3 := fun c => hn.2 (Fin.ext (show (n : ℕ) = 3 by omega))
  have n0 : ¬ ((n : ℕ) : ℤ) = 0 := fun c => hn.1 (Fin.ext (show (n : ℕ) = 0 by omega))
  have g1 : len (fun i => (flRdplanGeo fl L nf plan94 date (n : ℕ)).p i - b.p i) ≤ 3.96e-14 * B + 8.33e-14 := by
    unfold flRdplanGeo
    dsimp only
    rw [if_neg n3, if_neg n0, bp]
    refine x1.trans ?_
    norm_num at *; linarith
  have g2 : len (fun i => (flRdplanGeo fl L nf plan94 date (n : ℕ)).v i - b.v i) ≤ 1e-17 := by
    unfold flRdplanGeo
    dsimp only
    rw [if_neg n3, if_neg n0, bv]
    exact y1.trans (by norm_num)
  have l1 : len b.p ≤ B + 1.101 := by rw [bp]; exact x2
  have l2 : len b.v ≤ 1.16e-6 + 1.161e-6 := by rw [bv]; exact y2
  have hrad : n ≠ 0 → bodyRadius n ≤ 71492 := by
    intro hn; unfold bodyRadius; fin_cases n <;> first | exact absurd rfl hn | norm_num
  have rad := hrad hn.1
  obtain ⟨ra, dec, diam, k1, k2, k3, k4, k5, k6⟩ := rdplan_all R hL hA nz nf (iau2006 nx) plan94 (phi := phi) h hE n b hb g1 g2 (by norm_num at *; linarith) (by norm_num at *; linarith) (by norm_num at *; linarith)
    (by rw [← hD]; norm_num at *; linarith) (by rw [← hD]; norm_num at *; linarith) (by rw [← hD]; norm_num at *; linarith)
  rw [← hD] at k5 k6
  have D0 : 0 < D := by norm_num at *; linarith
  have D2 : D ≤ B + 1.102 := by
    rw [hD]
    obtain ⟨-, o4⟩ := pvobs_len phi (rdplanGst date + elong)
    have d := abs_le.1 ((len_shift b.p (observerAt rdplanGst date elong phi).p).trans o4)
    norm_num at *; linarith [d.2]
  have hpi : flD2PI fl < 2 * π := by have := D2_pi.1; rw [flD2PI_eq R]; linarith
  refine ⟨ra, dec, diam, k1, k2, lt_of_le_of_lt k3 hpi, k4, k5.trans ?_, k6.trans ?_⟩
  · rw [← mul_div_assoc, le_div_iff₀ D0, add_mul, div_mul_cancel₀ _ D0.ne']
    norm_num at *; linarith
  · rw [← mul_div_assoc, le_div_iff₀ D0, add_mul, div_mul_cancel₀ _ D0.ne']
    norm_num at *; linarith

/-- Non-vacuity: with IEEE rounding, a rounded library and no nutation the Moon seen from Greenwich. -/
example (plan94 : ℝ → ℝ → ℤ → PV × ℤ) (asn : ℝ → ℝ) (hA : ∀ x, |x| ≤ 1 → |asn x - arcsin x| ≤ 2.3e-16) :
    ∃ ra dec diam, palRdplan (iau2006 fun _ _ => (0, 0)) plan94 palDmoon rdplanGst 60000.25 3 0 0.9 = some (ra, dec, diam) ∧
      |(flRdplan ieee roundedLibm asn false (fun _ _ => (0, 0)) plan94 60000.25 3 0 0.9).2.2 - diam| ≤ 6e-11 := by
  obtain ⟨ra, dec, diam, h1, -, -, -, -, h2⟩ := C149_moon ieee_rounding roundedLibm_ok asn hA false (fun _ _ => (0, 0)) (fun _ _ => (0, 0)) plan94 plan94 60000.25 0 0.9 (by rw [abs_le]; constructor <;> norm_num) (by norm_num)
    (by norm_num) (by norm_num) (by norm_num)
  exact ⟨ra, dec, diam, h1, h2⟩

/-- A solar system at rest: the Earth-Moon barycentre at 1 AU, the planets at 5 AU on the same side. -/
noncomputable def restPlan : ℝ → ℝ → ℤ → PV × ℤ := fun _ _ n => ({ p := ![if n = 3 then 1 else 5, 0, 0], v := fun _ => 0 }, 0)

theorem restPlan_len (n : ℤ) : len (restPlan 2400000.5 60000.25 n).1.p = (if n = 3 then 1 else 5) ∧ len (restPlan 2400000.5 60000.25 n).1.v = 0 := by
  constructor
  · unfold restPlan len
    dsimp only
    rw [Fin.sum_univ_three]
    split_ifs <;> simp
  · unfold restPlan len
    simp

/-- Non-vacuity: the Sun. -/
example : ∃ ra dec diam, palRdplan (iau2006 fun _ _ => (0, 0)) restPlan palDmoon rdplanGst 60000.25 0 0 0.9 = some (ra, dec, diam) ∧
    |(flRdplan ieee roundedLibm arcsin false (fun _ _ => (0, 0)) restPlan 60000.25 0 0 0.9).2.2 - diam| ≤ 1e-14 := by
  obtain ⟨e1, e2⟩ := restPlan_len 3
  rw [if_pos rfl] at e1
  obtain ⟨ra, dec, diam, h1, -, -, -, -, h2⟩ := C149_sun ieee_rounding roundedLibm_ok arcsin (fun x _ => by norm_num) false (fun _ _ => (0, 0)) (fun _ _ => (0, 0)) restPlan 60000.25 0 0.9 (by rw [abs_le]; constructor <;> norm_num)
    (by norm_num) (by norm_num) (by norm_num) (by norm_num) (by norm_num) (by rw [e1]; norm_num) (by rw [e1]; norm_num) (by rw [e2]; norm_num)
  exact ⟨ra, dec, diam, h1, h2⟩

/-- Non-vacuity: a planet. -/
example : ∃ ra dec diam, palRdplan (iau2006 fun _ _ => (0, 0)) restPlan palDmoon rdplanGst 60000.25 5 0 0.9 = some (ra, dec, diam) := by
  obtain ⟨e1, e2⟩ := restPlan_len 3
  obtain ⟨e3, e4⟩ := restPlan_len 5
  rw [if_pos rfl] at e1
  rw [if_neg (by decide)] at e3
  have hM : IsRotation (palPrenut (iau2006 fun _ _ => (0, 0)) 2000 60000.25) := ((C97_rotations fun _ _ => (0, 0)).2.2 2000 60000.25).2.1
  have hN : IsRotation (palNut (iau2006 fun _ _ => (0, 0)) 60000.25) := deuler_rot _ _ _ _
  obtain ⟨b, hb⟩ : ∃ b, b = geoBody (palPrenut (iau2006 fun _ _ => (0, 0)) 2000 60000.25) (palNut (iau2006 fun _ _ => (0, 0)) 60000.25) (fun k => (palPlanet restPlan 60000.25 k).1) (palDmoon 60000.25) 5 := ⟨_, rfl⟩
  have hd : |(60000.25 : ℝ) - 15019.5| ≤ 1095750 := by rw [abs_le]; constructor <;> norm_num
  obtain ⟨-, m2⟩ := C88_distance 60000.25 hd
  obtain ⟨-, o4⟩ := pvobs_len 0.9 (rdplanGst 60000.25 + 0)
  have l : 0.1 ≤ len (b.p - (observerAt rdplanGst 60000.25 0 0.9).p) := by
    have k1 := abs_le.1 ((len_shift b.p (observerAt rdplanGst 60000.25 0 0.9).p).trans o4)
    have e : b.p = palPrenut (iau2006 fun _ _ => (0, 0)) 2000 60000.25 *ᵥ (palPlanet restPlan 60000.25 5).1.p -
        (palPrenut (iau2006 fun _ _ => (0, 0)) 2000 60000.25 *ᵥ (palPlanet restPlan 60000.25 3).1.p - (0.012150581 : ℝ) • (palNut (iau2006 fun _ _ => (0, 0)) 60000.25 *ᵥ (palDmoon 60000.25).p)) := by rw [hb]; rfl
    have k2 := abs_le.1 (len_shift (palPrenut (iau2006 fun _ _ => (0, 0)) 2000 60000.25 *ᵥ (palPlanet restPlan 60000.25 5).1.p)
      (palPrenut (iau2006 fun _ _ => (0, 0)) 2000 60000.25 *ᵥ (palPlanet restPlan 60000.25 3).1.p - (0.012150581 : ℝ) • (palNut (iau2006 fun _ _ => (0, 0)) 60000.25 *ᵥ (palDmoon 60000.25).p)))
    have k3 := abs_le.1 (len_shift (palPrenut (iau2006 fun _ _ => (0, 0)) 2000 60000.25 *ᵥ (palPlanet restPlan 60000.25 3).1.p) ((0.012150581 : ℝ) • (palNut (iau2006 fun _ _ => (0, 0)) 60000.25 *ᵥ (palDmoon 60000.25).p)))
    have k4 : len ((0.012150581 : ℝ) • (palNut (iau2006 fun _ _ => (0, 0)) 60000.25 *ᵥ (palDmoon 60000.25).p)) = 0.012150581 * len (palDmoon 60000.25).p := by
      have := len_smul 0.012150581 (palNut (iau2006 fun _ _ => (0, 0)) 60000.25 *ᵥ (palDmoon 60000.25).p)
      rw [rot_len hN, abs_of_pos (by norm_num)] at this
      exact this
    rw [← e, rot_len hM, show len (palPlanet restPlan 60000.25 5).1.p = 5 from e3] at k2
    rw [k4, rot_len hM, show len (palPlanet restPlan 60000.25 3).1.p = 1 from e1] at k3
    norm_num at *
    linarith [k1.1, k2.1, k3.2]
  rw [hb] at l
  obtain ⟨ra, dec, diam, h1, -⟩ := C149_planet ieee_rounding roundedLibm_ok arcsin (fun x _ => by norm_num) false (fun _ _ => (0, 0)) (fun _ _ => (0, 0)) restPlan 60000.25 0 0.9 (by rw [abs_le]; constructor <;> norm_num)
    (by norm_num) (by norm_num) (by norm_num) (by norm_num) (by norm_num) (by rw [e1]; norm_num) (by rw [e2]; norm_num) 5 (by decide) 5 _ e3.le (by norm_num) (by rw [show (restPlan 2400000.5 60000.25 ((5 : Fin 9) : ℕ)).1.v = (restPlan 2400000.5 60000.25 5).1.v from rfl, e4]; norm_num) rfl l
  exact ⟨ra, dec, diam, h1⟩

end Pal.Props
