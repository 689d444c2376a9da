import Verif.Lemmas.FlMappa
import Verif.Props.FlPrec

/-!
# Nutation, the Earth ephemeris and the mean-to-apparent parameters in double precision
-/

namespace Pal.Props
open Real Pal.Spec Matrix

variable {fl : ℝ → ℝ} {L : Libm}

theorem small_mulVec {M Q : Mat3} {e : ℝ} (h : Small (M - Q) e) (x : Vec3) : len (fun i => (M *ᵥ x) i - (Q *ᵥ x) i) ≤ e * len x := by
  have := h x; rw [Matrix.sub_mulVec] at this; exact this

/-- C138: palNutc, palNut and palPrenut in double precision, for any epoch and date within 1000 years of 2000 and nutation angles (at most 1e-3 radians) returned by the library with an error of up to δ ≤ 1e-14: the angles are those of the library and the mean obliquity
is right to 2.4e-16 radians; the two matrices take every vector to that of exact arithmetic to 6e-15 + 2δ and 1.8e-14 + 2δ of its length. -/
theorem C138_nutation (R : Rounding fl) (hL : LibmOK L) (nf nx : ℝ → ℝ → ℝ × ℝ) (epoch date δ : ℝ) (h0 : |epoch - 2000| ≤ 1000) (h : |date - 51544.5| ≤ 365250)
    (h1 : |(nf 2400000.5 date).1 - (nx 2400000.5 date).1| ≤ δ) (h2 : |(nf 2400000.5 date).2 - (nx 2400000.5 date).2| ≤ δ) (hδ : δ ≤ 1e-14) (b1 : |(nx 2400000.5 date).1| ≤ 1e-3) (b2 : |(nx 2400000.5 date).2| ≤ 1e-3) :
    (|(flNutc fl nf date).1 - (palNutc (iau2006 nx) date).1| ≤ δ ∧ |(flNutc fl nf date).2.1 - (palNutc (iau2006 nx) date).2.1| ≤ δ ∧ |(flNutc fl nf date).2.2 - (palNutc (iau2006 nx) date).2.2| ≤ 2.4e-16) ∧
    (∀ x : Vec3, len (fun i => (flNut fl L nf date *ᵥ x) i - (palNut (iau2006 nx) date *ᵥ x) i) ≤ (6e-15 + 2 * δ) * len x) ∧
    ∀ x : Vec3, len (fun i => (flPrenut fl L nf epoch date *ᵥ x) i - (palPrenut (iau2006 nx) epoch date *ᵥ x) i) ≤ (1.8e-14 + 2 * δ) * len x :=
  ⟨⟨h1, h2, flObl06_err R h⟩, small_mulVec (flNut_small R hL h h1 h2 hδ b2), small_mulVec (flPrenut_small R hL h0 h h1 h2 hδ b1 b2)⟩

/-- C138: in double precision too, palPrenut from 2000 to a date is palPrec followed by palNut, to 3.6e-14 of the length of every vector (the nutation being whatever the library returns). -/
theorem C138_composition (R : Rounding fl) (hL : LibmOK L) (nf : ℝ → ℝ → ℝ × ℝ) (date : ℝ) (h : |date - 51544.5| ≤ 365250) (b1 : |(nf 2400000.5 date).1| ≤ 1e-3) (b2 : |(nf 2400000.5 date).2| ≤ 1e-3) (x : Vec3) :
    len (fun i => (flPrenut fl L nf 2000 date *ᵥ x) i - (flNut fl L nf date *ᵥ (flPrec fl L 2000 (flEpj fl date) *ᵥ x)) i) ≤ 3.6e-14 * len x := by
  have z : ∀ a : ℝ, |a - a| ≤ 0 := noerr
  have s1 := flPrenut_small R hL (epoch := 2000) (by norm_num) h (z _) (z _) (by norm_num) b1 b2
  have s2 := flNut_small R hL h (z _) (z _) (by norm_num) b2
  have s3 := flPrec_date R hL h
  obtain ⟨e, -⟩ := C97_prenut_composition nf date
  have e3 : palPrec (iau2006 nf) 2000 (palEpjR date) = eraPmat06 2451545 (date - 51544.5) := by
    unfold palPrec
    dsimp only
    rw [if_pos rfl, show (palEpjR date - 2000) * 365.25 = date - 51544.5 by unfold palEpjR rMJD0; ring]
    rfl
  rw [e, e3] at s1
  have hQ := pmat06_rot 2451545 (date - 51544.5)
  have hN := (C97_rotations nf).2.2 date date |>.2.2
  have l := len_nonneg x
  have t1 := small_mulVec s1 x
  have t3 := small_mulVec s3 x
  have t2 := small_mulVec s2 (flPrec fl L 2000 (flEpj fl date) *ᵥ x)
  rw [← Matrix.mulVec_mulVec] at t1
  set A := flPrec fl L 2000 (flEpj fl date) *ᵥ x
  set B := eraPmat06 2451545 (date - 51544.5) *ᵥ x
  have lB : len B = len x := rot_len hQ x
  have lA : len A ≤ 1.0001 * len x := by
    have := (abs_le.1 ((len_rev_tri A B).trans t3)).2
    rw [lB] at this
    norm_num at *; linarith
  have t4 : len (fun i => (palNut (iau2006 nf) date *ᵥ A) i - (palNut (iau2006 nf) date *ᵥ B) i) ≤ 8.2e-15 * len x := by
    have : (fun i => (palNut (iau2006 nf) date *ᵥ A) i - (palNut (iau2006 nf) date *ᵥ B) i) = palNut (iau2006 nf) date *ᵥ (fun i => A i - B i) := (Matrix.mulVec_sub _ A B).symm
    rw [this, rot_len hN]; exact t3
  have q1 := len_tri (flPrenut fl L nf 2000 date *ᵥ x) (palNut (iau2006 nf) date *ᵥ B) (flNut fl L nf date *ᵥ A)
  have q2 := len_tri (palNut (iau2006 nf) date *ᵥ B) (palNut (iau2006 nf) date *ᵥ A) (flNut fl L nf date *ᵥ A)
  rw [len_sub_comm (palNut (iau2006 nf) date *ᵥ B) (palNut (iau2006 nf) date *ᵥ A), len_sub_comm (palNut (iau2006 nf) date *ᵥ A) (flNut fl L nf date *ᵥ A)] at q2
  have t2' : (6e-15 + 2 * 0) * len A ≤ 6e-15 * (1.0001 * len x) := by
    rw [mul_zero, add_zero]; exact mul_le_mul_of_nonneg_left lA (by norm_num)
  norm_num at *
  linarith

/-- C138: palEvp in double precision, for a mean equinox within 1000 years of 2000 or none (deqx ≤ 0) and any ephemeris: each of the four vectors is that of exact arithmetic to 1e-14 of its length. -/
theorem C138_evp (R : Rounding fl) (hL : LibmOK L) (nut : ℝ → ℝ → ℝ × ℝ) (epv00 : ℝ → ℝ → Epv) (date deqx : ℝ) (h0 : |deqx - 2000| ≤ 1000 ∨ deqx ≤ 0) :
    let o := flEvp fl L epv00 date deqx
    let x := palEvp (iau2006 nut) epv00 date deqx
    (len x.ph ≤ 10 ^ 5 → len (fun i => o.ph i - x.ph i) ≤ 1e-14 * len x.ph + 1e-190) ∧ (len x.pb ≤ 10 ^ 5 → len (fun i => o.pb i - x.pb i) ≤ 1e-14 * len x.pb + 1e-190) ∧
    (len x.vh ≤ 10 ^ 5 → len (fun i => o.vh i - x.vh i) ≤ 1e-14 * len x.vh + 1e-190) ∧ (len x.vb ≤ 10 ^ 5 → len (fun i => o.vb i - x.vb i) ≤ 1e-14 * len x.vb + 1e-190) := by
  intro o x
  obtain ⟨c1, c2, c3, c4, l1, l2, l4⟩ := flEvp_err R hL nut epv00 (date := date) h0
  have l3 : len x.vh = len (epv00 2400000.5 date).vh / 86400 := by
    have hl := (flEvp_err R hL nut (fun a b => ⟨(epv00 a b).ph, (epv00 a b).vb, (epv00 a b).pb, (epv00 a b).vh⟩) (date := date) h0).2.2.2.2.2.2
    change len (palEvp _ _ _ _).vb = _ at hl
    dsimp only at hl
    rw [← hl]
    change len (palEvp _ _ _ _).vh = _
    unfold palEvp
    dsimp only
    split_ifs <;> rfl
  rw [l1, l2, l3, l4]
  have n1 := len_nonneg (epv00 2400000.5 date).ph
  have n2 := len_nonneg (epv00 2400000.5 date).pb
  refine ⟨fun h => (c1 (h.trans (by norm_num))).trans ?_, fun h => (c2 (h.trans (by norm_num))).trans ?_, fun h => c3 ?_, fun h => c4 ?_⟩
  · generalize (1e-190 : ℝ) = t; norm_num at *; linarith
  · generalize (1e-190 : ℝ) = t; norm_num at *; linarith
  · rw [div_le_iff₀ (by norm_num)] at h; exact h.trans (by norm_num)
  · rw [div_le_iff₀ (by norm_num)] at h; exact h.trans (by norm_num)

/-- C138: the parameters of palMappa in double precision, for an Earth between 0.95 and 1.05 AU from the Sun, at most 1.09 AU from the barycentre and no faster than 0.0185 AU a day: every one of the 21 numbers is that of exact arithmetic to the bound given for its part of
the array, and the last Lorentz factor does not exceed 1. -/
theorem C138_mappa (R : Rounding fl) (hL : LibmOK L) (nf nx : ℝ → ℝ → ℝ × ℝ) (epv00 : ℝ → ℝ → Epv) (eq date δ : ℝ) (h0 : |eq - 2000| ≤ 1000) (h : |date - 51544.5| ≤ 365250)
    (h1 : |(nf 2400000.5 date).1 - (nx 2400000.5 date).1| ≤ δ) (h2 : |(nf 2400000.5 date).2 - (nx 2400000.5 date).2| ≤ δ) (hδ : δ ≤ 1e-14) (b1 : |(nx 2400000.5 date).1| ≤ 1e-3) (b2 : |(nx 2400000.5 date).2| ≤ 1e-3)
    (p1 : 0.95 ≤ len (epv00 2400000.5 date).ph) (p2 : len (epv00 2400000.5 date).ph ≤ 1.05) (p3 : len (epv00 2400000.5 date).pb ≤ 1.09) (p4 : len (epv00 2400000.5 date).vb ≤ 0.0185) :
    let o := flMappa fl L nf epv00 eq date
    let x := palMappa (iau2006 nx) epv00 eq date
    |o.pmt - x.pmt| ≤ 8e-13 ∧ len (fun i => o.eb i - x.eb i) ≤ 1.06e-14 ∧ len (fun i => o.ehn i - x.ehn i) ≤ 1.25e-14 ∧ |o.gr2e - x.gr2e| ≤ 3e-22 ∧ len (fun i => o.abv i - x.abv i) ≤ 2.5e-18 ∧
    |o.ab1 - x.ab1| ≤ 1.8e-16 ∧ o.ab1 ≤ 1 ∧ ∀ v : Vec3, len (fun i => (o.mat *ᵥ v) i - (x.mat *ᵥ v) i) ≤ (1.8e-14 + 2 * δ) * len v := by
  obtain ⟨a1, a2, a3, a4, a5, a6, a7, a8, -⟩ := flMappa_err R hL epv00 h0 h h1 h2 hδ b1 b2 p1 p2 p3 p4
  exact ⟨a1, a2, a3, a4, a5, a6, a8, small_mulVec a7⟩

/-- An Earth on the x axis, one AU from the Sun and moving along y. -/
def demoEpv : ℝ → ℝ → Epv := fun _ _ => ⟨![1, 0, 0], ![0, 0.0172, 0], ![1, 0, 0], ![0, 0.0172, 0]⟩

theorem demoEpv_ok (a b : ℝ) : len (demoEpv a b).ph = 1 ∧ len (demoEpv a b).pb = 1 ∧ len (demoEpv a b).vb = 0.0172 := by
  refine ⟨?_, ?_, ?_⟩
  · simp [len, demoEpv, Fin.sum_univ_three]
  · simp [len, demoEpv, Fin.sum_univ_three]
  · have : √((0.0172 : ℝ) ^ 2) = 0.0172 := Real.sqrt_sq (by norm_num)
    simpa [len, demoEpv, Fin.sum_univ_three] using this

/-- With IEEE doubles, correctly rounded library functions and the nutation angles of one date, from the equinox of 1984 to the year 2026. -/
example : |(flMappa ieee roundedLibm (fun _ _ => (-3e-5, 4e-5)) demoEpv 1984 61362).ab1 - (palMappa (iau2006 fun _ _ => (-3e-5, 4e-5)) demoEpv 1984 61362).ab1| ≤ 1.8e-16 ∧
    len (fun i => (flPrenut ieee roundedLibm (fun _ _ => (-3e-5, 4e-5)) 2000 61362 *ᵥ ![1, 2, 3]) i - (flNut ieee roundedLibm (fun _ _ => (-3e-5, 4e-5)) 61362 *ᵥ (flPrec ieee roundedLibm 2000 (flEpj ieee 61362) *ᵥ ![1, 2, 3])) i) ≤ 3.6e-14 * len ![1, 2, 3] ∧
    len (fun i => (flNut ieee roundedLibm (fun _ _ => (-3e-5, 4e-5)) 61362 *ᵥ ![1, 2, 3]) i - (palNut (iau2006 fun _ _ => (-3e-5, 4e-5)) 61362 *ᵥ ![1, 2, 3]) i) ≤ (6e-15 + 2 * 0) * len ![1, 2, 3] ∧
    len (fun i => (flEvp ieee roundedLibm demoEpv 61362 2050).pb i - (palEvp (iau2006 fun _ _ => 0) demoEpv 61362 2050).pb i) ≤ 1e-14 * len (palEvp (iau2006 fun _ _ => 0) demoEpv 61362 2050).pb + 1e-190 := by
  obtain ⟨d1, d2, d3⟩ := demoEpv_ok 2400000.5 61362
  refine ⟨(C138_mappa ieee_rounding roundedLibm_ok _ (fun _ _ => (-3e-5, 4e-5)) demoEpv 1984 61362 0 (by norm_num) (by norm_num [abs_le]) (noerr _) (noerr _) (by norm_num) (by norm_num) (by norm_num [abs_le]) (by rw [d1]; norm_num) (by rw [d1]; norm_num)
      (by rw [d2]; norm_num) (by rw [d3]; norm_num)).2.2.2.2.2.1,
    C138_composition ieee_rounding roundedLibm_ok _ 61362 (by norm_num [abs_le]) (by norm_num) (by norm_num [abs_le]) _,
    (C138_nutation ieee_rounding roundedLibm_ok _ (fun _ _ => (-3e-5, 4e-5)) 2000 61362 0 (by norm_num) (by norm_num [abs_le]) (noerr _) (noerr _) (by norm_num) (by norm_num) (by norm_num [abs_le])).2.1 _,
    (C138_evp ieee_rounding roundedLibm_ok (fun _ _ => 0) demoEpv 61362 2050 (Or.inl (by norm_num))).2.1 ?_⟩
  have := (flEvp_err ieee_rounding roundedLibm_ok (fun _ _ => 0) demoEpv (date := 61362) (deqx := 2050) (Or.inl (by norm_num))).2.2.2.2.2.1
  rw [this, d2]; norm_num

end Pal.Props
