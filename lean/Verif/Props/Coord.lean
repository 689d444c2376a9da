import Verif.Lemmas.Coord

/-!
# Properties C35, C36, C39, C40, C41, C76: ecliptic, galactic, supergalactic coordinates, E-terms, radial velocities, airmass
-/

namespace Pal.Props
open Pal Pal.Spec Real Matrix

theorem eqecl_dir (T : Theory) (hT : ∀ a b, IsRotation (T.pmat06 a b)) (r d date : ℝ) :
    dir (palEqecl T r d date).1 (palEqecl T r d date).2 =
      (axisX (T.obl06 2400000.5 date)).mulVec ((T.pmat06 2451545 (date - 51544.5)).mulVec (dir r d)) := by
  have hd : (palEpjR date - 2000) * 365.25 = date - 51544.5 := by unfold palEpjR rMJD0; ring
  unfold palEqecl
  dsimp only
  rw [drange_lat, eraS2c_eq, eraRxp_eq, eraRxp_eq, ecmat_eq, palPrec]
  dsimp only
  rw [if_pos rfl, hd, c2s_anp]
  · rfl
  · rw [rot_dot (rot_axisX _), rot_dot (hT _ _), dot_dir]

theorem ecleq_dir (T : Theory) (hT : ∀ a b, IsRotation (T.pmat06 a b)) (l b date : ℝ) :
    dir (palEcleq T l b date).1 (palEcleq T l b date).2 =
      (T.pmat06 2451545 (date - 51544.5)).transpose.mulVec ((axisX (T.obl06 2400000.5 date)).transpose.mulVec (dir l b)) := by
  have hd : (palEpjR date - 2000) * 365.25 = date - 51544.5 := by unfold palEpjR rMJD0; ring
  unfold palEcleq
  dsimp only
  rw [drange_lat, eraS2c_eq, eraTrxp_eq, eraTrxp_eq, ecmat_eq, palPrec]
  dsimp only
  rw [if_pos rfl, hd, c2s_anp]
  · rfl
  · rw [rot_dot (rot_transpose (hT _ _)), rot_dot (rot_transpose (rot_axisX _)), dot_dir]

/-- **C35** (geometry) palEqecl is precession from J2000 to the mean equator and equinox of date followed by the tilt of the ecliptic about the equinox, with both angles in the
conventional ranges. -/
theorem C35_eqecl (T : Theory) (hT : ∀ a b, IsRotation (T.pmat06 a b)) (r d date : ℝ) :
    dir (palEqecl T r d date).1 (palEqecl T r d date).2 =
      (axisX (T.obl06 2400000.5 date)).mulVec ((T.pmat06 2451545 (date - 51544.5)).mulVec (dir r d)) ∧
    (palEqecl T r d date).1 ∈ Set.Ico 0 (2 * π) ∧ |(palEqecl T r d date).2| ≤ π / 2 ∧
    (palEcleq T r d date).1 ∈ Set.Ico 0 (2 * π) ∧ |(palEcleq T r d date).2| ≤ π / 2 := by
  refine ⟨eqecl_dir T hT r d date, (eraAnp_spec _).1, ?_, (eraAnp_spec _).1, ?_⟩
  · unfold palEqecl; dsimp only; rw [drange_lat]; exact (eraC2s_range _).2
  · unfold palEcleq; dsimp only; rw [drange_lat]; exact (eraC2s_range _).2

/-- **C35** (inverse) The two ecliptic conversions return the same direction in both orders at every date, and exactly the same coordinates when they are in range. -/
theorem C35_ecliptic_inverse (T : Theory) (hT : ∀ a b, IsRotation (T.pmat06 a b)) (x y date : ℝ) :
    (let e := palEcleq T x y date; let r := palEqecl T e.1 e.2 date
     dir r.1 r.2 = dir x y ∧ (0 ≤ x → x < 2 * π → |y| < π / 2 → r = (x, y))) ∧
    (let q := palEqecl T x y date; let r := palEcleq T q.1 q.2 date
     dir r.1 r.2 = dir x y ∧ (0 ≤ x → x < 2 * π → |y| < π / 2 → r = (x, y))) := by
  have exact_of : ∀ r : ℝ × ℝ, dir r.1 r.2 = dir x y → r.1 ∈ Set.Ico 0 (2 * π) → |r.2| ≤ π / 2 →
      0 ≤ x → x < 2 * π → |y| < π / 2 → r = (x, y) := by
    intro r hd h1 h2 hx hx' hy
    obtain ⟨e1, e2⟩ := dir_inj hd h2 hy.le
    refine Prod.ext ?_ e1
    refine (e2 ?_).eq_of_Ico (c := 0) (by simpa using h1) (by simpa using ⟨hx, hx'⟩)
    rw [e1]
    exact (Real.cos_pos_of_mem_Ioo (abs_lt.1 hy)).ne'
  have hr : ∀ a b, (palEqecl T a b date).1 ∈ Set.Ico 0 (2 * π) ∧ |(palEqecl T a b date).2| ≤ π / 2 ∧
      (palEcleq T a b date).1 ∈ Set.Ico 0 (2 * π) ∧ |(palEcleq T a b date).2| ≤ π / 2 := fun a b => (C35_eqecl T hT a b date).2
  constructor
  · dsimp only
    have hd : dir (palEqecl T (palEcleq T x y date).1 (palEcleq T x y date).2 date).1 (palEqecl T (palEcleq T x y date).1 (palEcleq T x y date).2 date).2 =
        dir x y := by
      rw [eqecl_dir T hT, ecleq_dir T hT, mulVec_mulVec, mulVec_mulVec, mulVec_mulVec, Matrix.mul_assoc, Matrix.mul_assoc, ← Matrix.mul_assoc (T.pmat06 _ _), (hT _ _).1, Matrix.one_mul,
        (rot_axisX _).1, one_mulVec]
    exact ⟨hd, exact_of _ hd (hr _ _).1 (hr _ _).2.1⟩
  · dsimp only
    have hd : dir (palEcleq T (palEqecl T x y date).1 (palEqecl T x y date).2 date).1 (palEcleq T (palEqecl T x y date).1 (palEqecl T x y date).2 date).2 =
        dir x y := by
      rw [ecleq_dir T hT, eqecl_dir T hT, mulVec_mulVec, mulVec_mulVec, mulVec_mulVec, Matrix.mul_assoc, Matrix.mul_assoc, ← Matrix.mul_assoc (axisX _).transpose, rot_trans_mul (rot_axisX _),
        Matrix.one_mul, rot_trans_mul (hT _ _), one_mulVec]
    exact ⟨hd, exact_of _ hd (hr _ _).2.2.1 (hr _ _).2.2.2⟩

/-- Non-vacuity: a theory whose precession matrices are genuine, date-dependent rotations. -/
noncomputable def demoTheory : Theory where
  pmat06 _ b := axisZ (b / 1000)
  obl06 _ b := 0.4 - b / 10 ^ 9
  nut06a _ _ := (0.001, 0.002)
  p06e _ _ := ⟨0.4, 0.01, 0.4, 0.001⟩
  pnm06a _ b := axisX (b / 1000)

example : ∀ a b, IsRotation (demoTheory.pmat06 a b) := fun _ b => rot_axisZ (b / 1000)

theorem gal_orth : ∀ i j, |(galeqMat.transpose * eqgalMat) i j - (1 : Mat3) i j| ≤ 1 / 10 ^ 10 := by
  intro i j
  fin_cases i <;> fin_cases j <;> simp [galeqMat, eqgalMat, Matrix.mul_apply, Fin.sum_univ_three] <;> rw [abs_le] <;> constructor <;> norm_num

theorem gal_orth' : ∀ i j, |(eqgalMat * galeqMat.transpose) i j - (1 : Mat3) i j| ≤ 1 / 10 ^ 10 := by
  intro i j
  fin_cases i <;> fin_cases j <;> simp [galeqMat, eqgalMat, Matrix.mul_apply, Fin.sum_univ_three] <;> rw [abs_le] <;> constructor <;> norm_num

theorem sup_orth : ∀ i j, |(supgalMat.transpose * galsupMat) i j - (1 : Mat3) i j| ≤ 1 / 10 ^ 12 := by
  intro i j
  fin_cases i <;> fin_cases j <;> simp [supgalMat, galsupMat, Matrix.mul_apply, Fin.sum_univ_three] <;> rw [abs_le] <;> constructor <;> norm_num

theorem sup_orth' : ∀ i j, |(galsupMat * supgalMat.transpose) i j - (1 : Mat3) i j| ≤ 1 / 10 ^ 12 := by
  intro i j
  fin_cases i <;> fin_cases j <;> simp [supgalMat, galsupMat, Matrix.mul_apply, Fin.sum_univ_three] <;> rw [abs_le] <;> constructor <;> norm_num

/-- **C36** Round trips between equatorial and galactic, and between galactic and supergalactic coordinates return the original direction to within 6e-10 and 6e-12 (length of the
difference of the unit vectors), and all the results are in conventional ranges. -/
theorem C36_galactic (x y : ℝ) :
    (let g := palEqgal x y; let e := palGaleq g.1 g.2; len (fun i => dir e.1 e.2 i - dir x y i) ≤ 6 / 10 ^ 10) ∧
    (let e := palGaleq x y; let g := palEqgal e.1 e.2; len (fun i => dir g.1 g.2 i - dir x y i) ≤ 6 / 10 ^ 10) ∧
    (let s := palGalsup x y; let g := palSupgal s.1 s.2; len (fun i => dir g.1 g.2 i - dir x y i) ≤ 6 / 10 ^ 12) ∧
    (let g := palSupgal x y; let s := palGalsup g.1 g.2; len (fun i => dir s.1 s.2 i - dir x y i) ≤ 6 / 10 ^ 12) ∧
    (∀ c ∈ [palEqgal x y, palGaleq x y, palGalsup x y, palSupgal x y], c.1 ∈ Set.Ico 0 (2 * π) ∧ |c.2| ≤ π / 2) := by
  have h1 : ∀ a b, (fun i => √(dot (eqgalMat.mulVec (dir a b)) (eqgalMat.mulVec (dir a b))) * dir (palEqgal a b).1 (palEqgal a b).2 i) = eqgalMat.mulVec (dir a b) := by
    intro a b; unfold palEqgal; dsimp only; rw [anpm_lat, eraRxp_eq, eraS2c_eq]; exact c2s_dir _
  have h2 : ∀ a b, (fun i => √(dot (galeqMat.transpose.mulVec (dir a b)) (galeqMat.transpose.mulVec (dir a b))) * dir (palGaleq a b).1 (palGaleq a b).2 i) =
      galeqMat.transpose.mulVec (dir a b) := by
    intro a b; unfold palGaleq; dsimp only; rw [anpm_lat, eraTrxp_eq, eraS2c_eq]; exact c2s_dir _
  have h3 : ∀ a b, (fun i => √(dot (galsupMat.mulVec (dir a b)) (galsupMat.mulVec (dir a b))) * dir (palGalsup a b).1 (palGalsup a b).2 i) = galsupMat.mulVec (dir a b) := by
    intro a b; unfold palGalsup; dsimp only; rw [anpm_lat, eraRxp_eq, eraS2c_eq]; exact c2s_dir _
  have h4 : ∀ a b, (fun i => √(dot (supgalMat.transpose.mulVec (dir a b)) (supgalMat.transpose.mulVec (dir a b))) * dir (palSupgal a b).1 (palSupgal a b).2 i) =
      supgalMat.transpose.mulVec (dir a b) := by
    intro a b; unfold palSupgal; dsimp only; rw [anpm_lat, eraTrxp_eq, eraS2c_eq]; exact c2s_dir _
  refine ⟨?_, ?_, ?_, ?_, ?_⟩
  · have := near_roundtrip (by norm_num) gal_orth x y (Real.sqrt_nonneg _) (Real.sqrt_nonneg _) (h1 x y) (h2 _ _) (dot_dir _ _)
    dsimp only; refine this.trans (by norm_num)
  · have := near_roundtrip (by norm_num) gal_orth' x y (Real.sqrt_nonneg _) (Real.sqrt_nonneg _) (h2 x y) (h1 _ _) (dot_dir _ _)
    dsimp only; refine this.trans (by norm_num)
  · have := near_roundtrip (by norm_num) sup_orth x y (Real.sqrt_nonneg _) (Real.sqrt_nonneg _) (h3 x y) (h4 _ _) (dot_dir _ _)
    dsimp only; refine this.trans (by norm_num)
  · have := near_roundtrip (by norm_num) sup_orth' x y (Real.sqrt_nonneg _) (Real.sqrt_nonneg _) (h4 x y) (h3 _ _) (dot_dir _ _)
    dsimp only; refine this.trans (by norm_num)
  · intro c hc
    simp only [List.mem_cons, List.not_mem_nil, or_false] at hc
    rcases hc with h | h | h | h <;> rw [h] <;>
      first
      | (refine ⟨(eraAnp_spec _).1, ?_⟩; unfold palEqgal; dsimp only; rw [anpm_lat]; exact (eraC2s_range _).2)
      | (refine ⟨(eraAnp_spec _).1, ?_⟩; unfold palGaleq; dsimp only; rw [anpm_lat]; exact (eraC2s_range _).2)
      | (refine ⟨(eraAnp_spec _).1, ?_⟩; unfold palGalsup; dsimp only; rw [anpm_lat]; exact (eraC2s_range _).2)
      | (refine ⟨(eraAnp_spec _).1, ?_⟩; unfold palSupgal; dsimp only; rw [anpm_lat]; exact (eraC2s_range _).2)

/-! ## E-terms -/

/-- Eccentricity, longitude of perihelion and obliquity (radians) of the Earth's orbit, `T` in Julian centuries after B1950. -/
noncomputable def earthEcc (T : ℝ) : ℝ := 0.01673011 - 4.193e-5 * T - 1.26e-7 * T ^ 2
@[inherit_doc earthEcc] noncomputable def earthPeri (T : ℝ) : ℝ := (1015489.951 + 6190.67 * T + 1.65 * T ^ 2 + 0.012 * T ^ 3) * (π / 648000)
@[inherit_doc earthEcc] noncomputable def earthObl (T : ℝ) : ℝ := (84404.836 - 46.8495 * T - 0.00319 * T ^ 2 - 0.00181 * T ^ 3) * (π / 648000)

/-- **C39** (the E-terms) palEtrms is the constant part of the annual aberration: a vector of length e times the constant of aberration (20.49552 seconds of arc), in the plane of the ecliptic, pointing to the
longitude 90 degrees behind the perihelion. -/
theorem C39_etrms_vector (ep : ℝ) :
    let T := (ep - 1950) * 0.0100002135903
    let l := earthPeri T - π / 2
    palEtrms ep = fun i => earthEcc T * (20.49552 * (π / 648000)) * (axisX (-earthObl T) *ᵥ dir l 0) i := by
  dsimp only
  unfold palEtrms
  dsimp only
  generalize (ep - 1950) * 0.0100002135903 = t
  have h1 : (((t * 0.012 + 1.65) * t + 6190.67) * t + 1015489.951) * das2r = earthPeri t := by unfold earthPeri das2r; ring
  have h2 : (84404.836 - ((t * 0.00181 + 0.00319) * t + 46.8495) * t) * das2r = earthObl t := by unfold earthObl das2r; ring
  have h3 : (0.01673011 - (t * 1.26e-7 + 4.193e-5) * t) * 20.49552 * das2r = earthEcc t * (20.49552 * (π / 648000)) := by unfold earthEcc das2r; ring
  rw [h1, h2, h3]
  generalize earthEcc t * (20.49552 * (π / 648000)) = k
  ext i
  fin_cases i <;> simp [axisX, dir, Matrix.mulVec, dotProduct, Fin.sum_univ_three, cos_sub_pi_div_two, sin_sub_pi_div_two] <;> ring

theorem etrms_len (ep : ℝ) : len (palEtrms ep) =
    |(0.01673011 - ((ep - 1950) * 0.0100002135903 * 1.26e-7 + 4.193e-5) * ((ep - 1950) * 0.0100002135903)) * 20.49552 * (π / 648000)| := by
  unfold palEtrms
  dsimp only
  rw [len_eq, ← Real.sqrt_mul_self_eq_abs]
  congr 1
  rw [dot_eq]
  simp only [Matrix.cons_val_zero, Matrix.cons_val_one, Matrix.cons_val]
  generalize (84404.836 - (((ep - 1950) * 0.0100002135903 * 0.00181 + 0.00319) * ((ep - 1950) * 0.0100002135903) + 46.8495) * ((ep - 1950) * 0.0100002135903)) * das2r = a
  generalize ((((ep - 1950) * 0.0100002135903 * 0.012 + 1.65) * ((ep - 1950) * 0.0100002135903) + 6190.67) * ((ep - 1950) * 0.0100002135903) + 1015489.951) * das2r = b
  generalize (0.01673011 - ((ep - 1950) * 0.0100002135903 * 1.26e-7 + 4.193e-5) * ((ep - 1950) * 0.0100002135903)) = e
  unfold das2r
  have h1 := sin_sq_add_cos_sq a
  have h2 := sin_sq_add_cos_sq b
  generalize π / 648000 = k
  linear_combination (e * 20.49552 * k) ^ 2 * h2 + (e * 20.49552 * k) ^ 2 * (cos b) ^ 2 * h1

/-- **C39** (size) The E-terms vector has the length of the eccentricity times the constant of aberration; over the years 1600 to 2400 it is below 1.7e-6 radian. -/
theorem C39_etrms_size (ep : ℝ) (h1 : 1600 ≤ ep) (h2 : ep ≤ 2400) : len (palEtrms ep) ≤ 1.7e-6 := by
  rw [etrms_len, abs_mul, abs_of_pos (show (0 : ℝ) < π / 648000 by positivity)]
  have hp := Real.pi_lt_d4
  have he : |(0.01673011 - ((ep - 1950) * 0.0100002135903 * 1.26e-7 + 4.193e-5) * ((ep - 1950) * 0.0100002135903)) * 20.49552| ≤ 0.3462 := by
    rw [abs_le]
    constructor <;> nlinarith
  have := mul_le_mul he (show π / 648000 ≤ 3.1416 / 648000 by linarith) (by positivity) (by norm_num)
  refine this.trans ?_
  norm_num

theorem addet_dir (rm dm eq : ℝ) : (fun i => √(dot (fun i => dir rm dm i + palEtrms eq i) (fun i => dir rm dm i + palEtrms eq i)) *
    dir (palAddet rm dm eq).1 (palAddet rm dm eq).2 i) = fun i => dir rm dm i + palEtrms eq i := by
  unfold palAddet
  dsimp only
  rw [eraS2c_eq]
  exact c2s_dir _

theorem subet_dir (rc dc eq : ℝ) : (fun i => √(dot (fun i => (1 + dot (dir rc dc) (palEtrms eq)) * dir rc dc i - palEtrms eq i)
      (fun i => (1 + dot (dir rc dc) (palEtrms eq)) * dir rc dc i - palEtrms eq i)) *
    dir (palSubet rc dc eq).1 (palSubet rc dc eq).2 i) = fun i => (1 + dot (dir rc dc) (palEtrms eq)) * dir rc dc i - palEtrms eq i := by
  unfold palSubet
  dsimp only
  rw [eraS2c_eq, eraPdp_eq]
  exact c2s_dir _

theorem unit_add {v a u : Vec3} {k : ℝ} (hk : 0 ≤ k) (hv : dot v v = 1) (hu : dot u u = 1) (h : ∀ i, k * u i = v i + a i) (ha : dot a a ≤ 1 / 4) :
    ((1 + dot u a - k) ^ 2 ≤ (dot a a) ^ 2) := by
  have hc := cauchy u a
  rw [hu, one_mul] at hc
  have h0 := h 0; have h1 := h 1; have h2 := h 2
  have e : (k - dot u a) ^ 2 = 1 - dot a a + dot u a ^ 2 := by
    rw [dot_eq] at hv hu
    have ev0 : v 0 = k * u 0 - a 0 := by linarith
    have ev1 : v 1 = k * u 1 - a 1 := by linarith
    have ev2 : v 2 = k * u 2 - a 2 := by linarith
    rw [ev0, ev1, ev2] at hv
    simp only [dot_eq]
    linear_combination hv - k ^ 2 * hu
  generalize dot u a = c at *
  have hA := dot_self_nonneg a
  generalize dot a a = A at *
  -- k ≥ 1/2 ≥ |c|
  have hs : 0 ≤ k - c := by
    by_contra hcon
    push Not at hcon
    have hc2 : c ≤ 1 / 2 := by nlinarith
    nlinarith
  have hs1 : (k - c) ≤ 1 := by nlinarith
  have : 0 ≤ 1 + c - k := by linarith
  have h3 : 1 + c - k ≤ A := by nlinarith
  nlinarith

/-- **C39** (adding) palAddet displaces the direction by exactly the E-terms vector; palSubet applies the documented first-order rule; right ascensions are in [0, 2π) and
declinations within ±90°. -/
theorem C39_addet_subet (r d eq : ℝ) :
    (∃ k, 0 ≤ k ∧ ∀ i, k * dir (palAddet r d eq).1 (palAddet r d eq).2 i = dir r d i + palEtrms eq i) ∧
    (∃ k, 0 ≤ k ∧ ∀ i, k * dir (palSubet r d eq).1 (palSubet r d eq).2 i = (1 + dot (dir r d) (palEtrms eq)) * dir r d i - palEtrms eq i) ∧
    (∀ c ∈ [palAddet r d eq, palSubet r d eq], c.1 ∈ Set.Ico 0 (2 * π) ∧ |c.2| ≤ π / 2) := by
  refine ⟨⟨_, Real.sqrt_nonneg _, fun i => congrFun (addet_dir r d eq) i⟩, ⟨_, Real.sqrt_nonneg _, fun i => congrFun (subet_dir r d eq) i⟩, ?_⟩
  intro c hc
  simp only [List.mem_cons, List.not_mem_nil, or_false] at hc
  rcases hc with h | h <;> rw [h]
  · refine ⟨(eraAnp_spec _).1, ?_⟩; unfold palAddet; dsimp only; exact (eraC2s_range _).2
  · refine ⟨(eraAnp_spec _).1, ?_⟩; unfold palSubet; dsimp only; exact (eraC2s_range _).2

/-- **C39** (inverse) Adding and then removing the E-terms of one equinox returns the direction to second order in their size, removing and adding to third order. -/
theorem C39_inverse (r d eq : ℝ) (ha : len (palEtrms eq) ≤ 1 / 2) :
    (let c := palAddet r d eq; let m := palSubet c.1 c.2 eq; len (fun i => dir m.1 m.2 i - dir r d i) ≤ 2 * len (palEtrms eq) ^ 2) ∧
    (let m := palSubet r d eq; let c := palAddet m.1 m.2 eq; len (fun i => dir c.1 c.2 i - dir r d i) ≤ 2 * len (palEtrms eq) ^ 3) := by
  have hL : len (palEtrms eq) ^ 2 = dot (palEtrms eq) (palEtrms eq) := by rw [len_eq, Real.sq_sqrt (dot_self_nonneg _)]
  have hL0 : 0 ≤ len (palEtrms eq) := by rw [len_eq]; exact Real.sqrt_nonneg _
  have ha' : dot (palEtrms eq) (palEtrms eq) ≤ 1 / 4 := by rw [← hL]; nlinarith
  constructor
  · dsimp only
    obtain ⟨⟨k, hk, h1⟩, _, _⟩ := C39_addet_subet r d eq
    obtain ⟨_, ⟨k', hk', h2⟩, _⟩ := C39_addet_subet (palAddet r d eq).1 (palAddet r d eq).2 eq
    generalize (palSubet (palAddet r d eq).1 (palAddet r d eq).2 eq) = m at *
    have hu := dot_dir (palAddet r d eq).1 (palAddet r d eq).2
    have hv := dot_dir r d
    have hm := dot_dir m.1 m.2
    generalize dir (palAddet r d eq).1 (palAddet r d eq).2 = u at *
    generalize dir r d = v at *
    generalize dir m.1 m.2 = w at *
    generalize palEtrms eq = a at *
    have hq := unit_add hk hv hu h1 ha'
    rw [hL]
    refine len_le (by have := dot_self_nonneg a; linarith) ?_
    refine unit_near hk' hm hv ?_
    have a0 := h2 0; have a1 := h2 1; have a2 := h2 2
    have b0 := h1 0; have b1 := h1 1; have b2 := h1 2
    rw [a0, a1, a2]
    rw [dot_eq u u] at hu
    calc _ = (1 + dot u a - k) ^ 2 * (u 0 * u 0 + u 1 * u 1 + u 2 * u 2) := by
          rw [show v 0 = k * u 0 - a 0 by linarith, show v 1 = k * u 1 - a 1 by linarith, show v 2 = k * u 2 - a 2 by linarith]; ring
      _ ≤ _ := by rw [hu, mul_one]; exact hq
  · dsimp only
    obtain ⟨_, ⟨k', hk', h2⟩, _⟩ := C39_addet_subet r d eq
    obtain ⟨⟨k, hk, h1⟩, _, _⟩ := C39_addet_subet (palSubet r d eq).1 (palSubet r d eq).2 eq
    generalize (palAddet (palSubet r d eq).1 (palSubet r d eq).2 eq) = m at *
    have hu := dot_dir (palSubet r d eq).1 (palSubet r d eq).2
    have hv := dot_dir r d
    have hm := dot_dir m.1 m.2
    generalize dir (palSubet r d eq).1 (palSubet r d eq).2 = u at *
    generalize dir r d = v at *
    generalize dir m.1 m.2 = w at *
    generalize palEtrms eq = a at *
    have hc := cauchy v a
    rw [hv, one_mul] at hc
    -- k' u = f v - a
    have e : k' ^ 2 = 1 - dot v a ^ 2 + dot a a := by
      have a0 := h2 0; have a1 := h2 1; have a2 := h2 2
      have hu' := hu
      rw [dot_eq] at hu'
      have hv' := hv
      rw [dot_eq] at hv'
      have q : k' ^ 2 * (u 0 * u 0 + u 1 * u 1 + u 2 * u 2) = (k' * u 0) ^ 2 + (k' * u 1) ^ 2 + (k' * u 2) ^ 2 := by ring
      rw [hu', a0, a1, a2, mul_one] at q
      rw [q]
      have hc' : dot v a = v 0 * a 0 + v 1 * a 1 + v 2 * a 2 := dot_eq v a
      have ha2 : dot a a = a 0 * a 0 + a 1 * a 1 + a 2 * a 2 := dot_eq a a
      rw [ha2]
      generalize dot v a = c at *
      linear_combination (1 + c) ^ 2 * hv' + 2 * (1 + c) * hc'
    have hA := dot_self_nonneg a
    generalize hcdef : dot v a = c at *
    have hf : 1 / 2 ≤ 1 + c := by nlinarith
    have hk1 : 1 ≤ k' := by nlinarith
    have hk2 : k' - 1 ≤ dot a a / 2 := by nlinarith
    have hr : 0 ≤ k * k' / (1 + c) := by positivity
    refine len_le (by positivity) ?_
    refine unit_near hr hm hv ?_
    have hcomp : ∀ i, k * k' / (1 + c) * w i - v i = (k' - 1) / (1 + c) * a i := by
      intro i
      have a0 := h2 i
      have b0 := h1 i
      have hne : 1 + c ≠ 0 := by linarith
      field_simp
      linear_combination k' * b0 + a0
    rw [hcomp, hcomp, hcomp]
    have hq : (k' - 1) / (1 + c) ≤ dot a a := by
      rw [div_le_iff₀ (by linarith)]; nlinarith
    have hq0 : 0 ≤ (k' - 1) / (1 + c) := div_nonneg (by linarith) (by linarith)
    calc _ = ((k' - 1) / (1 + c)) ^ 2 * dot a a := by rw [dot_eq]; ring
      _ ≤ dot a a ^ 2 * dot a a := by
          apply mul_le_mul_of_nonneg_right _ hA
          exact pow_le_pow_left₀ hq0 hq 2
      _ = (len a ^ 3) ^ 2 := by rw [← hL]; ring

example : len (palEtrms 1950) ≤ 1 / 2 := (C39_etrms_size 1950 (by norm_num) (by norm_num)).trans (by norm_num)

/-- **C76** palGe50 rotates galactic coordinates to B1950 by (the transpose of) a matrix that is orthogonal to within 2e-12, and adds the E-terms of 1950: removing those with palSubet gives
the rotated direction to within 1e-11. -/
theorem C76_ge50 (l b : ℝ) :
    (∀ i j, |(ge50Mat.transpose * ge50Mat) i j - (1 : Mat3) i j| ≤ 2 / 10 ^ 12) ∧
    (palGe50 l b).1 ∈ Set.Ico 0 (2 * π) ∧ |(palGe50 l b).2| ≤ π / 2 ∧
    ∃ (u : Vec3) (k : ℝ), 0 ≤ k ∧ dot u u = 1 ∧ (fun i => k * u i) = ge50Mat.transpose.mulVec (dir l b) ∧
      (let m := palSubet (palGe50 l b).1 (palGe50 l b).2 1950; len (fun i => dir m.1 m.2 i - u i) ≤ 1 / 10 ^ 11) := by
  have hlat : ∀ r d, eraAnpm (palAddet r d 1950).2 = (palAddet r d 1950).2 := fun r d => by unfold palAddet; dsimp only; exact anpm_lat _
  have hlon : ∀ r d, eraAnp (palAddet r d 1950).1 = (palAddet r d 1950).1 := fun r d => eraAnp_eq (eraAnp_spec _).1
  refine ⟨?_, (eraAnp_spec _).1, ?_, ?_⟩
  · intro i j
    fin_cases i <;> fin_cases j <;> simp [ge50Mat, Matrix.mul_apply, Fin.sum_univ_three] <;> rw [abs_le] <;> constructor <;> norm_num
  · unfold palGe50; dsimp only; rw [hlat]; exact ((C39_addet_subet _ _ _).2.2 _ (List.mem_cons_self ..)).2
  · refine ⟨dir (eraC2s (ge50Mat.transpose.mulVec (dir l b))).1 (eraC2s (ge50Mat.transpose.mulVec (dir l b))).2,
      √(dot (ge50Mat.transpose.mulVec (dir l b)) (ge50Mat.transpose.mulVec (dir l b))), Real.sqrt_nonneg _, dot_dir _ _, ?_, ?_⟩
    · have := eraC2s_spec (ge50Mat.transpose.mulVec (dir l b))
      rw [eraPm_eq] at this
      exact this
    · have hs := C39_etrms_size 1950 (by norm_num) (by norm_num)
      have hL0 : 0 ≤ len (palEtrms 1950) := by rw [len_eq]; exact Real.sqrt_nonneg _
      have := (C39_inverse (eraC2s (ge50Mat.transpose.mulVec (dir l b))).1 (eraC2s (ge50Mat.transpose.mulVec (dir l b))).2 1950 (hs.trans (by norm_num))).1
      dsimp only at this ⊢
      unfold palGe50
      dsimp only
      rw [eraS2c_eq, eraTrxp_eq, hlat, hlon]
      refine this.trans ?_
      nlinarith

/-! ## Radial velocities -/

theorem dir_antipode (r d : ℝ) (i : Fin 3) : dir (r + π) (-d) i = -dir r d i := by
  fin_cases i <;> simp [dir, cos_add, sin_add]

/-- **C40** (antipodes) Opposite directions give opposite radial velocities. -/
theorem C40_antipodal (r d : ℝ) (phi st : ℝ) :
    palRvgalc (r + π) (-d) = -palRvgalc r d ∧ palRvlg (r + π) (-d) = -palRvlg r d ∧ palRvlsrd (r + π) (-d) = -palRvlsrd r d ∧
    palRvlsrk (r + π) (-d) = -palRvlsrk r d ∧ palRverot phi (r + π) (-d) st = -palRverot phi r d st := by
  refine ⟨?_, ?_, ?_, ?_, ?_⟩
  · unfold palRvgalc; simp only [eraS2c_eq, eraPdp_eq, dot_eq, dir_antipode]; ring
  · unfold palRvlg; simp only [eraS2c_eq, eraPdp_eq, dot_eq, dir_antipode]; ring
  · unfold palRvlsrd; simp only [eraS2c_eq, eraPdp_eq, dot_eq, dir_antipode]; ring
  · unfold palRvlsrk; simp only [eraS2c_eq, eraPdp_eq, dot_eq, dir_antipode]; ring
  · unfold palRverot; rw [show st - (r + π) = st - r - π by ring, sin_sub_pi, cos_neg]; ring

theorem rv_bound (va : Vec3) (s : ℝ) (hs : 0 ≤ s) (h : dot va va ≤ s ^ 2) (r d : ℝ) : |eraPdp va (eraS2c r d)| ≤ s := by
  rw [eraPdp_eq, eraS2c_eq]
  refine (abs_dot_le _ _).trans ?_
  rw [dot_dir, Real.sqrt_one, mul_one]
  exact Real.sqrt_le_iff.2 ⟨hs, h⟩

/-- **C40** (speeds) The components never exceed the documented speeds of 220, 300, about 16.6 and 20 km/s (to the rounding of the published vectors), and 0.4655 cos(latitude) km/s. -/
theorem C40_speed (r d phi st : ℝ) :
    |palRvgalc r d| ≤ 220.00001 ∧ |palRvlg r d| ≤ 300 ∧ |palRvlsrd r d| ≤ 16.6 ∧ |palRvlsrk r d| ≤ 20 ∧ |palRverot phi r d st| ≤ 0.4655 * |cos phi| := by
  refine ⟨rv_bound _ _ (by norm_num) ?_ _ _, rv_bound _ _ (by norm_num) ?_ _ _, rv_bound _ _ (by norm_num) ?_ _ _, rv_bound _ _ (by norm_num) ?_ _ _, ?_⟩
  · rw [dot_eq]; simp only [Matrix.cons_val_zero, Matrix.cons_val_one, Matrix.cons_val]; norm_num
  · rw [dot_eq]; simp only [Matrix.cons_val_zero, Matrix.cons_val_one, Matrix.cons_val]; norm_num
  · rw [dot_eq]; simp only [Matrix.cons_val_zero, Matrix.cons_val_one, Matrix.cons_val]; norm_num
  · rw [dot_eq]; simp only [Matrix.cons_val_zero, Matrix.cons_val_one, Matrix.cons_val]; norm_num
  · unfold palRverot
    rw [abs_mul, abs_mul, abs_mul, abs_of_pos (show (0 : ℝ) < 0.4655 by norm_num)]
    have h1 := Real.abs_sin_le_one (st - r)
    have h2 := Real.abs_cos_le_one d
    have h0 : 0 ≤ 0.4655 * |cos phi| := by positivity
    calc _ ≤ 0.4655 * |cos phi| * 1 * 1 := by
          apply mul_le_mul _ h2 (abs_nonneg _) (by linarith)
          exact mul_le_mul_of_nonneg_left h1 h0
      _ = _ := by ring

theorem rv_galactic (va W : Vec3) (h : ∀ j, |va j + eqgalMat.transpose.mulVec W j| ≤ 1 / 10 ^ 5) (hW : |W 0| + |W 1| + |W 2| ≤ 400) (r d : ℝ) :
    |eraPdp va (eraS2c r d) + dot W (dir (palEqgal r d).1 (palEqgal r d).2)| ≤ 1 / 10 ^ 4 := by
  rw [eraPdp_eq, eraS2c_eq]
  have h1 : (fun i => √(dot (eqgalMat.mulVec (dir r d)) (eqgalMat.mulVec (dir r d))) * dir (palEqgal r d).1 (palEqgal r d).2 i) = eqgalMat.mulVec (dir r d) := by
    unfold palEqgal; dsimp only; rw [anpm_lat, eraRxp_eq, eraS2c_eq]; exact c2s_dir _
  have hu := dot_dir (palEqgal r d).1 (palEqgal r d).2
  have hv := dot_dir r d
  generalize dir (palEqgal r d).1 (palEqgal r d).2 = u at *
  generalize dir r d = v at *
  have hk0 := Real.sqrt_nonneg (dot (eqgalMat.mulVec v) (eqgalMat.mulVec v))
  have hk2 := Real.mul_self_sqrt (dot_self_nonneg (eqgalMat.mulVec v))
  generalize √(dot (eqgalMat.mulVec v) (eqgalMat.mulVec v)) = k at *
  have hv1 : ∀ i, |v i| ≤ 1 := by
    intro i
    rw [dot_eq] at hv
    rw [abs_le]
    fin_cases i <;> constructor <;> simp <;> nlinarith [sq_nonneg (v 0), sq_nonneg (v 1), sq_nonneg (v 2)]
  have hu1 : ∀ i, |u i| ≤ 1 := by
    intro i
    rw [dot_eq] at hu
    rw [abs_le]
    fin_cases i <;> constructor <;> simp <;> nlinarith [sq_nonneg (u 0), sq_nonneg (u 1), sq_nonneg (u 2)]
  -- the modulus of the rotated vector is nearly one
  have hk : |k - 1| ≤ 1 / 10 ^ 8 := by
    have hgg : galeqMat = eqgalMat := rfl
    have ho := gal_orth
    rw [hgg] at ho
    have e : dot (eqgalMat.mulVec v) (eqgalMat.mulVec v) = dot v ((eqgalMat.transpose * eqgalMat).mulVec v) := by
      rw [dot_dotProduct, dot_dotProduct, ← mulVec_mulVec, dotProduct_mulVec v, vecMul_transpose]
    have hn := near_orth ho hv
    rw [e] at hk2
    generalize (eqgalMat.transpose * eqgalMat).mulVec v = w at *
    have hb : |dot v w - 1| ≤ 9 / 10 ^ 10 := by
      have e2 : dot v w - 1 = v 0 * (w 0 - v 0) + v 1 * (w 1 - v 1) + v 2 * (w 2 - v 2) := by
        rw [← hv]; simp only [dot_eq]; ring
      rw [e2]
      have c0 : |w 0 - v 0| ≤ 3 / 10 ^ 10 := abs_le_of_sq_le_sq (by nlinarith [sq_nonneg (w 1 - v 1), sq_nonneg (w 2 - v 2)]) (by norm_num)
      have c1 : |w 1 - v 1| ≤ 3 / 10 ^ 10 := abs_le_of_sq_le_sq (by nlinarith [sq_nonneg (w 0 - v 0), sq_nonneg (w 2 - v 2)]) (by norm_num)
      have c2 : |w 2 - v 2| ≤ 3 / 10 ^ 10 := abs_le_of_sq_le_sq (by nlinarith [sq_nonneg (w 0 - v 0), sq_nonneg (w 1 - v 1)]) (by norm_num)
      have hp : ∀ a b : ℝ, |a| ≤ 1 → |b| ≤ 3 / 10 ^ 10 → |a * b| ≤ 3 / 10 ^ 10 := by
        intro a b ha hb
        rw [abs_mul]; calc _ ≤ 1 * (3 / 10 ^ 10 : ℝ) := mul_le_mul ha hb (abs_nonneg _) (by norm_num)
          _ = _ := by norm_num
      have p0 := hp _ _ (hv1 0) c0
      have p1 := hp _ _ (hv1 1) c1
      have p2 := hp _ _ (hv1 2) c2
      calc _ ≤ |v 0 * (w 0 - v 0)| + |v 1 * (w 1 - v 1)| + |v 2 * (w 2 - v 2)| := abs_add_three _ _ _
        _ ≤ _ := by linarith
    rw [abs_le] at hb ⊢
    constructor <;> nlinarith
  -- split into the two small parts
  have hsplit : dot va v + dot W u = dot (fun j => va j + eqgalMat.transpose.mulVec W j) v - (k - 1) * dot W u := by
    have e1 : dot (eqgalMat.transpose.mulVec W) v = k * dot W u := by
      rw [← dot_smul_right, h1, dot_dotProduct, dot_dotProduct, dotProduct_mulVec, mulVec_transpose]
    have e2 : dot (fun j => va j + eqgalMat.transpose.mulVec W j) v = dot va v + dot (eqgalMat.transpose.mulVec W) v := by
      simp only [dot_eq]; ring
    rw [e2, e1]; ring
  rw [hsplit]
  have hA : |dot (fun j => va j + eqgalMat.transpose.mulVec W j) v| ≤ 3 / 10 ^ 5 := by
    rw [dot_eq]
    have hp : ∀ a b : ℝ, |a| ≤ 1 / 10 ^ 5 → |b| ≤ 1 → |a * b| ≤ 1 / 10 ^ 5 := by
      intro a b ha hb
      rw [abs_mul]; calc _ ≤ (1 / 10 ^ 5 : ℝ) * 1 := mul_le_mul ha hb (abs_nonneg _) (by norm_num)
        _ = _ := by norm_num
    calc _ ≤ _ := abs_add_three _ _ _
      _ ≤ 1 / 10 ^ 5 + 1 / 10 ^ 5 + 1 / 10 ^ 5 := add_le_add (add_le_add (hp _ _ (h 0) (hv1 0)) (hp _ _ (h 1) (hv1 1))) (hp _ _ (h 2) (hv1 2))
      _ ≤ _ := by norm_num
  have hB : |dot W u| ≤ 400 := by
    rw [dot_eq]
    have hp : ∀ a b : ℝ, |b| ≤ 1 → |a * b| ≤ |a| := by
      intro a b hb
      rw [abs_mul]; exact mul_le_of_le_one_right (abs_nonneg _) hb
    calc _ ≤ _ := abs_add_three _ _ _
      _ ≤ |W 0| + |W 1| + |W 2| := add_le_add (add_le_add (hp _ _ (hu1 0)) (hp _ _ (hu1 1))) (hp _ _ (hu1 2))
      _ ≤ _ := hW
  have hC : |(k - 1) * dot W u| ≤ 1 / 10 ^ 8 * 400 := by
    rw [abs_mul]; exact mul_le_mul hk hB (abs_nonneg _) (by norm_num)
  calc _ ≤ _ := abs_sub _ _
    _ ≤ 3 / 10 ^ 5 + 1 / 10 ^ 8 * 400 := add_le_add hA hC
    _ ≤ _ := by norm_num

/-- **C40** (galactic motion) With l, b from palEqgal: palRvgalc is minus the component of 220 km/s towards l = 90°, b = 0; palRvlg that of 300 km/s towards the same apex, and palRvlsrd
that of the peculiar motion (+9,+12,+7) km/s in galactic Cartesian coordinates, within 0.0001 km/s, positive for recession. -/
theorem C40_galactic (r d : ℝ) :
    let g := palEqgal r d
    |palRvgalc r d + 220 * (cos g.2 * sin g.1)| ≤ 1 / 10 ^ 4 ∧
    |palRvlg r d + 300 * (cos g.2 * sin g.1)| ≤ 1 / 10 ^ 4 ∧
    |palRvlsrd r d + (9 * (cos g.2 * cos g.1) + 12 * (cos g.2 * sin g.1) + 7 * sin g.2)| ≤ 1 / 10 ^ 4 := by
  refine ⟨?_, ?_, ?_⟩
  · have := rv_galactic ![-108.70408, 97.86251, -164.33610] ![0, 220, 0] (by
      intro j; fin_cases j <;> simp [eqgalMat, mulVec, dotProduct, Fin.sum_univ_three] <;> rw [abs_le] <;> constructor <;> norm_num) (by simp; norm_num) r d
    simp only [dot_eq, dir, Matrix.cons_val_zero, Matrix.cons_val_one, Matrix.cons_val] at this
    simpa [palRvgalc] using this
  · have := rv_galactic ![-148.23284, 133.44888, -224.09467] ![0, 300, 0] (by
      intro j; fin_cases j <;> simp [eqgalMat, mulVec, dotProduct, Fin.sum_univ_three] <;> rw [abs_le] <;> constructor <;> norm_num) (by simp; norm_num) r d
    simp only [dot_eq, dir, Matrix.cons_val_zero, Matrix.cons_val_one, Matrix.cons_val] at this
    simpa [palRvlg] using this
  · have := rv_galactic ![0.63823, 14.58542, -7.80116] ![9, 12, 7] (by
      intro j; fin_cases j <;> simp [eqgalMat, mulVec, dotProduct, Fin.sum_univ_three] <;> rw [abs_le] <;> constructor <;> norm_num) (by simp; norm_num) r d
    simp only [dot_eq, dir, Matrix.cons_val_zero, Matrix.cons_val_one, Matrix.cons_val] at this
    simpa [palRvlsrd] using this

/-- **C40** (Earth rotation) palRverot is minus the component, along the line of sight, of the velocity of a point of the sphere carried eastwards at 0.4655 km/s on the equator: the
rate of change of the zenith direction with local sidereal time. -/
theorem C40_rverot (phi ra da st : ℝ) :
    HasDerivAt (fun s => -0.4655 * dot (dir s phi) (dir ra da)) (palRverot phi ra da st) st := by
  have : (fun s => -0.4655 * dot (dir s phi) (dir ra da)) =
      fun s => -0.4655 * (cos phi * cos s * (cos da * cos ra) + cos phi * sin s * (cos da * sin ra) + sin phi * sin da) := by
    funext s; simp [dot_eq, dir]
  rw [this]
  have h := ((((hasDerivAt_cos st).const_mul (cos phi)).mul_const (cos da * cos ra)).add
    (((hasDerivAt_sin st).const_mul (cos phi)).mul_const (cos da * sin ra))).add_const (sin phi * sin da)
  have h2 := h.const_mul (-0.4655 : ℝ)
  refine h2.congr_deriv ?_
  unfold palRverot
  rw [sin_sub]; ring

/-! ## Airmass -/

theorem cos87 : 1 / 20 ≤ cos (87 * (π / 180)) := by
  have h : cos (87 * (π / 180)) = sin (π / 60) := by
    rw [← Real.cos_pi_div_two_sub]; congr 1; ring
  rw [h]
  have h1 := Real.pi_gt_d4
  have h2 := Real.pi_lt_d4
  have h3 := Real.sin_gt_sub_cube (x := π / 60) (by positivity)
  have h4 : (π / 60) ^ 3 ≤ (3.1416 / 60) ^ 3 := pow_le_pow_left₀ (by positivity) (by linarith) 3
  norm_num at h4
  linarith

theorem airmas_aux (z : ℝ) (h0 : 0 ≤ z) (h1 : z ≤ 87 * (π / 180)) : 0 ≤ 1 / cos z - 1 ∧ 1 / cos z - 1 ≤ 19 := by
  have hp := Real.pi_pos
  have hc : cos (87 * (π / 180)) ≤ cos z := Real.cos_le_cos_of_nonneg_of_le_pi h0 (by linarith) h1
  have h20 := cos87.trans hc
  have hpos : 0 < cos z := by linarith
  constructor
  · have := Real.cos_le_one z
    rw [sub_nonneg, le_div_iff₀ hpos]; linarith
  · have : 1 / cos z ≤ 20 := by rw [div_le_iff₀ hpos]; linarith
    linarith

theorem airmas_poly {s t : ℝ} (hs : 0 ≤ s) (hst : s ≤ t) (ht : t ≤ 19) :
    1 + s * (0.9981833 - s * (0.002875 + 0.0008083 * s)) ≤ 1 + t * (0.9981833 - t * (0.002875 + 0.0008083 * t)) := by
  have h : 0 ≤ 0.9981833 - 0.002875 * (s + t) - 0.0008083 * (s ^ 2 + s * t + t ^ 2) := by nlinarith
  have := mul_nonneg (sub_nonneg.2 hst) h
  nlinarith

/-- **C41** palAirmas ignores the sign of the zenith distance, is 1 at the zenith, at least 1 and at most sec z, non-decreasing in |zd|, and constant beyond 87°. -/
theorem C41_airmas :
    (∀ z, palAirmas (-z) = palAirmas z) ∧ palAirmas 0 = 1 ∧ (∀ z, 1 ≤ palAirmas z) ∧
    (∀ z, |z| ≤ 87 * (π / 180) → palAirmas z ≤ 1 / cos z) ∧
    (∀ z z', |z| ≤ |z'| → palAirmas z ≤ palAirmas z') ∧
    (∀ z z', 87 * (π / 180) ≤ |z| → 87 * (π / 180) ≤ |z'| → palAirmas z = palAirmas z') := by
  have hp := Real.pi_pos
  have hmin : ∀ z : ℝ, (if |z| > 87 * (π / 180) then 87 * (π / 180) else |z|) = min |z| (87 * (π / 180)) := by
    intro z
    split_ifs with h
    · rw [min_eq_right h.le]
    · rw [min_eq_left (not_lt.1 h)]
  have hval : ∀ z, palAirmas z = 1 + (1 / cos (min |z| (87 * (π / 180))) - 1) * (0.9981833 - (1 / cos (min |z| (87 * (π / 180))) - 1) *
      (0.002875 + 0.0008083 * (1 / cos (min |z| (87 * (π / 180))) - 1))) := by
    intro z; unfold palAirmas; dsimp only; rw [hmin]
  have haux : ∀ z : ℝ, 0 ≤ 1 / cos (min |z| (87 * (π / 180))) - 1 ∧ 1 / cos (min |z| (87 * (π / 180))) - 1 ≤ 19 := fun z =>
    airmas_aux _ (le_min (abs_nonneg z) (by positivity)) (min_le_right _ _)
  have hmono : ∀ z z', |z| ≤ |z'| → palAirmas z ≤ palAirmas z' := by
    intro z z' h
    rw [hval, hval]
    refine airmas_poly (haux z).1 ?_ (haux z').2
    have hle : min |z| (87 * (π / 180)) ≤ min |z'| (87 * (π / 180)) := min_le_min_right _ h
    have hc := Real.cos_le_cos_of_nonneg_of_le_pi (le_min (abs_nonneg z) (by positivity)) ((min_le_right |z'| (87 * (π / 180))).trans (by linarith)) hle
    have hc' : 0 < cos (min |z'| (87 * (π / 180))) := by
      have := cos87.trans (Real.cos_le_cos_of_nonneg_of_le_pi (le_min (abs_nonneg z') (by positivity)) (by linarith) (min_le_right |z'| (87 * (π / 180))))
      linarith
    have := one_div_le_one_div_of_le hc' hc
    linarith
  have h0 : palAirmas 0 = 1 := by
    rw [hval, abs_zero, min_eq_left (by positivity)]; simp
  refine ⟨?_, h0, ?_, ?_, hmono, ?_⟩
  · intro z; rw [hval, hval, abs_neg]
  · intro z
    rw [← h0]; exact hmono 0 z (by rw [abs_zero]; exact abs_nonneg z)
  · intro z hz
    obtain ⟨a, b⟩ := haux z
    rw [hval]
    rw [min_eq_left hz, Real.cos_abs] at *
    generalize 1 / cos z = q at *
    nlinarith [mul_nonneg a a, mul_nonneg (mul_nonneg a a) a]
  · intro z z' h h'
    rw [hval, hval, min_eq_right h, min_eq_right h']

example : 87 * (π / 180) ≤ |π / 2| := by rw [abs_of_pos (by positivity)]; linarith [Real.pi_pos]

end Pal.Props
