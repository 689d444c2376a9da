import Verif.Lemmas.FlOap
import Verif.Props.FlSphere

/-!
# Apparent to observed place and back in double precision

The reference is the model over the real numbers (palAopqk, palOapqk) with the same parameters, whose own meaning is C56, C57 and C81. Directions are compared as vectors (`dir`), so that nothing is claimed about an azimuth at the zenith
or a right ascension at the pole.
-/

namespace Pal.Props
open Real Pal.Spec

variable {fl : ℝ → ℝ} {L : Libm}

/-- C130: in double precision the hour angle and declination of palAopqk are the direction of its azimuth and zenith distance seen from the latitude φ, to 1.1e-14 radians, and its right ascension is the sidereal time less the hour angle,
to 5e-15 radians and whole turns, in [0, 2π]; for every place and every parameters (whose elements [1] and [2] are the sine and cosine of φ as the C library gives them), at any zenith distance and whatever palRefro delivers. -/
theorem C130_aopqk_consistent (R : Rounding fl) (hL : LibmOK L) (refro : ℝ → ℝ) (nz1 nz2 : Bool) (rap dap φ : ℝ) (p : Aoprms) (hs : |p.sphi - sin φ| ≤ 2.3e-16) (hc : |p.cphi - cos φ| ≤ 2.3e-16) (hst : |p.st| ≤ 20) :
    let o := flAopqk fl L refro nz1 nz2 rap dap p
    len (fun i => dir o.hob o.dob i - (![-cos o.aob * sin o.zob * sin φ + cos o.zob * cos φ, -sin o.aob * sin o.zob, cos o.aob * sin o.zob * cos φ + cos o.zob * sin φ] : Vec3) i) ≤ 1.1e-14 ∧
    |o.hob| ≤ π + 4.5e-16 ∧ |o.dob| ≤ π / 2 + 4.5e-16 ∧ 0 ≤ o.rob ∧ o.rob ≤ flD2PI fl ∧ ∃ k : ℤ, |o.rob - (p.st - o.hob + k * (2 * π))| ≤ 5e-15 := by
  intro o
  obtain ⟨A, hA⟩ : ∃ A, A = o.aob := ⟨_, rfl⟩
  obtain ⟨Z, hZ⟩ : ∃ Z, Z = o.zob := ⟨_, rfl⟩
  obtain ⟨v, hv⟩ : ∃ v, v = flAopTurn fl p (flAopAeo fl L A Z) := ⟨_, rfl⟩
  have o1 : o.hob = -(flC2s fl L nz2 v).1 := by rw [hv, hA, hZ]; rfl
  have o2 : o.dob = (flC2s fl L nz2 v).2 := by rw [hv, hA, hZ]; rfl
  have o3 : o.rob = flDranrm fl (fl (p.st + (flC2s fl L nz2 v).1)) := by rw [hv, hA, hZ]; rfl
  rw [← hA, ← hZ, o1, o2, o3]
  clear_value o
  have hsc : |p.sphi * p.sphi + p.cphi * p.cphi - 1| ≤ 1e-6 := by
    have a := mul_err 5e-16 hs hs (abs_sin_le_one φ) (abs_sin_le_one φ) (by norm_num)
    have b := mul_err 5e-16 hc hc (abs_cos_le_one φ) (abs_cos_le_one φ) (by norm_num)
    have q := sin_sq_add_cos_sq φ
    rw [show p.sphi * p.sphi + p.cphi * p.cphi - 1 = (p.sphi * p.sphi - sin φ * sin φ) + (p.cphi * p.cphi - cos φ * cos φ) by nlinarith]
    refine (abs_add_le _ _).trans ?_
    norm_num at a b ⊢; linarith
  obtain ⟨e1, -, e3, e4⟩ := aeo_err R hL (az := A) (T := A) (A := A) (z := Z) (Z := Z) (k := 0) (ε := 0) (by norm_num) (by simp) (by simp) (by simp) (by norm_num)
  have comp : ∀ i, |flAopAeo fl L A Z i - (![-cos A * sin Z, sin A * sin Z, cos Z] : Vec3) i| ≤ 1.1e-15 := fun i => by
    fin_cases i
    · exact e1.trans (by norm_num)
    · exact e3.trans (by norm_num)
    · exact e4.trans (by norm_num)
  obtain ⟨t, -, -⟩ := flAopTurn_err R hsc comp (by norm_num) (aeo_len A Z)
  rw [← hv] at t
  obtain ⟨V, hV⟩ : ∃ V : Vec3, V = ![-cos A * sin Z * sin φ + cos Z * cos φ, sin A * sin Z, cos A * sin Z * cos φ + cos Z * sin φ] := ⟨_, rfl⟩
  have lV : len V = 1 := by
    refine len_one ?_
    rw [hV, dot_eq]
    simp only [Matrix.cons_val_zero, Matrix.cons_val_one, Matrix.cons_val]
    have := sin_sq_add_cos_sq A; have := sin_sq_add_cos_sq Z; have := sin_sq_add_cos_sq φ
    grind
  have b1 : |-cos A * sin Z| ≤ 1 := by
    rw [neg_mul, abs_neg]; exact (mul_bd (abs_cos_le_one A) (abs_sin_le_one Z)).trans (by norm_num)
  have two : ∀ {x y a b : ℝ}, |x| ≤ 2.3e-16 → |y| ≤ 2.3e-16 → |a| ≤ 1 → |b| ≤ 1 → |x * a + y * b| ≤ 4.6e-16 := fun {x y a b} hx hy ha hb => by
    have q1 := mul_bd hx ha
    have q2 := mul_bd hy hb
    refine (abs_add_le _ _).trans ?_
    refine (add_le_add q1 q2).trans (by norm_num)
  have hv2 : ∀ i, |v i - V i| ≤ 2.42e-15 := fun i => by
    have ti := t i
    fin_cases i
    · have q := two hs hc b1 (abs_cos_le_one Z)
      have e : (![p.sphi * (![-cos A * sin Z, sin A * sin Z, cos Z] : Vec3) 0 + p.cphi * (![-cos A * sin Z, sin A * sin Z, cos Z] : Vec3) 2, (![-cos A * sin Z, sin A * sin Z, cos Z] : Vec3) 1, -p.cphi * (![-cos A * sin Z, sin A * sin Z, cos Z] : Vec3) 0 + p.sphi * (![-cos A * sin Z, sin A * sin Z, cos Z] : Vec3) 2] : Vec3) 0 - V 0 =
          (p.sphi - sin φ) * (-cos A * sin Z) + (p.cphi - cos φ) * cos Z := by rw [hV]; simp; ring
      refine (abs_sub_le _ _ (V 0)).trans ((add_le_add ti (e ▸ q)).trans (by norm_num))
    · refine le_trans ?_ (ti.trans (by norm_num))
      rw [hV]; simp
    · have q := two (x := -p.cphi - -cos φ) (by rw [show -p.cphi - -cos φ = -(p.cphi - cos φ) by ring, abs_neg]; exact hc) hs b1 (abs_cos_le_one Z)
      have e : (![p.sphi * (![-cos A * sin Z, sin A * sin Z, cos Z] : Vec3) 0 + p.cphi * (![-cos A * sin Z, sin A * sin Z, cos Z] : Vec3) 2, (![-cos A * sin Z, sin A * sin Z, cos Z] : Vec3) 1, -p.cphi * (![-cos A * sin Z, sin A * sin Z, cos Z] : Vec3) 0 + p.sphi * (![-cos A * sin Z, sin A * sin Z, cos Z] : Vec3) 2] : Vec3) 2 - V 2 =
          (-p.cphi - -cos φ) * (-cos A * sin Z) + (p.sphi - sin φ) * cos Z := by rw [hV]; simp; ring
      refine (abs_sub_le _ _ (V 2)).trans ((add_le_add ti (e ▸ q)).trans (by norm_num))
  obtain ⟨-, -, a3⟩ := flC2s_wide R hL nz2 hv2 (by norm_num) (by rw [lV]; norm_num) (by rw [lV]; norm_num) (u := V) (by rw [lV]; simp)
  obtain ⟨a1, a2, -, a4, a5, ⟨k, a6⟩, -⟩ := back_err R hL nz2 hv2 (by norm_num) (by rw [lV]; norm_num) (by rw [lV]; norm_num) hst
  refine ⟨?_, by rw [abs_neg]; exact a1, a2, a4, a5, k, by rw [sub_neg_eq_add]; exact a6⟩
  refine le_trans (le_of_eq ?_) (a3.trans (by norm_num))
  rw [len_eq, len_eq, dot_eq, dot_eq, hV]
  simp only [dir, Matrix.cons_val_zero, Matrix.cons_val_one, Matrix.cons_val, cos_neg, sin_neg]
  congr 1
  ring

/-- Parameters of an observatory at latitude -0.54, whose sine and cosine come from a library that rounds the exact values; used in the examples. -/
noncomputable def aopExample : Aoprms :=
  { phi := -0.54, sphi := roundedLibm.sin (-0.54), cphi := roundedLibm.cos (-0.54), diurab := 1.3e-6, hm := 1149, tdk := 280, pmb := 950, rh := 0.5, wl := 0.55, tlr := 0.0065, refa := 2.7e-4, refb := -3.1e-7, plon := 2.6, st := 1 }

/-- A place at hour angle -1, with IEEE rounding and some refraction near the horizon. -/
example : |(flAopqk ieee roundedLibm (fun _ => 0.005) false false 2 0.3 aopExample).dob| ≤ π / 2 + 4.5e-16 :=
  (C130_aopqk_consistent ieee_rounding roundedLibm_ok _ false false 2 0.3 (-0.54) aopExample (roundedLibm_ok.sin _) (roundedLibm_ok.cos _) (by norm_num [aopExample])).2.2.1

theorem deg75_num : 75 * (π / 180) ≤ 1.3091 := by have := Real.pi_lt_d20; norm_num at *; linarith

/-- C130: palAopqk in double precision against exact arithmetic with the same parameters, for every place whose topocentric zenith distance is at most 75 degrees (there the code uses the two-constant refraction model): the observed
azimuth and zenith distance give the exact direction to 1.1e-13 radians, hour angle and declination and right ascension and declination to 3.1e-13 radians. -/
theorem C130_aopqk (R : Rounding fl) (hL : LibmOK L) (refro : ℝ → ℝ) (nz1 nz2 : Bool) (rap dap : ℝ) (p : Aoprms) (hsc : |p.sphi * p.sphi + p.cphi * p.cphi - 1| ≤ 1e-6) (ha : |p.diurab| ≤ 1e-5)
    (hra : |rap - p.st| ≤ 20) (hst : |p.st| ≤ 20) (hA : |p.refa| ≤ 5e-4) (hB : |p.refb| ≤ 5e-7) (hz : (aopTopo rap dap p).2 ≤ 75 * (π / 180)) :
    let o := flAopqk fl L refro nz1 nz2 rap dap p
    ∃ O, palAopqk rap dap p = some O ∧ |o.zob - O.zob| ≤ 2.2e-14 ∧
      len (fun i => dir o.aob (π / 2 - o.zob) i - dir O.aob (π / 2 - O.zob) i) ≤ 1.1e-13 ∧
      len (fun i => dir o.hob o.dob i - dir O.hob O.dob i) ≤ 3.1e-13 ∧
      len (fun i => dir o.rob o.dob i - dir O.rob O.dob i) ≤ 3.1e-13 := by
  intro o
  obtain ⟨E1, E2, T, P, t1, t2, t3, t4⟩ := flAopTopo_err R hL nz1 rap dap hsc ha hra
  have hz' := hz.trans deg75_num
  have hE0 : |π / 2 - (aopTopo rap dap p).2| ≤ π / 2 := by rw [abs_le]; constructor <;> linarith
  obtain ⟨s1, s2, s3⟩ := dir_split t3 hE0 t4 (by norm_num)
  have x1 : |(flAopTopo fl L nz1 rap dap p).2 - (aopTopo rap dap p).2| ≤ 1.92e-14 := by
    rw [show (flAopTopo fl L nz1 rap dap p).2 - (aopTopo rap dap p).2 = ((flAopTopo fl L nz1 rap dap p).2 - (π / 2 - P)) - (P - (π / 2 - (aopTopo rap dap p).2)) by ring]
    refine (abs_sub _ _).trans ?_
    norm_num at t2 s1 ⊢; linarith
  obtain ⟨r1, r2⟩ := flRefz_75 R hL x1 (by norm_num) E1 hz' hA hB
  rw [cos_pi_div_two_sub] at s2 s3
  obtain ⟨X, hX⟩ : ∃ X, X = (aopTopo rap dap p).2 := ⟨_, rfl⟩
  obtain ⟨A, hA'⟩ : ∃ A, A = (aopTopo rap dap p).1 := ⟨_, rfl⟩
  obtain ⟨az, haz⟩ : ∃ az, az = (flAopTopo fl L nz1 rap dap p).1 := ⟨_, rfl⟩
  obtain ⟨x, hx⟩ : ∃ x, x = (flAopTopo fl L nz1 rap dap p).2 := ⟨_, rfl⟩
  rw [← hX] at E1 E2 hz' r1 r2 s2 s3
  rw [← hA'] at s2 s3
  rw [← hx] at r1
  rw [← haz] at t1
  obtain ⟨Z, hZ⟩ : ∃ Z, Z = palRefz X p.refa p.refb := ⟨_, rfl⟩
  obtain ⟨z, hzz⟩ : ∃ z, z = flRefz fl L x p.refa p.refb := ⟨_, rfl⟩
  rw [← hZ] at r1 r2
  rw [← hzz] at r1
  have r1' : |z - Z| ≤ 2.15e-14 := r1.trans (by norm_num)
  have sx0 : 0 ≤ sin X := sin_nonneg_of_nonneg_of_le_pi E1 E2
  have sx1 := sin_le_one X
  have cX := cos_75 (X := X) (by rw [abs_of_nonneg E1]; norm_num at *; linarith)
  have cZ : 0.247 ≤ cos Z := by
    have := (abs_le.1 ((Real.abs_cos_sub_cos_le Z X).trans r2)).1
    norm_num at *; linarith
  have nb : ¬ cos Z < zbreak := by unfold zbreak; norm_num at *; linarith
  have nf : ¬ L.cos z < fl zbreak := by
    have c := (abs_le.1 (R.cst zbreak (M := 1) (by unfold zbreak; norm_num) (by norm_num) (by norm_num))).2
    have d := (abs_le.1 (hL.cos z)).1
    have d2 := (abs_le.1 ((Real.abs_cos_sub_cos_le z Z).trans r1')).1
    have : zbreak = 0.242535625 := rfl
    norm_num at *; linarith
  have eZ : aopRefract p X = some Z := by
    unfold aopRefract; dsimp only; rw [← hZ, if_neg nb]
  have ez : flAopRefract fl L refro p x = z := by
    unfold flAopRefract; dsimp only; rw [← hzz, if_neg nf]
  have sZ : |sin Z| ≤ 1.007 * sin X := by
    have a := (Real.abs_sin_sub_sin_le Z X).trans r2
    have := abs_sub_abs_le_abs_sub (sin Z) (sin X)
    rw [abs_of_nonneg sx0] at this
    linarith
  have wk : ∀ q, |sin X * q| ≤ 2.001 * 1.87e-14 → |sin Z * q| ≤ 3.77e-14 := fun q hq => by
    rw [abs_mul, abs_of_nonneg sx0] at hq
    rw [abs_mul]
    have := mul_le_mul_of_nonneg_right sZ (abs_nonneg q)
    have e : 1.007 * sin X * |q| = 1.007 * (sin X * |q|) := by ring
    rw [e] at this
    refine this.trans ((mul_le_mul_of_nonneg_left hq (by norm_num)).trans (by norm_num))
  obtain ⟨e1, -, e3, e4⟩ := aeo_err R hL (az := az) (T := T) (A := A) t1 (wk _ s2) (wk _ s3) r1' (by norm_num)
  have comp : ∀ i, |flAopAeo fl L az z i - (![-cos A * sin Z, sin A * sin Z, cos Z] : Vec3) i| ≤ 6.04e-14 := fun i => by
    fin_cases i
    · exact e1.trans (by norm_num)
    · exact e3.trans (by norm_num)
    · exact e4.trans (by norm_num)
  obtain ⟨u1, u2, u3⟩ := flAopTurn_err R hsc comp (by norm_num) (aeo_len A Z)
  have u1' := fun i => (u1 i).trans (by norm_num : _ ≤ (8.6e-14 : ℝ))
  obtain ⟨-, -, b3, -, -, -, b7⟩ := back_err R hL nz2 u1' (by norm_num) (le_trans (by norm_num) u2) (u3.trans (by norm_num)) hst
  simp only [Matrix.cons_val_zero, Matrix.cons_val_one, Matrix.cons_val] at b3 b7
  have eo : o = { aob := az, zob := z, hob := -(flC2s fl L nz2 (flAopTurn fl p (flAopAeo fl L az z))).1, dob := (flC2s fl L nz2 (flAopTurn fl p (flAopAeo fl L az z))).2, rob := flDranrm fl (fl (p.st + (flC2s fl L nz2 (flAopTurn fl p (flAopAeo fl L az z))).1)) } := by
    rw [haz, ← ez, hx]; rfl
  have eO : palAopqk rap dap p = some { aob := A, zob := Z, hob := -(palDcc2s ![p.sphi * (-cos A * sin Z) + p.cphi * cos Z, sin A * sin Z, -p.cphi * (-cos A * sin Z) + p.sphi * cos Z]).1, dob := (palDcc2s ![p.sphi * (-cos A * sin Z) + p.cphi * cos Z, sin A * sin Z, -p.cphi * (-cos A * sin Z) + p.sphi * cos Z]).2, rob := palDranrm (p.st + (palDcc2s ![p.sphi * (-cos A * sin Z) + p.cphi * cos Z, sin A * sin Z, -p.cphi * (-cos A * sin Z) + p.sphi * cos Z]).1) } := by
    unfold palAopqk
    dsimp only
    rw [← hX, ← hA', eZ]
  rw [eo]
  refine ⟨_, eO, r1'.trans (by norm_num), ?_, ?_, b7.trans (by norm_num)⟩
  · show len (fun i => dir az (π / 2 - z) i - dir A (π / 2 - Z) i) ≤ _
    have c1 := chord az (π / 2 - z) T (π / 2 - Z)
    have g1 : |π / 2 - z - (π / 2 - Z)| ≤ 2.15e-14 := by rw [sub_sub_sub_cancel_left, abs_sub_comm]; exact r1'
    have c2 : len (fun i => dir T (π / 2 - Z) i - dir A (π / 2 - Z) i) ≤ 1.7321 * 3.77e-14 := len_le_of_comp (fun i => by
      fin_cases i
      · show |cos (π / 2 - Z) * cos T - cos (π / 2 - Z) * cos A| ≤ _
        rw [cos_pi_div_two_sub, ← mul_sub]; exact wk _ s2
      · show |cos (π / 2 - Z) * sin T - cos (π / 2 - Z) * sin A| ≤ _
        rw [cos_pi_div_two_sub, ← mul_sub]; exact wk _ s3
      · show |sin (π / 2 - Z) - sin (π / 2 - Z)| ≤ _
        rw [sub_self, abs_zero]; norm_num)
    have := len_tri (dir az (π / 2 - z)) (dir T (π / 2 - Z)) (dir A (π / 2 - Z))
    norm_num at *; linarith
  · refine le_trans (le_of_eq ?_) (b3.trans (by norm_num))
    rw [len_eq, len_eq, dot_eq, dot_eq]
    simp only [dir, Matrix.cons_val_zero, Matrix.cons_val_one, Matrix.cons_val, cos_neg, sin_neg]
    congr 1
    ring

/-- Parameters of an observatory on the equator; used in the examples. -/
noncomputable def aopEquator : Aoprms :=
  { phi := 0, sphi := 0, cphi := 1, diurab := 1e-6, hm := 1149, tdk := 280, pmb := 950, rh := 0.5, wl := 0.55, tlr := 0.0065, refa := 2.7e-4, refb := -3.1e-7, plon := 2.6, st := 1 }

theorem zd_quarter {r z : ℝ} (h : r ≤ z) (hz : 0 < z) : atan2 r z ≤ π / 4 := by
  by_contra hc
  push Not at hc
  have a := (atan2_mem r z).2
  have q : 0 < √(z * z + r * r) := Real.sqrt_pos.2 (by have := mul_self_pos.2 hz.ne'; have := mul_self_nonneg r; linarith)
  have c := hyp_cos_atan2 r z
  have s := hyp_sin_atan2 r z
  have p := pi_pos
  have k : cos (atan2 r z) < sin (atan2 r z) := by
    by_cases h2 : atan2 r z ≤ π / 2
    · have u := Real.cos_lt_cos_of_nonneg_of_le_pi_div_two (x := π / 4) (y := atan2 r z) (by linarith) h2 hc
      have v := Real.sin_lt_sin_of_lt_of_le_pi_div_two (x := π / 4) (y := atan2 r z) (by linarith) h2 hc
      rw [cos_pi_div_four] at u
      rw [sin_pi_div_four] at v
      linarith
    · push Not at h2
      have := Real.cos_neg_of_pi_div_two_lt_of_lt h2 (by linarith)
      have := sin_nonneg_of_nonneg_of_le_pi (x := atan2 r z) (by linarith) a
      linarith
  have := mul_lt_mul_of_pos_left k q
  linarith

theorem aopEquator_zd : (aopTopo 1 0.3 aopEquator).2 ≤ 75 * (π / 180) := by
  rw [aopTopo_eq]
  have p := pi_pos
  refine le_trans (zd_quarter ?_ ?_) (by linarith)
  · have c : 0.95 ≤ cos (3 / 10) := by have := Real.one_sub_sq_div_two_le_cos (x := 3 / 10); norm_num at *; linarith
    have s : sin (3 / 10) ^ 2 = 1 - cos (3 / 10) ^ 2 := Real.sin_sq _
    refine Real.sqrt_le_iff.2 ⟨?_, ?_⟩
    · simp [aopAet, aopEquator, dir]; norm_num; linarith
    · simp [aopAet, aopEquator, dir]
      norm_num
      nlinarith
  · have c : 0.95 ≤ cos (3 / 10) := by have := Real.one_sub_sq_div_two_le_cos (x := 3 / 10); norm_num at *; linarith
    simp [aopAet, aopEquator, dir]; norm_num; linarith

/-- A star 17 degrees from the zenith, with IEEE rounding: the declinations agree. -/
example : ∃ O, palAopqk 1 0.3 aopEquator = some O ∧ len (fun i => dir (flAopqk ieee roundedLibm (fun _ => 0) false false 1 0.3 aopEquator).rob (flAopqk ieee roundedLibm (fun _ => 0) false false 1 0.3 aopEquator).dob i - dir O.rob O.dob i) ≤ 3.1e-13 := by
  obtain ⟨O, h1, -, -, -, h5⟩ := C130_aopqk ieee_rounding roundedLibm_ok (fun _ => 0) false false 1 0.3 aopEquator (by norm_num [aopEquator]) (by norm_num [aopEquator, abs_of_nonneg]) (by norm_num [aopEquator]) (by norm_num [aopEquator])
    (by norm_num [aopEquator, abs_of_nonneg]) (by norm_num [aopEquator, abs_of_nonneg]) aopEquator_zd
  exact ⟨O, h1, h5⟩

/-- C131: palOapqk in double precision against exact arithmetic with the same parameters, for the three kinds of coordinates and every observed direction whose upward component is at least 0.24254 (zenith distance up to about 75.96
degrees, where the code uses the two-constant refraction model): right ascension and declination give the exact direction to 2.7e-13 radians, and the right ascension is in [0, 2π]. -/
theorem C131_oapqk (R : Rounding fl) (hL : LibmOK L) (refro : ℝ → ℝ) (nz1 nz2 : Bool) (type : List Char) (ob1 ob2 : ℝ) (p : Aoprms) (hsc : |p.sphi * p.sphi + p.cphi * p.cphi - 1| ≤ 1e-6) (ha : |p.diurab| ≤ 1e-5)
    (hst : |p.st| ≤ 20) (hra : |p.st - ob1| ≤ 20) (hA : |p.refa| ≤ 5e-4) (hB : |p.refb| ≤ 5e-7) (hz : 0.24254 ≤ oapVector (obType type.head?) ob1 ob2 p 2) :
    let o := flOapqk fl L refro nz1 nz2 type ob1 ob2 p
    ∃ O, palOapqk type ob1 ob2 p = some O ∧ 0 ≤ o.1 ∧ o.1 ≤ flD2PI fl ∧ |o.2| ≤ π / 2 + 4.5e-16 ∧ len (fun i => dir o.1 o.2 i - dir O.1 O.2 i) ≤ 2.7e-13 := by
  intro o
  have er := flOapVector_err R hL (obType type.head?) ob1 ob2 hsc (fun _ => hra)
  obtain ⟨l1, l2⟩ := oapVector_len (obType type.head?) ob1 ob2 hsc
  have ho : o = flOapqk fl L refro nz1 nz2 type ob1 ob2 p := rfl
  clear_value o
  obtain ⟨O, hO⟩ : ∃ O, O = palOapqk type ob1 ob2 p := ⟨_, rfl⟩
  rw [← hO]
  unfold flOapqk at ho
  unfold palOapqk at hO
  dsimp only at ho hO
  generalize flOapVector fl L (obType type.head?) ob1 ob2 p = v at *
  generalize oapVector (obType type.head?) ob1 ob2 p = V at *
  obtain ⟨A, hA'⟩ : ∃ A, A = if V 0 ≠ 0 ∨ V 1 ≠ 0 then atan2 (V 1) (V 0) else 0 := ⟨_, rfl⟩
  obtain ⟨az, haz⟩ : ∃ az, az = if v 0 ≠ 0 ∨ v 1 ≠ 0 then flAtan2 L nz1 (v 1) (v 0) else 0 := ⟨_, rfl⟩
  obtain ⟨x1, x2, x3⟩ := azzd_exact V A (fun h => by rw [hA', if_pos h])
  obtain ⟨T, P, t1, t2, t3, t4⟩ := azzd_core R hL nz1 er (by norm_num) (le_trans (by norm_num) l1) (l2.trans (by norm_num)) x1 az (by
    rw [haz]
    by_cases h : v 0 ≠ 0 ∨ v 1 ≠ 0
    · rw [if_pos h]; exact Or.inr ⟨h, rfl⟩
    · rw [if_neg h]; push Not at h; exact Or.inl ⟨h.1, h.2, rfl⟩)
  rw [← hA'] at hO
  rw [← haz] at ho
  obtain ⟨D, d1, d2, d3⟩ := flOapRefr_err R refro hA hB er l2 hz (L.atan2 (fl (√(fl (fl (v 0 * v 0) + fl (v 1 * v 1))))) (v 2)) (atan2 (√(V 0 * V 0 + V 1 * V 1)) (V 2))
  rw [d1] at hO
  dsimp only at hO
  have hSs : √(V 0 * V 0 + V 1 * V 1) = len V * sin (atan2 (√(V 0 * V 0 + V 1 * V 1)) (V 2)) := by
    have s := hyp_sin_atan2 (√(V 0 * V 0 + V 1 * V 1)) (V 2)
    have l : √(V 2 * V 2 + √(V 0 * V 0 + V 1 * V 1) * √(V 0 * V 0 + V 1 * V 1)) = len V := by
      rw [len_eq, dot_eq, Real.mul_self_sqrt (add_nonneg (mul_self_nonneg _) (mul_self_nonneg _)), add_comm]
    rw [l] at s
    exact s.symm
  generalize flOapRefr fl refro p (fl (√(fl (fl (v 0 * v 0) + fl (v 1 * v 1))))) (v 2) (L.atan2 (fl (√(fl (fl (v 0 * v 0) + fl (v 1 * v 1))))) (v 2)) = dr at *
  generalize L.atan2 (fl (√(fl (fl (v 0 * v 0) + fl (v 1 * v 1))))) (v 2) = zo at *
  obtain ⟨Zo, hZo⟩ : ∃ Zo, Zo = atan2 (√(V 0 * V 0 + V 1 * V 1)) (V 2) := ⟨_, rfl⟩
  rw [← hZo] at x1 x2 x3 t4 hO hSs
  have p1 := pi_lt_d4
  have hE0 : |π / 2 - Zo| ≤ π / 2 := by rw [abs_le]; constructor <;> linarith
  obtain ⟨s1, s2, s3⟩ := dir_split t3 hE0 t4 (by norm_num)
  rw [cos_pi_div_two_sub] at s2 s3
  have sx0 : 0 ≤ sin Zo := sin_nonneg_of_nonneg_of_le_pi x2 x3
  have sx1 := sin_le_one Zo
  have dS : |D| ≤ 2.13e-3 * sin Zo := by
    refine d3.trans ?_
    rw [hSs]
    have := mul_le_mul_of_nonneg_right l2 sx0
    norm_num at *; linarith
  have zz : |zo - Zo| ≤ 1.7e-14 := by
    rw [show zo - Zo = (zo - (π / 2 - P)) - (P - (π / 2 - Zo)) by ring]
    refine (abs_sub _ _).trans ?_
    norm_num at t2 s1 ⊢; linarith
  obtain ⟨zt, -⟩ := R.addB 1.8e-14 zz d2 (by rw [abs_of_nonneg x2]; norm_num at *; linarith : |Zo| ≤ 3.15) (dS.trans (by norm_num at *; linarith) : |D| ≤ 2.13e-3) (by norm_num) (by norm_num)
  obtain ⟨z, hzz⟩ : ∃ z, z = fl (zo + dr) := ⟨_, rfl⟩
  obtain ⟨Z, hZ⟩ : ∃ Z, Z = Zo + D := ⟨_, rfl⟩
  rw [← hzz, ← hZ] at zt
  rw [← hzz] at ho
  rw [← hZ] at hO
  have sZ : |sin Z| ≤ 1.003 * sin Zo := by
    have a := Real.abs_sin_sub_sin_le Z Zo
    rw [hZ, add_sub_cancel_left, ← hZ] at a
    have := abs_sub_abs_le_abs_sub (sin Z) (sin Zo)
    rw [abs_of_nonneg sx0] at this
    linarith
  have wk : ∀ q, |sin Zo * q| ≤ 2.001 * (3.5 * 4.4e-15 + 1.1e-15) → |sin Z * q| ≤ 3.32e-14 := fun q hq => by
    rw [abs_mul, abs_of_nonneg sx0] at hq
    rw [abs_mul]
    have := mul_le_mul_of_nonneg_right sZ (abs_nonneg q)
    have e : 1.003 * sin Zo * |q| = 1.003 * (sin Zo * |q|) := by ring
    rw [e] at this
    refine this.trans ((mul_le_mul_of_nonneg_left hq (by norm_num)).trans (by norm_num))
  obtain ⟨-, e2, e3, e4⟩ := aeo_err R hL (az := az) (T := T) (A := A) t1 (wk _ s2) (wk _ s3) zt (by norm_num)
  have comp : ∀ i, |(![fl (L.cos az * L.sin z), fl (L.sin az * L.sin z), L.cos z] : Vec3) i - (![cos A * sin Z, sin A * sin Z, cos Z] : Vec3) i| ≤ 5.24e-14 := fun i => by
    fin_cases i
    · exact e2.trans (by norm_num)
    · exact e3.trans (by norm_num)
    · exact e4.trans (by norm_num)
  have lu : len (![cos A * sin Z, sin A * sin Z, cos Z] : Vec3) = 1 := by
    refine len_one ?_
    rw [dot_eq]
    simp only [Matrix.cons_val_zero, Matrix.cons_val_one, Matrix.cons_val]
    have := sin_sq_add_cos_sq A; have := sin_sq_add_cos_sq Z
    grind
  obtain ⟨u1, u2, u3⟩ := flAopTurn_err R hsc comp (by norm_num) lu
  have u1' := fun i => (u1 i).trans (by norm_num : _ ≤ (7.46e-14 : ℝ))
  have ha' : |-p.diurab| ≤ 1e-5 := by rw [abs_neg]; exact ha
  have g := fun i => (diurnal_err R ha' (by norm_num) u1' (fun i => (comp_le_len _ i).trans (u3.trans (by norm_num))) i).trans (by norm_num : _ ≤ (7.51e-14 : ℝ))
  obtain ⟨w1, w2⟩ := diurnal_len (a := -p.diurab) ha' (by norm_num) u2 u3 (by norm_num)
  obtain ⟨-, b2, -, b4, b5, -, b7⟩ := back_err R hL nz2 g (by norm_num) (le_trans (by norm_num) w1) (w2.trans (by norm_num)) hst
  simp only [Matrix.cons_val_zero, Matrix.cons_val_one, Matrix.cons_val] at b7 hO
  refine ⟨_, hO, ?_⟩
  rw [ho]
  exact ⟨b4, b5, b2, b7.trans (by norm_num)⟩

/-- An observed azimuth and zenith distance of 1.1 radians, with IEEE rounding. -/
example : ∃ O, palOapqk ['A'] 2 1.1 aopEquator = some O ∧ len (fun i => dir (flOapqk ieee roundedLibm (fun _ => 0) false false ['A'] 2 1.1 aopEquator).1 (flOapqk ieee roundedLibm (fun _ => 0) false false ['A'] 2 1.1 aopEquator).2 i - dir O.1 O.2 i) ≤ 2.7e-13 := by
  obtain ⟨O, h1, -, -, -, h5⟩ := C131_oapqk ieee_rounding roundedLibm_ok (fun _ => 0) false false ['A'] 2 1.1 aopEquator (by norm_num [aopEquator]) (by norm_num [aopEquator, abs_of_nonneg]) (by norm_num [aopEquator]) (by norm_num [aopEquator])
    (by norm_num [aopEquator, abs_of_nonneg]) (by norm_num [aopEquator, abs_of_nonneg]) (by
      show 0.24254 ≤ cos 1.1
      have := cos_75 (X := 1.1) (by norm_num)
      norm_num at *; linarith)
  exact ⟨O, h1, h5⟩

end Pal.Props
