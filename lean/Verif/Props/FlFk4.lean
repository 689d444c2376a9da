import Verif.Lemmas.FlFk4
import Verif.Props.FlSphere
import Verif.Props.Fk

/-!
# E-terms and FK4 places in double precision
-/

namespace Pal.Props
open Real Pal.Spec

variable {fl : ℝ → ℝ} {L : Libm}

theorem s2c_dir (a b : ℝ) : eraS2c a b = dir a b := by
  unfold eraS2c dir; funext i; fin_cases i <;> simp [mul_comm]

theorem etrms_len3 {ep : ℝ} (h : ∀ i, |palEtrms ep i| ≤ 1.72e-6) : len (palEtrms ep) ≤ 3e-6 := (len_le_of_comp h).trans (by norm_num)

/-- palAddet in double precision from coordinates that are slightly off. -/
theorem addet_ref (R : Rounding fl) (hL : LibmOK L) (nz : Bool) {r d r' d' eq δ : ℝ} (h : |eq - 1950| ≤ 1000) (hδ : len (fun i => dir r d i - dir r' d' i) ≤ δ) (hδ1 : δ ≤ 2e-14) :
    let o := flAddet fl L nz r d eq
    let x := palAddet r' d' eq
    0 ≤ o.1 ∧ o.1 ≤ flD2PI fl ∧ |o.2| ≤ π / 2 + 4.5e-16 ∧ len (fun i => dir o.1 o.2 i - dir x.1 x.2 i) ≤ 3.5 * (δ + 7e-16) + 3e-15 := by
  intro o x
  have d0 := (len_nonneg _).trans hδ
  have a := fun i => flEtrms_err R hL h i
  have al := etrms_len3 (fun i => (a i).2)
  have sd : ∀ i, |flS2c fl L r d i - dir r' d' i| ≤ 5.8e-16 + δ := fun i =>
    (abs_sub_le _ (dir r d i) _).trans (add_le_add (flS2c_err R hL r d i) ((comp_le_len (fun i => dir r d i - dir r' d' i) i).trans hδ))
  have comp : ∀ i, |fl (flS2c fl L r d i + flEtrms fl L eq i) - (dir r' d' i + palEtrms eq i)| ≤ δ + 7e-16 := fun i =>
    (R.addB _ (sd i) (a i).1 (dir_le r' d' i) (a i).2 (by norm_num at hδ1 ⊢; linarith) (by norm_num at hδ1 ⊢; linarith)).1
  have l1 : len (dir r' d') = 1 := len_one (dot_dir _ _)
  have tr := abs_le.1 (len_rev_tri (fun i => dir r' d' i + palEtrms eq i) (dir r' d'))
  simp only [add_sub_cancel_left] at tr
  rw [l1] at tr
  change -len (palEtrms eq) ≤ _ ∧ _ ≤ len (palEtrms eq) at tr
  have := flAnpC2s_err R hL nz comp (by norm_num at *; linarith) (by norm_num at *; linarith) (by norm_num at *; linarith)
  have ex : x = (eraAnp (eraC2s (fun i => dir r' d' i + palEtrms eq i)).1, (eraC2s (fun i => dir r' d' i + palEtrms eq i)).2) := by
    show palAddet r' d' eq = _
    unfold palAddet; rw [s2c_dir]
  rw [ex]
  exact this

/-- palSubet in double precision from coordinates that are slightly off. -/
theorem subet_ref (R : Rounding fl) (hL : LibmOK L) (nz : Bool) {r d r' d' eq δ : ℝ} (h : |eq - 1950| ≤ 1000) (hδ : len (fun i => dir r d i - dir r' d' i) ≤ δ) (hδ1 : δ ≤ 2e-14) :
    let o := flSubet fl L nz r d eq
    let x := palSubet r' d' eq
    0 ≤ o.1 ∧ o.1 ≤ flD2PI fl ∧ |o.2| ≤ π / 2 + 4.5e-16 ∧ len (fun i => dir o.1 o.2 i - dir x.1 x.2 i) ≤ 3.5 * (δ + 9.6e-16) + 3e-15 := by
  intro o x
  have d0 := (len_nonneg _).trans hδ
  have a := fun i => flEtrms_err R hL h i
  have al := etrms_len3 (fun i => (a i).2)
  have sd : ∀ i, |flS2c fl L r d i - dir r' d' i| ≤ 5.8e-16 + δ := fun i =>
    (abs_sub_le _ (dir r d i) _).trans (add_le_add (flS2c_err R hL r d i) ((comp_le_len (fun i => dir r d i - dir r' d' i) i).trans hδ))
  have sd' : ∀ i, |flS2c fl L r d i - dir r' d' i| ≤ 2.1e-14 := fun i => (sd i).trans (by norm_num at hδ1 ⊢; linarith)
  have pr : ∀ i, |fl (flS2c fl L r d i * flEtrms fl L eq i) - dir r' d' i * palEtrms eq i| ≤ 4.6e-20 := fun i =>
    R.mulB _ (sd' i) (a i).1 (dir_le r' d' i) (a i).2 (by norm_num) (by norm_num)
  have pb : ∀ i, |dir r' d' i * palEtrms eq i| ≤ 1 * 1.72e-6 := fun i => mul_bd (dir_le r' d' i) (a i).2
  obtain ⟨q1, q1b⟩ := R.addB 9.4e-20 (pr 0) (pr 1) (pb 0) (pb 1) (by norm_num) (by norm_num)
  obtain ⟨q2, q2b⟩ := R.addB 1.5e-19 q1 (pr 2) q1b (pb 2) (by norm_num) (by norm_num)
  obtain ⟨f1, f1b⟩ := R.addB 1.12e-16 (noerr 1) q2 (by norm_num : |(1 : ℝ)| ≤ 1) q2b (by norm_num) (by norm_num)
  obtain ⟨F, hF⟩ : ∃ F, F = 1 + (dir r' d' 0 * palEtrms eq 0 + dir r' d' 1 * palEtrms eq 1 + dir r' d' 2 * palEtrms eq 2) := ⟨_, rfl⟩
  rw [← hF] at f1 f1b
  have m : ∀ i, |fl (fl (1 + flPdp fl (flS2c fl L r d) (flEtrms fl L eq)) * flS2c fl L r d i) - F * dir r' d' i| ≤ δ + 8.2e-16 := fun i =>
    R.mulB _ f1 (sd i) f1b (dir_le r' d' i) (by norm_num at hδ1 ⊢; linarith) (by norm_num at hδ1 ⊢; nlinarith)
  have mb : ∀ i, |F * dir r' d' i| ≤ _ := fun i => mul_bd f1b (dir_le r' d' i)
  have comp : ∀ i, |fl (fl (fl (1 + flPdp fl (flS2c fl L r d) (flEtrms fl L eq)) * flS2c fl L r d i) - flEtrms fl L eq i) - (F * dir r' d' i - palEtrms eq i)| ≤ δ + 9.6e-16 := fun i =>
    (R.subB _ (m i) (a i).1 (mb i) (a i).2 (by norm_num at hδ1 ⊢; linarith) (by norm_num at hδ1 ⊢; linarith)).1
  have l1 : len (dir r' d') = 1 := len_one (dot_dir _ _)
  have Fb : |F - 1| ≤ 6e-6 := by rw [hF, add_sub_cancel_left]; exact q2b.trans (by norm_num)
  have lf : len (fun i => F * dir r' d' i - dir r' d' i) ≤ 6e-6 := by
    rw [show (fun i => F * dir r' d' i - dir r' d' i) = fun i => (F - 1) * dir r' d' i by funext i; ring, len_smul, l1, mul_one]; exact Fb
  have tr := len_tri (fun i => F * dir r' d' i - palEtrms eq i) (fun i => F * dir r' d' i) (dir r' d')
  have e1 : len (fun i => F * dir r' d' i - palEtrms eq i - F * dir r' d' i) = len (palEtrms eq) := by
    rw [show (fun i => F * dir r' d' i - palEtrms eq i - F * dir r' d' i) = fun i => (-1) * palEtrms eq i by funext i; ring, len_smul]; simp
  rw [e1] at tr
  have tr' := abs_le.1 ((len_rev_tri (fun i => F * dir r' d' i - palEtrms eq i) (dir r' d')).trans tr)
  rw [l1] at tr'
  have := flAnpC2s_err R hL nz comp (by norm_num at *; linarith) (by norm_num at *; linarith) (by norm_num at *; linarith)
  have ex : x = (eraAnp (eraC2s (fun i => F * dir r' d' i - palEtrms eq i)).1, (eraC2s (fun i => F * dir r' d' i - palEtrms eq i)).2) := by
    show palSubet r' d' eq = _
    unfold palSubet; rw [s2c_dir, hF]
    rfl
  rw [ex]
  exact this

/-- C135: palAddet in double precision gives the direction of exact arithmetic to 5.5e-15 radians, with a right ascension in [0, 2π], for every position and every epoch within 1000 years of 1950. -/
theorem C135_addet (R : Rounding fl) (hL : LibmOK L) (nz : Bool) (r d eq : ℝ) (h : |eq - 1950| ≤ 1000) :
    let o := flAddet fl L nz r d eq
    let x := palAddet r d eq
    0 ≤ o.1 ∧ o.1 ≤ flD2PI fl ∧ |o.2| ≤ π / 2 + 4.5e-16 ∧ len (fun i => dir o.1 o.2 i - dir x.1 x.2 i) ≤ 5.5e-15 := by
  have z : len (fun i => dir r d i - dir r d i) ≤ 0 := le_of_eq (by rw [len_eq, dot_eq]; simp)
  obtain ⟨a, b, c, e⟩ := addet_ref R hL nz h z (by norm_num)
  exact ⟨a, b, c, e.trans (by norm_num)⟩

/-- C135: palSubet in double precision gives the direction of exact arithmetic to 6.4e-15 radians, with a right ascension in [0, 2π], for every position and every epoch within 1000 years of 1950. -/
theorem C135_subet (R : Rounding fl) (hL : LibmOK L) (nz : Bool) (r d eq : ℝ) (h : |eq - 1950| ≤ 1000) :
    let o := flSubet fl L nz r d eq
    let x := palSubet r d eq
    0 ≤ o.1 ∧ o.1 ≤ flD2PI fl ∧ |o.2| ≤ π / 2 + 4.5e-16 ∧ len (fun i => dir o.1 o.2 i - dir x.1 x.2 i) ≤ 6.4e-15 := by
  have z : len (fun i => dir r d i - dir r d i) ≤ 0 := le_of_eq (by rw [len_eq, dot_eq]; simp)
  obtain ⟨a, b, c, e⟩ := subet_ref R hL nz h z (by norm_num)
  exact ⟨a, b, c, e.trans (by norm_num)⟩

/-- C135: in double precision, for every position and every epoch from 1600 to 2400, adding the E-terms undoes removing them to 2.9e-14 radians, and removing them undoes adding them to 5.9e-12 radians (1.2 microarcseconds; the latter is the size of the
second-order terms the documented formula leaves out). -/
theorem C135_round_trips (R : Rounding fl) (hL : LibmOK L) (nz nz' : Bool) (r d eq : ℝ) (h1 : 1600 ≤ eq) (h2 : eq ≤ 2400) :
    (let m := flSubet fl L nz r d eq; let c := flAddet fl L nz' m.1 m.2 eq; len (fun i => dir c.1 c.2 i - dir r d i) ≤ 2.9e-14) ∧
    (let c := flAddet fl L nz r d eq; let m := flSubet fl L nz' c.1 c.2 eq; len (fun i => dir m.1 m.2 i - dir r d i) ≤ 5.9e-12) := by
  have h : |eq - 1950| ≤ 1000 := by rw [abs_le]; constructor <;> linarith
  have s := C39_etrms_size eq h1 h2
  have n := len_nonneg (palEtrms eq)
  obtain ⟨i1, i2⟩ := C39_inverse r d eq (s.trans (by norm_num))
  dsimp only at i1 i2
  have e2 : 2 * len (palEtrms eq) ^ 2 ≤ 2 * (1.7e-6) ^ 2 := mul_le_mul_of_nonneg_left (pow_le_pow_left₀ n s 2) (by norm_num)
  have e3 : 2 * len (palEtrms eq) ^ 3 ≤ 2 * (1.7e-6) ^ 3 := mul_le_mul_of_nonneg_left (pow_le_pow_left₀ n s 3) (by norm_num)
  constructor
  · intro m c
    obtain ⟨-, -, -, a⟩ := C135_subet R hL nz r d eq h
    obtain ⟨-, -, -, b⟩ := addet_ref R hL nz' (r := m.1) (d := m.2) h a (by norm_num)
    refine (len_tri (dir c.1 c.2) _ _).trans ((add_le_add b (i2.trans e3)).trans (by norm_num))
  · intro c m
    obtain ⟨-, -, -, a⟩ := C135_addet R hL nz r d eq h
    obtain ⟨-, -, -, b⟩ := subet_ref R hL nz' (r := c.1) (d := c.2) h a (by norm_num)
    refine (len_tri (dir m.1 m.2) _ _).trans ((add_le_add b (i1.trans e2)).trans (by norm_num))

/-- B1975 and a place near the pole, with IEEE rounding. -/
example : let m := flSubet ieee roundedLibm false 1 1.57 1975; let c := flAddet ieee roundedLibm false m.1 m.2 1975; len (fun i => dir c.1 c.2 i - dir 1 1.57 i) ≤ 2.9e-14 :=
  (C135_round_trips ieee_rounding roundedLibm_ok false false 1 1.57 1975 (by norm_num) (by norm_num)).1

theorem emP_orth (i j : Fin 3) : |(emP.transpose * emP - 1) i j| ≤ 1e-8 := by
  rw [Matrix.sub_apply, Matrix.mul_apply, Fin.sum_univ_three]
  have t0 : emP 2 0 = 0.0048579479 := rfl
  have t1 : emP 2 1 = -0.0000271474 := rfl
  have t2 : emP 2 2 = 0.9999881997 := rfl
  have o0 : emP 1 0 = 0.0111820610 := rfl
  have o1 : emP 1 1 = 0.9999374784 := rfl
  have o2 : emP 1 2 = -0.0000271765 := rfl
  have z0 : emP 0 0 = 0.9999256782 := rfl
  have z1 : emP 0 1 = -0.0111820611 := rfl
  have z2 : emP 0 2 = -0.0048579477 := rfl
  simp only [Matrix.transpose_apply]
  have c : ∀ n : Fin 3, n = 0 ∨ n = 1 ∨ n = 2 := by decide
  rcases c i with rfl | rfl | rfl <;> rcases c j with rfl | rfl | rfl <;> norm_num [abs_le, Matrix.one_apply, show (2 : Fin 3) ≠ 0 by decide, show (2 : Fin 3) ≠ 1 by decide, show (0 : Fin 3) ≠ 2 by decide, show (1 : Fin 3) ≠ 2 by decide, t0, t1, t2, o0, o1, o2, z0, z1, z2]

theorem emP_le (i j : Fin 3) : |emP i j| ≤ 1 := by
  fin_cases i <;> fin_cases j <;> norm_num [emP, abs_le]

theorem emV_le (i j : Fin 3) : |emV i j| ≤ 1 := by
  fin_cases i <;> fin_cases j <;> norm_num [emV, abs_le]

/-- The position matrix hardly changes lengths. -/
theorem emP_len {u : Vec3} (hu : dot u u = 1) : |len (emP.mulVec u) - 1| ≤ 1e-7 := by
  have e : dot (emP.mulVec u) (emP.mulVec u) = dot u u + dot u ((emP.transpose * emP - 1).mulVec u) := by
    rw [Matrix.sub_mulVec, Matrix.one_mulVec, dot_dotProduct, dot_dotProduct, dot_dotProduct, ← Matrix.mulVec_mulVec, dotProduct_sub, Matrix.dotProduct_mulVec u, Matrix.vecMul_transpose]
    ring
  have b := dot_mulVec_le emP_orth (len_one hu)
  have q := len_sq (emP.mulVec u)
  have n := len_nonneg (emP.mulVec u)
  rw [e, hu] at q
  have b' := abs_le.1 b
  rw [abs_le]
  generalize len (emP.mulVec u) = N at *
  generalize dot u ((emP.transpose * emP - 1).mulVec u) = x at *
  constructor <;> norm_num at * <;> nlinarith

/-- palFk45z in double precision from coordinates that are slightly off. -/
theorem fk45z_ref (R : Rounding fl) (hL : LibmOK L) (nz : Bool) {r d r' d' b δ : ℝ} (h : |b - 1950| ≤ 1000) (hδ : len (fun i => dir r d i - dir r' d' i) ≤ δ) (hδ1 : δ ≤ 1.2e-14) :
    let o := flFk45z fl L nz r d b
    let x := palFk45z r' d' b
    0 ≤ o.1 ∧ o.1 ≤ flD2PI fl ∧ |o.2| ≤ π / 2 + 4.5e-16 ∧ len (fun i => dir o.1 o.2 i - dir x.1 x.2 i) ≤ 3.5 * (3 * δ + 4.3e-15) + 3e-15 := by
  intro o x
  have d0 := (len_nonneg _).trans hδ
  have sd : ∀ i, |flS2c fl L r d i - dir r' d' i| ≤ 5.8e-16 + δ := fun i =>
    (abs_sub_le _ (dir r d i) _).trans (add_le_add (flS2c_err R hL r d i) ((comp_le_len (fun i => dir r d i - dir r' d' i) i).trans hδ))
  have sd' : ∀ i, |flS2c fl L r d i - dir r' d' i| ≤ 1.3e-14 := fun i => (sd i).trans (by norm_num at hδ1 ⊢; linarith)
  have db := dir_le r' d'
  have l1 : len (dir r' d') = 1 := len_one (dot_dir _ _)
  obtain ⟨pm, pm1, pm2⟩ := flPMF_near R
  have a0 : |fl (b - 1950) - (b - 1950)| ≤ 1.12e-13 := R.add_err2 (δ := 0) (B := 1000) _ (by rw [sub_self, abs_zero]) h (by norm_num) (by norm_num)
  have wb : |(b - 1950) / palPMF| ≤ 4.86e-5 := by
    rw [abs_div, abs_of_pos (by linarith : 0 < palPMF), div_le_iff₀ (by linarith)]
    refine h.trans ?_
    norm_num at *; linarith
  have w0 := R.divN 2.5e-20 a0 pm (by norm_num : (0 : ℝ) < 2.06e7) pm1 wb (by norm_num) (by norm_num)
  have adb : ∀ i, |fkAd i| ≤ 1.58e-3 := fun i => by fin_cases i <;> norm_num [fkAd, abs_le]
  have ab : ∀ i, |fkA i| ≤ 1.63e-6 := fun i => by fin_cases i <;> norm_num [fkA, abs_le]
  have ad := fun i => R.cst (fkAd i) (M := 1.58e-3) (adb i) (by norm_num) (by norm_num)
  have aa := fun i => R.cst (fkA i) (M := 1.63e-6) (ab i) (by norm_num) (by norm_num)
  have m0 := fun i => R.mulB 6e-23 w0 (ad i) wb (adb i) (by norm_num) (by norm_num)
  have m0b := fun i => mul_bd wb (adb i)
  obtain ⟨A, hA⟩ : ∃ A : Vec3, A = fun i => fkA i + (b - 1950) / palPMF * fkAd i := ⟨_, rfl⟩
  obtain ⟨a, ha⟩ : ∃ a : Vec3, a = fun i => fl (fl (fkA i) + fl (fl (fl (b - 1950) / flPMF fl) * fl (fkAd i))) := ⟨_, rfl⟩
  have a1 : ∀ i, |a i - A i| ≤ 4.5e-22 ∧ |A i| ≤ 1.71e-6 := fun i => by
    obtain ⟨u, v⟩ := R.addB 4.5e-22 (aa i) (m0 i) (ab i) (m0b i) (by norm_num) (by norm_num)
    rw [ha, hA]
    exact ⟨u, v.trans (by norm_num)⟩
  have pr : ∀ i, |fl (flS2c fl L r d i * a i) - dir r' d' i * A i| ≤ 2.5e-20 := fun i => R.mulB _ (sd' i) (a1 i).1 (db i) (a1 i).2 (by norm_num) (by norm_num)
  have pb : ∀ i, |dir r' d' i * A i| ≤ 1 * 1.71e-6 := fun i => mul_bd (db i) (a1 i).2
  obtain ⟨q1, q1b⟩ := R.addB 5.1e-20 (pr 0) (pr 1) (pb 0) (pb 1) (by norm_num) (by norm_num)
  obtain ⟨q2, q2b⟩ := R.addB 7.7e-20 q1 (pr 2) q1b (pb 2) (by norm_num) (by norm_num)
  obtain ⟨W, hW⟩ : ∃ W, W = dir r' d' 0 * A 0 + dir r' d' 1 * A 1 + dir r' d' 2 * A 2 := ⟨_, rfl⟩
  obtain ⟨w, hw⟩ : ∃ w, w = fl (fl (fl (flS2c fl L r d 0 * a 0) + fl (flS2c fl L r d 1 * a 1)) + fl (flS2c fl L r d 2 * a 2)) := ⟨_, rfl⟩
  rw [← hw, ← hW] at q2
  rw [← hW] at q2b
  obtain ⟨V, hV⟩ : ∃ V : Vec3, V = fun i => dir r' d' i - A i + W * dir r' d' i := ⟨_, rfl⟩
  obtain ⟨v, hv⟩ : ∃ v : Vec3, v = fun i => fl (fl (flS2c fl L r d i - a i) + fl (w * flS2c fl L r d i)) := ⟨_, rfl⟩
  have v1 : ∀ i, |v i - V i| ≤ δ + 8.1e-16 ∧ |V i| ≤ 1.00001 := fun i => by
    obtain ⟨s1, s1b⟩ := R.subB (δ + 6.94e-16) (sd i) (a1 i).1 (db i) (a1 i).2 (by norm_num at hδ1 ⊢; linarith) (by norm_num at hδ1 ⊢; linarith)
    have s2 := R.mulB 1.6e-19 q2 (sd' i) q2b (db i) (by norm_num) (by norm_num)
    obtain ⟨s3, s3b⟩ := R.addB (δ + 8.1e-16) s1 s2 s1b (mul_bd q2b (db i)) (by norm_num at hδ1 ⊢; linarith) (by norm_num at hδ1 ⊢; linarith)
    rw [hv, hV]
    exact ⟨s3, s3b.trans (by norm_num)⟩
  have dl : δ ≤ 2e-14 := hδ1.trans (by norm_num)
  have pos := fun j => flRxp_row R emP_le (fun i => (v1 i).1) (fun i => (v1 i).2) dl j
  have vel := fun j => flRxp_row R emV_le (fun i => (v1 i).1) (fun i => (v1 i).2) dl j
  have vel' : ∀ j, |flRxp fl (fun i j => fl (emV i j)) v j - emV.mulVec V j| ≤ 4e-14 := fun j => (vel j).1.trans (by norm_num at hδ1 ⊢; linarith)
  obtain ⟨z, zb⟩ := flFkW_err R h
  obtain ⟨S, hS⟩ : ∃ S, S = (palEpjR (palEpb2dR b) - 2000) / palPMF := ⟨_, rfl⟩
  rw [← hS] at z zb
  have mv := fun j => R.mulB 3e-18 z (vel' j) zb (vel j).2 (by norm_num) (by norm_num)
  have comp : ∀ j, |fl (flRxp fl (fun i j => fl (emP i j)) v j + fl (fl (fl (flEpj fl (flEpb2d fl b) - 2000) / flPMF fl) * flRxp fl (fun i j => fl (emV i j)) v j)) - (emP.mulVec V j + S * emV.mulVec V j)| ≤ 3 * δ + 4.3e-15 := fun j =>
    (R.addB _ (pos j).1 (mv j) (pos j).2 (mul_bd zb (vel j).2) (by norm_num at hδ1 ⊢; linarith) (by norm_num at hδ1 ⊢; linarith)).1
  -- length
  have e1 := abs_le.1 (emP_len (dot_dir r' d'))
  have vd : ∀ i, |V i - dir r' d' i| ≤ 7e-6 := fun i => by
    rw [hV, show dir r' d' i - A i + W * dir r' d' i - dir r' d' i = W * dir r' d' i - A i by ring]
    refine (abs_sub _ _).trans ((add_le_add (mul_bd q2b (db i)) (a1 i).2).trans (by norm_num))
  have e2 : len (fun j => (emP.mulVec V j + S * emV.mulVec V j) - emP.mulVec (dir r' d') j) ≤ 1.7321 * 2.1e-4 := len_le_of_comp (fun j => by
    have x1 : emP.mulVec V j - emP.mulVec (dir r' d') j = emP j 0 * (V 0 - dir r' d' 0) + emP j 1 * (V 1 - dir r' d' 1) + emP j 2 * (V 2 - dir r' d' 2) := by
      simp only [Matrix.mulVec, dotProduct, Fin.sum_univ_three]; ring
    rw [show emP.mulVec V j + S * emV.mulVec V j - emP.mulVec (dir r' d') j = (emP.mulVec V j - emP.mulVec (dir r' d') j) + S * emV.mulVec V j by ring, x1]
    have y0 := mul_bd (emP_le j 0) (vd 0)
    have y1 := mul_bd (emP_le j 1) (vd 1)
    have y2 := mul_bd (emP_le j 2) (vd 2)
    have y3 := mul_bd zb (vel j).2
    refine (abs_add_le _ _).trans ((add_le_add ((abs_add_le _ _).trans (add_le_add ((abs_add_le _ _).trans (add_le_add y0 y1)) y2)) y3).trans (by norm_num)))
  have e3 := abs_le.1 ((len_rev_tri (fun j => emP.mulVec V j + S * emV.mulVec V j) (emP.mulVec (dir r' d'))).trans e2)
  have fin := flAnpC2s_err R hL nz comp (by norm_num at hδ1 ⊢; linarith) (by norm_num at e1 e3 ⊢; linarith) (by norm_num at e1 e3 ⊢; linarith)
  have ex : x = (eraAnp (eraC2s (fun j => emP.mulVec V j + S * emV.mulVec V j)).1, (eraC2s (fun j => emP.mulVec V j + S * emV.mulVec V j)).2) := by
    show palFk45z r' d' b = _
    unfold palFk45z; rw [s2c_dir]
    dsimp only
    rw [eraRxp_eq, eraRxp_eq, hV, hW, hA, hS]
  have eo : o = (flAnp fl (flC2s fl L nz (fun j => fl (flRxp fl (fun i j => fl (emP i j)) v j + fl (fl (fl (flEpj fl (flEpb2d fl b) - 2000) / flPMF fl) * flRxp fl (fun i j => fl (emV i j)) v j)))).1,
      (flC2s fl L nz (fun j => fl (flRxp fl (fun i j => fl (emP i j)) v j + fl (fl (fl (flEpj fl (flEpb2d fl b) - 2000) / flPMF fl) * flRxp fl (fun i j => fl (emV i j)) v j)))).2) := by
    rw [hv, hw, ha]; rfl
  rw [ex, eo]
  exact fin

/-- C135: palFk45z in double precision gives the direction of exact arithmetic to 1.9e-14 radians, with a right ascension in [0, 2π], for every position and every Besselian epoch within 1000 years of 1950. -/
theorem C135_fk45z (R : Rounding fl) (hL : LibmOK L) (nz : Bool) (r d b : ℝ) (h : |b - 1950| ≤ 1000) :
    let o := flFk45z fl L nz r d b
    let x := palFk45z r d b
    0 ≤ o.1 ∧ o.1 ≤ flD2PI fl ∧ |o.2| ≤ π / 2 + 4.5e-16 ∧ len (fun i => dir o.1 o.2 i - dir x.1 x.2 i) ≤ 1.9e-14 := by
  have z : len (fun i => dir r d i - dir r d i) ≤ 0 := le_of_eq (by rw [len_eq, dot_eq]; simp)
  obtain ⟨a, b, c, e⟩ := fk45z_ref R hL nz h z (by norm_num)
  exact ⟨a, b, c, e.trans (by norm_num)⟩

/-- A place observed in 1984, with IEEE rounding. -/
example : len (fun i => dir (flFk45z ieee roundedLibm false 1.2 (-0.3) 1984).1 (flFk45z ieee roundedLibm false 1.2 (-0.3) 1984).2 i - dir (palFk45z 1.2 (-0.3) 1984).1 (palFk45z 1.2 (-0.3) 1984).2 i) ≤ 1.9e-14 :=
  (C135_fk45z ieee_rounding roundedLibm_ok false 1.2 (-0.3) 1984 (by norm_num [abs_le])).2.2.2

end Pal.Props
