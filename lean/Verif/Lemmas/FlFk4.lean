import Verif.Model.FlFk4
import Verif.Lemmas.FlAoppa
import Verif.Lemmas.FlFit

/-!
# Rounding errors of the E-terms and of palFk45z
-/

namespace Pal
open Real Pal.Spec
variable {fl : ℝ → ℝ} {L : Libm}

theorem das2r_bd : |das2r| ≤ 4.85e-6 := by rw [abs_of_pos (by linarith [das2r_bounds.1])]; exact das2r_bounds.2.1

/-- The E-terms in double precision. -/
theorem flEtrms_err (R : Rounding fl) (hL : LibmOK L) {ep : ℝ} (h : |ep - 1950| ≤ 1000) (i : Fin 3) :
    |flEtrms fl L ep i - palEtrms ep i| ≤ 9e-21 ∧ |palEtrms ep i| ≤ 1.72e-6 := by
  have dr := flDAS2R_err R
  have db := das2r_bd
  have a1 : |fl (ep - 1950) - (ep - 1950)| ≤ 1.12e-13 := R.add_err2 (δ := 0) (B := 1000) _ (by rw [sub_self, abs_zero]) h (by norm_num) (by norm_num)
  have k1 := R.cst 0.0100002135903 (M := 0.010001) (by norm_num) (by norm_num) (by norm_num)
  have k1b : |(0.0100002135903 : ℝ)| ≤ 0.010001 := by norm_num
  have t1 := R.mulB 3.5e-15 a1 k1 h k1b (by norm_num) (by norm_num)
  have t1b : |(ep - 1950) * 0.0100002135903| ≤ 10.01 := (mul_bd h k1b).trans (by norm_num)
  obtain ⟨t, ht⟩ : ∃ t, t = fl (fl (ep - 1950) * fl 0.0100002135903) := ⟨_, rfl⟩
  obtain ⟨T, hT⟩ : ∃ T, T = (ep - 1950) * 0.0100002135903 := ⟨_, rfl⟩
  rw [← ht, ← hT] at t1
  rw [← hT] at t1b
  -- eccentricity
  have c1 := R.cst 1.26e-7 (M := 1.26e-7) (by norm_num) (by norm_num) (by norm_num)
  have c1b : |(1.26e-7 : ℝ)| ≤ 1.26e-7 := by norm_num
  have q1 := R.mulB 8e-22 t1 c1 t1b c1b (by norm_num) (by norm_num)
  have c2 := R.cst 4.193e-5 (M := 4.193e-5) (by norm_num) (by norm_num) (by norm_num)
  obtain ⟨q2, q2b⟩ := R.addB 1.1e-20 q1 c2 (mul_bd t1b c1b) (by norm_num : |(4.193e-5 : ℝ)| ≤ 4.193e-5) (by norm_num) (by norm_num)
  have q3 := R.mulB 3.5e-19 q2 t1 q2b t1b (by norm_num) (by norm_num)
  have c3 := R.cst 0.01673011 (M := 0.01674) (by norm_num) (by norm_num) (by norm_num)
  obtain ⟨e1, e1b⟩ := R.subB 4.5e-18 c3 q3 (by norm_num : |(0.01673011 : ℝ)| ≤ 0.01674) (mul_bd q2b t1b) (by norm_num) (by norm_num)
  have e1b' := e1b.trans (by norm_num : _ ≤ (0.0172 : ℝ))
  -- obliquity
  have d1 := R.cst 0.00181 (M := 0.00181) (by norm_num) (by norm_num) (by norm_num)
  have d1b : |(0.00181 : ℝ)| ≤ 0.00181 := by norm_num
  have r1 := R.mulB 1.1e-17 t1 d1 t1b d1b (by norm_num) (by norm_num)
  have d2 := R.cst 0.00319 (M := 0.00319) (by norm_num) (by norm_num) (by norm_num)
  obtain ⟨r2, r2b⟩ := R.addB 1.5e-17 r1 d2 (mul_bd t1b d1b) (by norm_num : |(0.00319 : ℝ)| ≤ 0.00319) (by norm_num) (by norm_num)
  have r3 := R.mulB 2.6e-16 r2 t1 r2b t1b (by norm_num) (by norm_num)
  have d3 := R.cst 46.8495 (M := 46.85) (by norm_num) (by norm_num) (by norm_num)
  obtain ⟨r4, r4b⟩ := R.addB 1.1e-14 r3 d3 (mul_bd r2b t1b) (by norm_num : |(46.8495 : ℝ)| ≤ 46.85) (by norm_num) (by norm_num)
  have r5 := R.mulB 3.5e-13 r4 t1 r4b t1b (by norm_num) (by norm_num)
  have d4 := R.cst 84404.836 (M := 84404.836) (by norm_num) (by norm_num) (by norm_num)
  obtain ⟨r6, r6b⟩ := R.subB 2e-11 d4 r5 (by norm_num : |(84404.836 : ℝ)| ≤ 84404.836) (mul_bd r4b t1b) (by norm_num) (by norm_num)
  have r7 := R.mulB 2.4e-16 r6 dr r6b db (by norm_num) (by norm_num)
  -- perihelion
  have f1 := R.cst 0.012 (M := 0.012) (by norm_num) (by norm_num) (by norm_num)
  have f1b : |(0.012 : ℝ)| ≤ 0.012 := by norm_num
  have s1 := R.mulB 7.5e-17 t1 f1 t1b f1b (by norm_num) (by norm_num)
  have f2 := R.cst 1.65 (M := 1.65) (by norm_num) (by norm_num) (by norm_num)
  obtain ⟨s2, s2b⟩ := R.addB 4.6e-16 s1 f2 (mul_bd t1b f1b) (by norm_num : |(1.65 : ℝ)| ≤ 1.65) (by norm_num) (by norm_num)
  have s3 := R.mulB 1.3e-14 s2 t1 s2b t1b (by norm_num) (by norm_num)
  have f3 := R.cst 6190.67 (M := 6190.67) (by norm_num) (by norm_num) (by norm_num)
  obtain ⟨s4, s4b⟩ := R.addB 1.4e-12 s3 f3 (mul_bd s2b t1b) (by norm_num : |(6190.67 : ℝ)| ≤ 6190.67) (by norm_num) (by norm_num)
  have s5 := R.mulB 4.4e-11 s4 t1 s4b t1b (by norm_num) (by norm_num)
  have f4 := R.cst 1015489.951 (M := 1015490) (by norm_num) (by norm_num) (by norm_num)
  obtain ⟨s6, s6b⟩ := R.addB 2.8e-10 s5 f4 (mul_bd s4b t1b) (by norm_num : |(1015489.951 : ℝ)| ≤ 1015490) (by norm_num) (by norm_num)
  have s7 := R.mulB 3.1e-15 s6 dr s6b db (by norm_num) (by norm_num)
  -- constant of aberration times eccentricity
  have g1 := R.cst 20.49552 (M := 20.5) (by norm_num) (by norm_num) (by norm_num)
  have g1b : |(20.49552 : ℝ)| ≤ 20.5 := by norm_num
  have k2 := R.mulB 1.8e-16 e1 g1 e1b' g1b (by norm_num) (by norm_num)
  have k3 := R.mulB 1.5e-21 k2 dr (mul_bd e1b' g1b) db (by norm_num) (by norm_num)
  have k3b := (mul_bd (mul_bd e1b' g1b) db).trans (by norm_num : _ ≤ (1.72e-6 : ℝ))
  have ev : flEtrms fl L ep = ![fl (fl (fl (fl (fl 0.01673011 - fl (fl (fl (t * fl 1.26e-7) + fl 4.193e-5) * t)) * fl 20.49552) * flDAS2R fl) *
      L.sin (fl (fl (fl (fl (fl (fl (fl (t * fl 0.012) + fl 1.65) * t) + fl 6190.67) * t) + fl 1015489.951) * flDAS2R fl))),
      fl (fl (-fl (fl (fl (fl 0.01673011 - fl (fl (fl (t * fl 1.26e-7) + fl 4.193e-5) * t)) * fl 20.49552) * flDAS2R fl) *
      L.cos (fl (fl (fl (fl (fl (fl (fl (t * fl 0.012) + fl 1.65) * t) + fl 6190.67) * t) + fl 1015489.951) * flDAS2R fl))) *
      L.cos (fl (fl (fl 84404.836 - fl (fl (fl (fl (fl (t * fl 0.00181) + fl 0.00319) * t) + fl 46.8495) * t)) * flDAS2R fl))),
      fl (fl (-fl (fl (fl (fl 0.01673011 - fl (fl (fl (t * fl 1.26e-7) + fl 4.193e-5) * t)) * fl 20.49552) * flDAS2R fl) *
      L.cos (fl (fl (fl (fl (fl (fl (fl (t * fl 0.012) + fl 1.65) * t) + fl 6190.67) * t) + fl 1015489.951) * flDAS2R fl))) *
      L.sin (fl (fl (fl 84404.836 - fl (fl (fl (fl (fl (t * fl 0.00181) + fl 0.00319) * t) + fl 46.8495) * t)) * flDAS2R fl)))] := by
    rw [ht]; rfl
  have eV : palEtrms ep = ![(0.01673011 - (T * 1.26e-7 + 4.193e-5) * T) * 20.49552 * das2r * sin ((((T * 0.012 + 1.65) * T + 6190.67) * T + 1015489.951) * das2r),
      -((0.01673011 - (T * 1.26e-7 + 4.193e-5) * T) * 20.49552 * das2r) * cos ((((T * 0.012 + 1.65) * T + 6190.67) * T + 1015489.951) * das2r) *
        cos ((84404.836 - ((T * 0.00181 + 0.00319) * T + 46.8495) * T) * das2r),
      -((0.01673011 - (T * 1.26e-7 + 4.193e-5) * T) * 20.49552 * das2r) * cos ((((T * 0.012 + 1.65) * T + 6190.67) * T + 1015489.951) * das2r) *
        sin ((84404.836 - ((T * 0.00181 + 0.00319) * T + 46.8495) * T) * das2r)] := by
    rw [hT]; rfl
  rw [ev, eV]
  clear ev eV
  generalize fl (fl (fl (fl 0.01673011 - fl (fl (fl (t * fl 1.26e-7) + fl 4.193e-5) * t)) * fl 20.49552) * flDAS2R fl) = ek at *
  generalize (0.01673011 - (T * 1.26e-7 + 4.193e-5) * T) * 20.49552 * das2r = EK at *
  generalize fl (fl (fl (fl (fl (fl (fl (t * fl 0.012) + fl 1.65) * t) + fl 6190.67) * t) + fl 1015489.951) * flDAS2R fl) = p at *
  generalize (((T * 0.012 + 1.65) * T + 6190.67) * T + 1015489.951) * das2r = P at *
  generalize fl (fl (fl 84404.836 - fl (fl (fl (fl (fl (t * fl 0.00181) + fl 0.00319) * t) + fl 46.8495) * t)) * flDAS2R fl) = e0 at *
  generalize (84404.836 - ((T * 0.00181 + 0.00319) * T + 46.8495) * T) * das2r = E0 at *
  clear q1 q2 q3 e1 r1 r2 r3 r4 r5 r6 s1 s2 s3 s4 s5 s6 k2
  have sp : |L.sin p - sin P| ≤ 3.4e-15 := (abs_sub_le _ (sin p) _).trans ((add_le_add (hL.sin p) ((Real.abs_sin_sub_sin_le p P).trans s7)).trans (by norm_num))
  have cp : |L.cos p - cos P| ≤ 3.4e-15 := (abs_sub_le _ (cos p) _).trans ((add_le_add (hL.cos p) ((Real.abs_cos_sub_cos_le p P).trans s7)).trans (by norm_num))
  have se : |L.sin e0 - sin E0| ≤ 4.8e-16 := (abs_sub_le _ (sin e0) _).trans ((add_le_add (hL.sin e0) ((Real.abs_sin_sub_sin_le e0 E0).trans r7)).trans (by norm_num))
  have ce : |L.cos e0 - cos E0| ≤ 4.8e-16 := (abs_sub_le _ (cos e0) _).trans ((add_le_add (hL.cos e0) ((Real.abs_cos_sub_cos_le e0 E0).trans r7)).trans (by norm_num))
  have kn : |-ek - -EK| ≤ 1.5e-21 := by rw [neg_sub_neg, abs_sub_comm]; exact k3
  have knb : |-EK| ≤ 1.72e-6 := by rw [abs_neg]; exact k3b
  have m := R.mulB 7.7e-21 kn cp knb (abs_cos_le_one P) (by norm_num) (by norm_num)
  have mb := mul_bd knb (abs_cos_le_one P)
  fin_cases i
  · exact ⟨R.mulB _ k3 sp k3b (abs_sin_le_one P) (by norm_num) (by norm_num), (mul_bd k3b (abs_sin_le_one P)).trans (by norm_num)⟩
  · exact ⟨R.mulB _ m ce mb (abs_cos_le_one E0) (by norm_num) (by norm_num), (mul_bd mb (abs_cos_le_one E0)).trans (by norm_num)⟩
  · exact ⟨R.mulB _ m se mb (abs_sin_le_one E0) (by norm_num) (by norm_num), (mul_bd mb (abs_sin_le_one E0)).trans (by norm_num)⟩

/-- The last steps of palAddet, palSubet and palFk45z. -/
theorem flAnpC2s_err (R : Rounding fl) (hL : LibmOK L) (nz : Bool) {v V : Vec3} {e : ℝ} (hv : ∀ i, |v i - V i| ≤ e) (he : e ≤ 1e-13) (h1 : 0.99 ≤ len V) (h2 : len V ≤ 1.01) :
    0 ≤ flAnp fl (flC2s fl L nz v).1 ∧ flAnp fl (flC2s fl L nz v).1 ≤ flD2PI fl ∧ |(flC2s fl L nz v).2| ≤ π / 2 + 4.5e-16 ∧
      len (fun i => dir (flAnp fl (flC2s fl L nz v).1) (flC2s fl L nz v).2 i - dir (eraAnp (eraC2s V).1) (eraC2s V).2 i) ≤ 3.5 * e + 3e-15 := by
  have hu : (fun i => len V * dir (eraAnp (eraC2s V).1) (eraC2s V).2 i) = V := by
    have := eraC2s_spec V
    rw [pm_len] at this
    rw [dir_same (eraAnp_spec (eraC2s V).1).2]
    exact this
  have := flC2s_dir R hL nz v V e hv he h1 h2 _ hu
  rw [flC2s_anpm R hL nz hv he h1 h2] at this
  exact this

theorem flPMF_near (R : Rounding fl) : Near 2.5e-16 (flPMF fl) palPMF ∧ 2.06e7 ≤ palPMF ∧ palPMF ≤ 2.07e7 := by
  have p1 := pi_gt_d4
  have p2 := pi_lt_d4
  have e : palPMF = 129600000 / (2 * π) := by unfold palPMF; norm_num
  have b1 : (2.06e7 : ℝ) ≤ palPMF := by rw [e, le_div_iff₀ (by positivity)]; norm_num at *; linarith
  have b2 : palPMF ≤ 2.07e7 := by rw [e, div_le_iff₀ (by positivity)]; norm_num at *; linarith
  have n : Near 5e-17 (flPal2PI fl) (2 * π) := ⟨by positivity, by norm_num, by norm_num, (flPal2PI_err R).trans (by norm_num at *; linarith)⟩
  have bb : |129600000 / (2 * π)| ≤ 2.07e7 := by rw [← e, abs_of_nonneg (by linarith)]; exact b2
  have q := R.divN 4e-9 (noerr 129600000) n (by norm_num : (0 : ℝ) < 6.28) (by norm_num at *; linarith) bb (by norm_num) (by norm_num)
  rw [← e] at q
  refine ⟨⟨by linarith, by norm_num, by norm_num, q.trans ?_⟩, b1, b2⟩
  norm_num at *; linarith

/-- A row of a matrix of moderate numbers times a vector. -/
theorem flRxp_row (R : Rounding fl) {M : Mat3} (hM : ∀ i j, |M i j| ≤ 1) {v V : Vec3} {δ : ℝ} (hv : ∀ i, |v i - V i| ≤ δ + 8.1e-16) (hV : ∀ i, |V i| ≤ 1.00001) (d1 : δ ≤ 2e-14) (j : Fin 3) :
    |flRxp fl (fun i j => fl (M i j)) v j - M.mulVec V j| ≤ 3 * δ + 3.9e-15 ∧ |M.mulVec V j| ≤ 3.0001 := by
  have hm : ∀ i j, |fl (M i j) - M i j| ≤ 1.1104e-16 * 1 := fun i j => R.cst _ (hM i j) (by norm_num) (by norm_num)
  have q : ∀ i, |fl (fl (M j i) * v i) - M j i * V i| ≤ δ + 1.04e-15 := fun i =>
    R.mulB _ (hm j i) (hv i) (hM j i) (hV i) (by norm_num at d1 ⊢; linarith) (by norm_num at d1 ⊢; linarith)
  have b : ∀ i, |M j i * V i| ≤ 1 * 1.00001 := fun i => mul_bd (hM j i) (hV i)
  obtain ⟨s0, s0b⟩ := R.addB (δ + 1.16e-15) (noerr 0) (q 0) (by norm_num : |(0 : ℝ)| ≤ 0) (b 0) (by norm_num at d1 ⊢; linarith) (by norm_num at d1 ⊢; linarith)
  obtain ⟨s1, s1b⟩ := R.addB (2 * δ + 2.43e-15) s0 (q 1) s0b (b 1) (by norm_num at d1 ⊢; linarith) (by norm_num at d1 ⊢; linarith)
  obtain ⟨s2, s2b⟩ := R.addB (3 * δ + 3.9e-15) s1 (q 2) s1b (b 2) (by norm_num at d1 ⊢; linarith) (by norm_num at d1 ⊢; linarith)
  have e : M.mulVec V j = 0 + M j 0 * V 0 + M j 1 * V 1 + M j 2 * V 2 := by simp [Matrix.mulVec, dotProduct, Fin.sum_univ_three]
  rw [e]
  exact ⟨s2, s2b.trans (by norm_num)⟩

/-- The interval from J2000 in Julian years of a Besselian epoch, over PMF. -/
theorem flFkW_err (R : Rounding fl) {b : ℝ} (h : |b - 1950| ≤ 1000) :
    |fl (fl (flEpj fl (flEpb2d fl b) - 2000) / flPMF fl) - (palEpjR (palEpb2dR b) - 2000) / palPMF| ≤ 1.4e-19 ∧ |(palEpjR (palEpb2dR b) - 2000) / palPMF| ≤ 6e-5 := by
  have h' : |b - 1900| ≤ 1050 := by rw [abs_le] at *; constructor <;> linarith [h.1, h.2]
  have a1 : |fl (b - 1900) - (b - 1900)| ≤ 1.18e-13 := R.add_err2 (δ := 0) (B := 1050) _ (by rw [sub_self, abs_zero]) h' (by norm_num) (by norm_num)
  have c1 := R.cst 365.242198781 (M := 365.25) (by norm_num) (by norm_num) (by norm_num)
  have c1b : |(365.242198781 : ℝ)| ≤ 365.25 := by norm_num
  have m := R.mulB 1.4e-10 a1 c1 h' c1b (by norm_num) (by norm_num)
  have c2 := R.cst 15019.81352 (M := 15020) (by norm_num) (by norm_num) (by norm_num)
  obtain ⟨s, sb⟩ := R.addB 1.9e-10 c2 m (by norm_num : |(15019.81352 : ℝ)| ≤ 15020) (mul_bd h' c1b) (by norm_num) (by norm_num)
  have c3 := R.cst (2400000.5 - 2451545) (M := 51545) (by norm_num) (by norm_num) (by norm_num)
  obtain ⟨t, tb⟩ := R.addB 2.5e-10 c3 s (by norm_num : |(2400000.5 - 2451545 : ℝ)| ≤ 51545) sb (by norm_num) (by norm_num)
  have n0 : Near 1e-20 (365.25 : ℝ) 365.25 := ⟨by norm_num, by norm_num, by norm_num, by norm_num⟩
  have q1b : |((2400000.5 - 2451545) + (15019.81352 + (b - 1900) * 365.242198781)) / 365.25| ≤ 1233 := by
    rw [abs_div, abs_of_pos (by norm_num : (0 : ℝ) < 365.25), div_le_iff₀ (by norm_num)]; exact tb.trans (by norm_num)
  have q1 := R.divN 9e-13 t n0 (by norm_num : (0 : ℝ) < 365.25) le_rfl q1b (by norm_num) (by norm_num)
  obtain ⟨u, ub⟩ := R.addB 1.3e-12 (noerr 2000) q1 (by norm_num : |(2000 : ℝ)| ≤ 2000) q1b (by norm_num) (by norm_num)
  obtain ⟨w, -⟩ := R.subB 1.9e-12 u (noerr 2000) ub (by norm_num : |(2000 : ℝ)| ≤ 2000) (by norm_num) (by norm_num)
  obtain ⟨p, p1, p2⟩ := flPMF_near R
  have wb : |(2000 + ((2400000.5 - 2451545) + (15019.81352 + (b - 1900) * 365.242198781)) / 365.25 - 2000) / palPMF| ≤ 6e-5 := by
    rw [add_sub_cancel_left, abs_div, abs_of_pos (by linarith : 0 < palPMF), div_le_iff₀ (by linarith)]
    refine q1b.trans ?_
    norm_num at *; linarith
  have z := R.divN 1.4e-19 w p (by norm_num : (0 : ℝ) < 2.06e7) p1 wb (by norm_num) (by norm_num)
  exact ⟨z.trans (by norm_num), wb⟩

end Pal
