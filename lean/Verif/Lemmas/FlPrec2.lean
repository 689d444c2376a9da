import Verif.Lemmas.FlPrec
import Verif.Lemmas.Coord
import Verif.Props.FlAngle

/-!
# Rounding errors of palPrec, palPrebn, palEcmat, and of turning directions by their matrices
-/

namespace Pal
open Real Pal.Spec Pal.Props Matrix
variable {fl : ℝ → ℝ} {L : Libm}

/-- palPrec in double precision. -/
theorem flPrec_small (R : Rounding fl) (hL : LibmOK L) (nut : ℝ → ℝ → ℝ × ℝ) {ep0 ep1 : ℝ} (h0 : |ep0 - 2000| ≤ 1000) (h1 : |ep1 - 2000| ≤ 1000) :
    Small (flPrec fl L ep0 ep1 - palPrec (iau2006 nut) ep0 ep1) 1.8e-14 := by
  have z : ∀ e : ℝ, |e - e| ≤ 5.6e-13 := fun e => by rw [sub_self, abs_zero]; norm_num
  obtain ⟨t0, b0⟩ := flCent_ep R (z ep0) h0
  obtain ⟨t1, b1⟩ := flCent_ep R (z ep1) h1
  have s0 := flPmat06_small R hL t0 b0
  have s1 := flPmat06_small R hL t1 b1
  unfold flPrec palPrec
  dsimp only [iau2006]
  rw [eraTr_eq, eraTr_eq, eraRxr_eq]
  split_ifs
  · exact s1.mono (by norm_num)
  · exact s0.transp.mono (by norm_num)
  · exact (flRxr_small R (rot_transpose (pmat06_rot _ _)) (pmat06_rot _ _) s0.transp s1 (by norm_num) (by norm_num)).mono (by norm_num)

/-- The matrix of the ecliptic conversions. -/
theorem flPrec_date (R : Rounding fl) (hL : LibmOK L) {date : ℝ} (h : |date - 51544.5| ≤ 365250) :
    Small (flPrec fl L 2000 (flEpj fl date) - eraPmat06 2451545 (date - 51544.5)) 8.2e-15 := by
  obtain ⟨a, b⟩ := flEpj_near R h
  obtain ⟨t1, b1⟩ := flCent_ep R a b
  have hd : (palEpjR date - 2000) * 365.25 = date - 51544.5 := by unfold palEpjR rMJD0; ring
  unfold flPrec
  dsimp only
  rw [if_pos rfl, ← hd]
  exact flPmat06_small R hL t1 b1

theorem flObl06_err (R : Rounding fl) {date : ℝ} (h : |date - 51544.5| ≤ 365250) : |flObl06 fl 2400000.5 date - eraObl06 2400000.5 date| ≤ 2.4e-16 := by
  obtain ⟨t, b⟩ := flCent_mjd R h
  exact (flPfw06_err R t b).2.2.2

/-- palEcmat in double precision. -/
theorem flEcmat_small (R : Rounding fl) (hL : LibmOK L) {date : ℝ} (h : |date - 51544.5| ≤ 365250) :
    Small (flEcmat fl L date - axisX (eraObl06 2400000.5 date)) 2.1e-15 := by
  have e : flEcmat fl L date = flRx fl L (flObl06 fl 2400000.5 date) eraIr := by
    unfold flEcmat flDeuler
    rw [flDeulerLoop, if_pos (by norm_num)]
    simp only [List.getElem?_cons_zero, true_or, if_true]
    rw [flDeulerLoop, if_pos (by norm_num)]
    simp
  rw [e]
  have := (flRx_step R hL rot_one small_ir (by norm_num) (flObl06_err R h)).2
  rw [Matrix.mul_one] at this
  exact this.mono (by norm_num)

/-- The angles of palPrebn. -/
theorem flPrebn_angles (R : Rounding fl) {b0 b1 : ℝ} (h0 : |b0 - 1850| ≤ 1000) (h1 : |b1 - b0| ≤ 1000) (c0 c1 c2 c3 c4 c5 : ℝ)
    (k0 : |c0| ≤ 2304) (k1 : |c1| ≤ 1.4) (k2 : |c2| ≤ 0.0004) (k3 : |c3| ≤ 1.1) (k4 : |c4| ≤ 0.0004) (k5 : |c5| ≤ 0.042) :
    |fl (fl (fl (fl c0 + fl (fl (fl c1 + fl (fl c2 * fl (fl (b0 - 1850) / 100))) * fl (fl (b0 - 1850) / 100))) +
        fl (fl (fl (fl c3 + fl (fl c4 * fl (fl (b0 - 1850) / 100))) + fl (fl c5 * fl (fl (b1 - b0) / 100))) * fl (fl (b1 - b0) / 100))) * fl (fl (fl (b1 - b0) / 100) * flDAS2R fl)) -
      (c0 + (c1 + c2 * ((b0 - 1850) / 100)) * ((b0 - 1850) / 100) + (c3 + c4 * ((b0 - 1850) / 100) + c5 * ((b1 - b0) / 100)) * ((b1 - b0) / 100)) * ((b1 - b0) / 100 * das2r)| ≤ 2e-16 := by
  have a1 := R.add_err2 1.12e-13 (noerr (b0 - 1850)) h0 (by norm_num) (by norm_num)
  have bb := (div_bd h0 (by norm_num : (0 : ℝ) < 100)).trans (by norm_num : (1000 : ℝ) / 100 ≤ 10)
  have a2 := R.add_err2 2.3e-15 (div_const a1 (by norm_num : (0 : ℝ) < 100)) bb (by norm_num) (by norm_num)
  have a3 := R.add_err2 1.12e-13 (noerr (b1 - b0)) h1 (by norm_num) (by norm_num)
  have bt := (div_bd h1 (by norm_num : (0 : ℝ) < 100)).trans (by norm_num : (1000 : ℝ) / 100 ≤ 10)
  have a4 := R.add_err2 2.3e-15 (div_const a3 (by norm_num : (0 : ℝ) < 100)) bt (by norm_num) (by norm_num)
  generalize fl (fl (b0 - 1850) / 100) = u at *
  generalize (b0 - 1850) / 100 = U at *
  generalize fl (fl (b1 - b0) / 100) = t at *
  generalize (b1 - b0) / 100 = T at *
  have f0 := R.cst c0 k0 (by norm_num) (by norm_num)
  have f1 := R.cst c1 k1 (by norm_num) (by norm_num)
  have f2 := R.cst c2 k2 (by norm_num) (by norm_num)
  have f3 := R.cst c3 k3 (by norm_num) (by norm_num)
  have f4 := R.cst c4 k4 (by norm_num) (by norm_num)
  have f5 := R.cst c5 k5 (by norm_num) (by norm_num)
  have m1 := R.mulB 2.2e-18 f2 a2 k2 bb (by norm_num) (by norm_num)
  obtain ⟨s1, d1⟩ := R.addB 3.2e-16 f1 m1 k1 (mul_bd k2 bb) (by norm_num) (by norm_num)
  have m2 := R.mulB 8.1e-15 s1 a2 d1 bb (by norm_num) (by norm_num)
  obtain ⟨s2, d2⟩ := R.addB 5.3e-13 f0 m2 k0 (mul_bd d1 bb) (by norm_num) (by norm_num)
  have m3 := R.mulB 2.2e-18 f4 a2 k4 bb (by norm_num) (by norm_num)
  obtain ⟨s3, d3⟩ := R.addB 2.5e-16 f3 m3 k3 (mul_bd k4 bb) (by norm_num) (by norm_num)
  have m4 := R.mulB 2e-16 f5 a4 k5 bt (by norm_num) (by norm_num)
  obtain ⟨s4, d4⟩ := R.addB 6.4e-16 s3 m4 d3 (mul_bd k5 bt) (by norm_num) (by norm_num)
  have m5 := R.mulB 1.2e-14 s4 a4 d4 bt (by norm_num) (by norm_num)
  obtain ⟨s5, d5⟩ := R.addB 8.1e-13 s2 m5 d2 (mul_bd d4 bt) (by norm_num) (by norm_num)
  have m6 := R.mulB 2.7e-20 a4 (flDAS2R_err R) bt das2r_bd (by norm_num) (by norm_num)
  exact R.mulB 2e-16 s5 m6 d5 (mul_bd bt das2r_bd) (by norm_num) (by norm_num)

theorem flDeuler_zyz (a b c : ℝ) : flDeuler fl L ['Z', 'Y', 'Z'] a b c = flRz fl L c (flRy fl L b (flRz fl L a eraIr)) := by
  unfold flDeuler
  rw [flDeulerLoop, if_pos (by norm_num)]
  simp only [List.getElem?_cons_zero]
  rw [if_neg (by decide), if_neg (by decide), if_pos (by decide), flDeulerLoop, if_pos (by norm_num)]
  simp only [zero_add, List.getElem?_cons_succ, List.getElem?_cons_zero]
  rw [if_neg (by decide), if_pos (by decide), flDeulerLoop, if_pos (by norm_num)]
  simp only [List.getElem?_cons_succ, List.getElem?_cons_zero]
  rw [if_neg (by decide), if_neg (by decide), if_pos (by decide), flDeulerLoop, if_neg (by norm_num)]
  simp

/-- palPrebn in double precision. -/
theorem flPrebn_small (R : Rounding fl) (hL : LibmOK L) {b0 b1 : ℝ} (h0 : |b0 - 1850| ≤ 1000) (h1 : |b1 - b0| ≤ 1000) : Small (flPrebn fl L b0 b1 - palPrebn b0 b1) 6e-15 := by
  have z := flPrebn_angles R h0 h1 2303.5548 1.39720 0.000059 0.30242 (-0.000269) 0.017996 (by norm_num [abs_of_pos]) (by norm_num [abs_of_pos]) (by norm_num [abs_of_pos]) (by norm_num [abs_of_pos]) (by norm_num [abs_of_pos]) (by norm_num [abs_of_pos])
  have y := flPrebn_angles R h0 h1 2303.5548 1.39720 0.000059 1.09478 0.000387 0.018324 (by norm_num [abs_of_pos]) (by norm_num [abs_of_pos]) (by norm_num [abs_of_pos]) (by norm_num [abs_of_pos]) (by norm_num [abs_of_pos]) (by norm_num [abs_of_pos])
  have x := flPrebn_angles R h0 h1 2005.1125 (-0.85294) (-0.000365) (-0.42647) (-0.000365) (-0.041802) (by norm_num [abs_of_pos]) (by norm_num [abs_of_pos]) (by norm_num [abs_of_pos]) (by norm_num [abs_of_pos]) (by norm_num [abs_of_pos]) (by norm_num [abs_of_pos])
  simp only [R.odd, neg_mul, ← sub_eq_add_neg] at z x
  have e1 : flPrebn fl L b0 b1 = flRz fl L (-fl (fl (fl (fl 2303.5548 + fl (fl (fl 1.39720 + fl (fl 0.000059 * fl (fl (b0 - 1850) / 100))) * fl (fl (b0 - 1850) / 100))) +
        fl (fl (fl (fl 1.09478 + fl (fl 0.000387 * fl (fl (b0 - 1850) / 100))) + fl (fl 0.018324 * fl (fl (b1 - b0) / 100))) * fl (fl (b1 - b0) / 100))) * fl (fl (fl (b1 - b0) / 100) * flDAS2R fl)))
      (flRy fl L (fl (fl (fl (fl 2005.1125 + fl (fl (-fl 0.85294 - fl (fl 0.000365 * fl (fl (b0 - 1850) / 100))) * fl (fl (b0 - 1850) / 100))) +
        fl (fl (fl (-fl 0.42647 - fl (fl 0.000365 * fl (fl (b0 - 1850) / 100))) - fl (fl 0.041802 * fl (fl (b1 - b0) / 100))) * fl (fl (b1 - b0) / 100))) * fl (fl (fl (b1 - b0) / 100) * flDAS2R fl)))
      (flRz fl L (-fl (fl (fl (fl 2303.5548 + fl (fl (fl 1.39720 + fl (fl 0.000059 * fl (fl (b0 - 1850) / 100))) * fl (fl (b0 - 1850) / 100))) +
        fl (fl (fl (fl 0.30242 - fl (fl 0.000269 * fl (fl (b0 - 1850) / 100))) + fl (fl 0.017996 * fl (fl (b1 - b0) / 100))) * fl (fl (b1 - b0) / 100))) * fl (fl (fl (b1 - b0) / 100) * flDAS2R fl))) eraIr)) := by
    unfold flPrebn
    dsimp only
    rw [flDeuler_zyz, R.odd, R.odd]
  obtain ⟨r1, s1⟩ := flRz_step R hL rot_one small_ir (by norm_num) (neg_diff z)
  obtain ⟨r2, s2⟩ := flRy_step R hL r1 s1 (by norm_num) x
  obtain ⟨r3, s3⟩ := flRz_step R hL r2 s2 (by norm_num) (neg_diff y)
  rw [e1]
  have e2 := s3.mono (by norm_num : _ ≤ (6e-15 : ℝ))
  rw [Matrix.mul_one, ← Matrix.mul_assoc] at e2
  rw [palPrebn, deuler_zyz]
  exact e2

/-! ## Directions -/

theorem flDrange_lat (R : Rounding fl) (a : ℝ) (h : |a| ≤ 3) : flDrange fl a = a := by
  have hb := D2_b
  unfold flDrange
  dsimp only
  rw [flPal2PI_eq R, flPalPI_eq R, Props.fmod_self a (by norm_num at *; linarith)]
  have := abs_le.1 h
  rw [if_neg (by norm_num at *; linarith), if_neg (by norm_num at *; linarith)]

/-- From a vector that is nearly the unit vector V to angles of nearly V. -/
theorem flAnpC2s_unit (R : Rounding fl) (hL : LibmOK L) (nz : Bool) {v V : Vec3} {e : ℝ} (hv : len (fun i => v i - V i) ≤ e) (he : e ≤ 1e-10) (hV : len V = 1) :
    let s := flC2s fl L nz v
    0 ≤ flAnp fl s.1 ∧ flAnp fl s.1 ≤ flD2PI fl ∧ |s.2| ≤ π / 2 + 4.5e-16 ∧ len (fun i => dir (flAnp fl s.1) s.2 i - V i) ≤ 2 * e + 3e-15 := by
  intro s
  have hr := abs_le.1 ((len_rev_tri v V).trans hv)
  rw [hV] at hr
  have e0 := (len_nonneg _).trans hv
  have n1 : 1 / 10 ^ 70 ≤ len v := le_trans (by norm_num : (1 : ℝ) / 10 ^ 70 ≤ 0.98) (by norm_num at *; linarith)
  have n2 : len v ≤ 1.0001 := by norm_num at *; linarith
  obtain ⟨T, P, t1, t2, t3, t4, t5⟩ := flC2s_spec R hL nz v n1 (n2.trans (by norm_num))
  have p1 := pi_lt_d4
  have hT : |(flC2s fl L nz v).1| ≤ 3.15 := (close_range t1 t3).trans (by norm_num at *; linarith)
  obtain ⟨a1, a2, k, a3⟩ := flAnp_small R _ hT
  refine ⟨a1, a2, close_range t2 t4, ?_⟩
  have c1 : len (fun i => dir (flAnp fl s.1) s.2 i - dir T P i) ≤ 9.6e-16 + 4.5e-16 + 4.5e-16 := by
    have := chord (flAnp fl s.1) s.2 (T + k * (2 * π)) P
    rw [dir_add_turn] at this
    refine this.trans ?_
    have g1 : |flAnp fl s.1 - (T + k * (2 * π))| ≤ 9.6e-16 + 4.5e-16 := by
      have := abs_sub_le (flAnp fl s.1) (s.1 + k * (2 * π)) (T + k * (2 * π))
      rw [show s.1 + k * (2 * π) - (T + k * (2 * π)) = s.1 - T by ring] at this
      linarith
    linarith
  have q1 := len_tri (dir (flAnp fl s.1) s.2) (dir T P) V
  have q2 := len_tri (dir T P) (fun i => len v * dir T P i) V
  have q3 := len_tri (fun i => len v * dir T P i) v V
  have q4 : len (fun i => dir T P i - len v * dir T P i) = |1 - len v| := by
    have : (fun i => dir T P i - len v * dir T P i) = fun i => (1 - len v) * dir T P i := by funext i; ring
    rw [this, len_smul, len_one (dot_dir _ _), mul_one]
  have q5 : |1 - len v| ≤ e := by rw [abs_sub_comm]; exact abs_le.2 hr
  have q6 : (1.05e-15 : ℝ) * len v ≤ 1.05e-15 * 1.0001 := mul_le_mul_of_nonneg_left n2 (by norm_num)
  rw [q4] at q2
  norm_num at *
  linarith

/-- A matrix that is nearly a rotation times a vector that is nearly a unit vector. -/
theorem flRxp_near (R : Rounding fl) {M Q : Mat3} {e δ : ℝ} {v V : Vec3} (hQ : IsRotation Q) (h : Small (M - Q) e) (he : e ≤ 1e-13) (hv : len (fun i => v i - V i) ≤ δ) (hδ : δ ≤ 1e-10) (hV : len V = 1) :
    len (Q *ᵥ V) = 1 ∧ len (fun i => flRxp fl M v i - (Q *ᵥ V) i) ≤ δ + 1.0001 * e + 1.4e-15 := by
  have hr := abs_le.1 ((len_rev_tri v V).trans hv)
  rw [hV] at hr
  have d0 := (len_nonneg _).trans hv
  have e0 := h.nonneg
  have n2 : len v ≤ 1.0001 := by norm_num at *; linarith
  have hM : ∀ i j, |M i j| ≤ 1.01 := fun i j => by
    have a := (h.entry i j).trans he
    rw [Matrix.sub_apply] at a
    have b := (rot_small hQ).entry i j
    have := abs_add_le (M i j - Q i j) (Q i j)
    rw [sub_add_cancel] at this
    norm_num at *; linarith
  have r := flRxp_len R M hM v (n2.trans (by norm_num))
  refine ⟨by rw [rot_len hQ, hV], ?_⟩
  have q1 := len_tri (flRxp fl M v) (M *ᵥ v) (Q *ᵥ V)
  have q2 := len_tri (M *ᵥ v) (Q *ᵥ v) (Q *ᵥ V)
  have q3 : len (fun i => (M *ᵥ v) i - (Q *ᵥ v) i) ≤ e * 1.0001 := by
    have := (h v).trans (mul_le_mul_of_nonneg_left n2 e0)
    rw [Matrix.sub_mulVec] at this
    exact this
  have q4 : len (fun i => (Q *ᵥ v) i - (Q *ᵥ V) i) ≤ δ := by
    have : (fun i => (Q *ᵥ v) i - (Q *ᵥ V) i) = Q *ᵥ (fun i => v i - V i) := by
      have := Matrix.mulVec_sub Q v V
      exact this.symm
    rw [this, rot_len hQ]
    exact hv
  have z : (1 : ℝ) / 10 ^ 198 ≤ 1e-20 := by norm_num
  generalize (1 : ℝ) / 10 ^ 198 = w at *
  have q5 : (1.37e-15 : ℝ) * len v ≤ 1.37e-15 * 1.0001 := mul_le_mul_of_nonneg_left n2 (by norm_num)
  norm_num at *
  linarith

theorem flTrxp_near (R : Rounding fl) {M Q : Mat3} {e δ : ℝ} {v V : Vec3} (hQ : IsRotation Q) (h : Small (M - Q) e) (he : e ≤ 1e-13) (hv : len (fun i => v i - V i) ≤ δ) (hδ : δ ≤ 1e-10) (hV : len V = 1) :
    len (Q.transpose *ᵥ V) = 1 ∧ len (fun i => flTrxp fl M v i - (Q.transpose *ᵥ V) i) ≤ δ + 1.0001 * e + 1.4e-15 := by
  unfold flTrxp
  rw [eraTr_eq]
  exact flRxp_near R (rot_transpose hQ) h.transp he hv hδ hV

theorem flS2c_len (R : Rounding fl) (hL : LibmOK L) {r d r' d' δ : ℝ} (h : len (fun i => dir r d i - dir r' d' i) ≤ δ) : len (fun i => flS2c fl L r d i - dir r' d' i) ≤ δ + 1.005e-15 := by
  have := len_le_of_comp (flS2c_err R hL r d)
  have q := len_tri (flS2c fl L r d) (dir r d) (dir r' d')
  norm_num at *
  linarith

end Pal
