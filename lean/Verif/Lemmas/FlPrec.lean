import Verif.Model.FlPrec
import Verif.Lemmas.FlFk4
import Verif.Lemmas.Prec06Num
import Verif.Lemmas.Prenut06
import Verif.Lemmas.FlRot
import Verif.Props.FlRot
import Verif.Props.Prebn

/-!
# Rounding errors of the precession angles and matrices
-/

namespace Pal
open Real Pal.Spec Pal.Props Matrix
variable {fl : ℝ → ℝ} {L : Libm}

/-- The polynomial in exact arithmetic. -/
noncomputable def rPoly : ℝ → List ℝ → ℝ → ℝ
  | c, [], _ => c
  | c, d :: ds, t => c + rPoly d ds t * t

/-- A bound on the polynomial for |t| ≤ 10. -/
noncomputable def polyM : ℝ → List ℝ → ℝ
  | c, [] => |c|
  | c, d :: ds => |c| + 10 * polyM d ds

/-- A bound on its rounding error, with an error of 1.1e-14 in t. -/
noncomputable def polyE : ℝ → List ℝ → ℝ
  | c, [] => 1.1103e-16 * |c| + 1e-190
  | c, d :: ds => 1.1103e-16 * (2 * |c| + 20 * polyM d ds + 1e-5 + 40 * polyE d ds) + 10.1 * polyE d ds + 1.11e-14 * polyM d ds + 1e-180

theorem polyM_nonneg : ∀ (cs : List ℝ) (c : ℝ), 0 ≤ polyM c cs
  | [], c => abs_nonneg c
  | d :: ds, c => by have := polyM_nonneg ds d; have := abs_nonneg c; rw [polyM]; linarith

theorem polyE_nonneg : ∀ (cs : List ℝ) (c : ℝ), 0 ≤ polyE c cs
  | [], c => by rw [polyE]; have := abs_nonneg c; positivity
  | d :: ds, c => by
    have := polyE_nonneg ds d
    have := polyM_nonneg ds d
    have := abs_nonneg c
    rw [polyE]
    positivity

theorem flPoly_err (R : Rounding fl) {t T : ℝ} (ht : |t - T| ≤ 1.1e-14) (hT : |T| ≤ 10) : ∀ (cs : List ℝ) (c : ℝ), polyM c cs ≤ 10 ^ 9 → polyE c cs ≤ 1e-3 →
    |flPoly fl c cs t - rPoly c cs T| ≤ polyE c cs ∧ |rPoly c cs T| ≤ polyM c cs
  | [], c, hM, hE => by
    refine ⟨?_, le_rfl⟩
    rw [flPoly, rPoly, polyE]
    have := R.err (x := c) (by rw [polyM] at hM; exact hM.trans (by norm_num))
    have z : (1 : ℝ) / 10 ^ 200 ≤ 1e-190 := by norm_num
    linarith
  | d :: ds, c, hM, hE => by
    have e0 := polyE_nonneg ds d
    have m0 := polyM_nonneg ds d
    have c0 := abs_nonneg c
    rw [polyM] at hM ⊢
    rw [polyE] at hE ⊢
    have hc := R.err (x := c) (by linarith)
    generalize hC : |c| = C at c0 hM hE hc ⊢
    obtain ⟨a, b⟩ := flPoly_err R ht hT ds d (by linarith) (by norm_num at *; linarith)
    rw [flPoly, rPoly]
    generalize flPoly fl d ds t = p at *
    generalize rPoly d ds T = P at *
    generalize polyE d ds = E at *
    generalize polyM d ds = M at *
    have z : (1 : ℝ) / 10 ^ 200 ≤ 1e-190 := by norm_num
    have hE1 : E ≤ 1e-3 := by norm_num at *; linarith
    have q := R.mulB (1.1103e-16 * (10 * M + 11 * E + 1e-6) + 10.05 * E + 1.105e-14 * M + 1e-185) a ht b hT (by norm_num at *; linarith) (by norm_num at *; linarith)
    have s := R.addB (1.1103e-16 * (2 * C + 20 * M + 1e-5 + 40 * E) + 10.1 * E + 1.11e-14 * M + 1e-180) hc q hC.le (mul_bd b hT) (by norm_num at *; linarith) (by norm_num at *; linarith)
    exact ⟨s.1, s.2.trans (by linarith)⟩

/-- An angle in arcseconds given by such a polynomial, turned into radians. -/
theorem flPolyRad_err (R : Rounding fl) {t T : ℝ} (ht : |t - T| ≤ 1.1e-14) (hT : |T| ≤ 10) (c : ℝ) (cs : List ℝ) {M E : ℝ} (hM : polyM c cs ≤ M) (hE : polyE c cs ≤ E) (hM1 : M ≤ 10 ^ 9) (hE1 : E ≤ 1e-3) :
    |fl (flPoly fl c cs t * flDAS2R fl) - rPoly c cs T * das2r| ≤ 1.0e-21 * M + 4.86e-6 * E + 5.4e-22 * M + 1e-180 := by
  obtain ⟨a, b⟩ := flPoly_err R ht hT cs c (hM.trans hM1) (hE.trans hE1)
  have m0 := (polyM_nonneg cs c).trans hM
  have e0 := (polyE_nonneg cs c).trans hE
  exact R.mulB _ (a.trans hE) (flDAS2R_err R) (b.trans hM) das2r_bd (by norm_num at *; linarith) (by norm_num at *; linarith)

/-- The Fukushima-Williams angles in double precision. -/
theorem flPfw06_err (R : Rounding fl) {d1 d2 D1 D2 : ℝ} (ht : |flCent06 fl d1 d2 - cent06 D1 D2| ≤ 1.1e-14) (hT : |cent06 D1 D2| ≤ 10) :
    let p := flPfw06 fl d1 d2
    let q := eraPfw06 D1 D2
    |p.gamb - q.gamb| ≤ 4e-18 ∧ |p.phib - q.phib| ≤ 2.4e-16 ∧ |p.psib - q.psib| ≤ 5e-16 ∧ |p.epsa - q.epsa| ≤ 2.4e-16 := by
  dsimp only [flPfw06, eraPfw06]
  refine ⟨?_, ?_, ?_, ?_⟩
  · exact (flPolyRad_err R ht hT (-0.052928) [10.556378, 0.4932044, -0.00031238, -0.000002788, 0.0000000260] (M := 156) (E := 3.5e-13) (by norm_num [polyM, abs_of_pos]) (by norm_num [polyM, polyE, abs_of_pos]) (by norm_num) (by norm_num)).trans (by norm_num)
  · exact (flPolyRad_err R ht hT 84381.412819 [-46.811016, 0.0511268, 0.00053289, -0.000000440, -0.0000000176] (M := 84860) (E := 2.1e-11) (by norm_num [polyM, abs_of_pos]) (by norm_num [polyM, polyE, abs_of_pos]) (by norm_num) (by norm_num)).trans (by norm_num)
  · exact (flPolyRad_err R ht hT (-0.041775) [5038.481484, 1.5584175, -0.00018522, -0.000026452, -0.0000000148] (M := 50550) (E := 8.4e-11) (by norm_num [polyM, abs_of_pos]) (by norm_num [polyM, polyE, abs_of_pos]) (by norm_num) (by norm_num)).trans (by norm_num)
  · exact (flPolyRad_err R ht hT 84381.406 [-46.836769, -0.0001831, 0.00200340, -0.000000576, -0.0000000434] (M := 84860) (E := 2.1e-11) (by norm_num [polyM, abs_of_pos]) (by norm_num [polyM, polyE, abs_of_pos]) (by norm_num) (by norm_num)).trans (by norm_num)

/-! ## Matrices -/

theorem small_axisY (a : ℝ) : Small (axisY a - 1) |a| := by
  intro x
  have hl := len_sq x
  rw [dot_eq] at hl
  have hc := Real.one_sub_sq_div_two_le_cos (x := a)
  have hs := sin_sq_add_cos_sq a
  refine (Real.sqrt_le_iff.2 ⟨mul_nonneg (abs_nonneg a) (len_nonneg x), ?_⟩)
  rw [mul_pow, sq_abs, pow_two (len x), hl]
  have e : (∑ i, ((axisY a - 1) *ᵥ x) i ^ 2) = (2 - 2 * cos a) * (x 0 ^ 2 + x 2 ^ 2) := by
    simp [Fin.sum_univ_three, axisY, Matrix.mulVec, dotProduct]
    linear_combination (x 0 ^ 2 + x 2 ^ 2) * hs
  rw [e]
  nlinarith [sq_nonneg (x 0), sq_nonneg (x 1), sq_nonneg (x 2), sq_nonneg a, mul_nonneg (sq_nonneg a) (sq_nonneg (x 1)),
    mul_nonneg (sub_nonneg.2 hc) (add_nonneg (sq_nonneg (x 0)) (sq_nonneg (x 2)))]

theorem axisY_add (s t : ℝ) : axisY s * axisY t = axisY (s + t) := by
  ext i j; fin_cases i <;> fin_cases j <;> simp [axisY, Matrix.mul_apply, Fin.sum_univ_three, sin_add, cos_add] <;> ring

theorem axisY_diff (a b : ℝ) : Small (axisY a - axisY b) |a - b| := by
  have e : axisY a - axisY b = (axisY (a - b) - 1) * axisY b := by rw [sub_mul, axisY_add, one_mul, sub_add_cancel]
  rw [e]; exact (small_axisY _).rmul (rot_axisY b)

/-- A rotation with a rounded angle, after others. -/
theorem step_ang (R : Rounding fl) (hL : LibmOK L) {M M' Q A A' : Mat3} {e δ : ℝ} (hA : IsRotation A) (hQ : IsRotation Q) (h : Small (M - Q) e) (hs : ∀ i j, |M' i j - (A * M) i j| ≤ 6e-16)
    (hd : Small (A - A') δ) : Small (M' - A' * Q) (e + 1.8e-15 + δ) := by
  have h1 := step_small R hL hA h hs
  have e1 : M' - A' * Q = (M' - A * Q) + (A - A') * Q := by noncomm_ring
  rw [e1]
  exact h1.add (hd.rmul hQ)

theorem neg_diff {a b e : ℝ} (h : |a - b| ≤ e) : |-a - -b| ≤ e := by rw [show -a - -b = -(a - b) by ring, abs_neg]; exact h

theorem flRz_step (R : Rounding fl) (hL : LibmOK L) {M Q : Mat3} {e δ a A : ℝ} (hQ : IsRotation Q) (h : Small (M - Q) e) (he : e ≤ 1e-13) (ha : |a - A| ≤ δ) :
    IsRotation (axisZ A * Q) ∧ Small (flRz fl L a M - axisZ A * Q) (e + 1.8e-15 + δ) :=
  ⟨rot_mul (rot_axisZ A) hQ, step_ang R hL (rot_axisZ a) hQ h (flRz_err R hL a M (near_col hQ h he)) ((axisZ_diff a A).mono ha)⟩
theorem flRy_step (R : Rounding fl) (hL : LibmOK L) {M Q : Mat3} {e δ a A : ℝ} (hQ : IsRotation Q) (h : Small (M - Q) e) (he : e ≤ 1e-13) (ha : |a - A| ≤ δ) :
    IsRotation (axisY A * Q) ∧ Small (flRy fl L a M - axisY A * Q) (e + 1.8e-15 + δ) :=
  ⟨rot_mul (rot_axisY A) hQ, step_ang R hL (rot_axisY a) hQ h (flRy_err R hL a M (near_col hQ h he)) ((axisY_diff a A).mono ha)⟩
theorem flRx_step (R : Rounding fl) (hL : LibmOK L) {M Q : Mat3} {e δ a A : ℝ} (hQ : IsRotation Q) (h : Small (M - Q) e) (he : e ≤ 1e-13) (ha : |a - A| ≤ δ) :
    IsRotation (axisX A * Q) ∧ Small (flRx fl L a M - axisX A * Q) (e + 1.8e-15 + δ) :=
  ⟨rot_mul (rot_axisX A) hQ, step_ang R hL (rot_axisX a) hQ h (flRx_err R hL a M (near_col hQ h he)) ((axisX_diff a A).mono ha)⟩

theorem small_ir : Small (eraIr - 1) 0 := by rw [eraIr_eq, sub_self]; intro x; simp [len]

/-- The precession matrix in double precision. -/
theorem flPmat06_small (R : Rounding fl) (hL : LibmOK L) {d1 d2 D1 D2 : ℝ} (ht : |flCent06 fl d1 d2 - cent06 D1 D2| ≤ 1.1e-14) (hT : |cent06 D1 D2| ≤ 10) :
    Small (flPmat06 fl L d1 d2 - eraPmat06 D1 D2) 8.2e-15 := by
  obtain ⟨g, f, p, e⟩ := flPfw06_err R ht hT
  obtain ⟨r1, s1⟩ := flRz_step R hL rot_one small_ir (by norm_num) g
  obtain ⟨r2, s2⟩ := flRx_step R hL r1 s1 (by norm_num) f
  obtain ⟨r3, s3⟩ := flRz_step R hL r2 s2 (by norm_num) (neg_diff p)
  obtain ⟨r4, s4⟩ := flRx_step R hL r3 s3 (by norm_num) (neg_diff e)
  have e1 : eraPmat06 D1 D2 = axisX (-(eraPfw06 D1 D2).epsa) * (axisZ (-(eraPfw06 D1 D2).psib) * (axisX (eraPfw06 D1 D2).phib * (axisZ (eraPfw06 D1 D2).gamb * 1))) := by
    rw [eraPmat06, fw2m_eq, Matrix.mul_one]; simp only [Matrix.mul_assoc]
  rw [e1]
  exact s4.mono (by norm_num)

/-- A product of two matrices that are nearly rotations, rounded. -/
theorem flRxr_small (R : Rounding fl) {A B P Q : Mat3} {e f : ℝ} (hP : IsRotation P) (hQ : IsRotation Q) (h : Small (A - P) e) (h' : Small (B - Q) f) (he : e ≤ 1e-13) (hf : f ≤ 1e-13) :
    Small (flRxr fl A B - P * Q) (e + f + 1.4e-15) := by
  have row : ∀ i, A i 0 ^ 2 + A i 1 ^ 2 + A i 2 ^ 2 ≤ 1.0001 := by
    intro i
    have h1 := congrFun (congrFun hP.1 i) i
    rw [Matrix.mul_apply, Fin.sum_univ_three] at h1
    simp only [Matrix.transpose_apply, Matrix.one_apply_eq] at h1
    have q : ∀ k, A i k ^ 2 ≤ P i k ^ 2 + 3e-13 := fun k => by
      have a := (h.entry i k).trans he
      rw [Matrix.sub_apply] at a
      have b : |P i k| ≤ 1 := by
        refine abs_le_of_sq_le_sq ?_ zero_le_one
        fin_cases k <;> simp only [Fin.zero_eta, Fin.mk_one, Fin.reduceFinMk] <;> nlinarith [mul_self_nonneg (P i 0), mul_self_nonneg (P i 1), mul_self_nonneg (P i 2)]
      have c := (le_abs_self _).trans (mul_bd a (((abs_add_le _ _).trans (add_le_add a (b.trans' (le_of_eq rfl)))).trans le_rfl : |(A i k - P i k) + P i k| ≤ 1e-13 + 1))
      have d := (le_abs_self _).trans (mul_bd a b)
      norm_num at c d ⊢
      nlinarith
    have q0 := q 0; have q1 := q 1; have q2 := q 2
    norm_num at *
    nlinarith
  have col : ∀ j, B 0 j ^ 2 + B 1 j ^ 2 + B 2 j ^ 2 ≤ 1.0001 := by
    intro j
    have h1 := congrFun (congrFun (rot_trans_mul hQ) j) j
    rw [Matrix.mul_apply, Fin.sum_univ_three] at h1
    simp only [Matrix.transpose_apply, Matrix.one_apply_eq] at h1
    have q : ∀ k, B k j ^ 2 ≤ Q k j ^ 2 + 3e-13 := fun k => by
      have a := (h'.entry k j).trans hf
      rw [Matrix.sub_apply] at a
      have b : |Q k j| ≤ 1 := by
        refine abs_le_of_sq_le_sq ?_ zero_le_one
        fin_cases k <;> simp only [Fin.zero_eta, Fin.mk_one, Fin.reduceFinMk] <;> nlinarith [mul_self_nonneg (Q 0 j), mul_self_nonneg (Q 1 j), mul_self_nonneg (Q 2 j)]
      have c := (le_abs_self _).trans (mul_bd a (((abs_add_le _ _).trans (add_le_add a (b.trans' (le_of_eq rfl)))).trans le_rfl : |(B k j - Q k j) + Q k j| ≤ 1e-13 + 1))
      have d := (le_abs_self _).trans (mul_bd a b)
      norm_num at c d ⊢
      nlinarith
    have q0 := q 0; have q1 := q 1; have q2 := q 2
    norm_num at *
    nlinarith
  have ent : ∀ i j, |(flRxr fl A B - A * B) i j| ≤ 4.52e-16 := by
    intro i j
    rw [Matrix.sub_apply, Matrix.mul_apply, Fin.sum_univ_three]
    have r := row i; have c := col j
    have m : |A i 0 * B 0 j| + |A i 1 * B 1 j| + |A i 2 * B 2 j| ≤ 1.0001 := by
      have g : ∀ x y : ℝ, |x * y| ≤ (x ^ 2 + y ^ 2) / 2 := fun x y => by
        rw [abs_le]; constructor <;> nlinarith [sq_nonneg (x + y), sq_nonneg (x - y)]
      have := g (A i 0) (B 0 j); have := g (A i 1) (B 1 j); have := g (A i 2) (B 2 j)
      norm_num at *
      linarith
    have h := fl_dot3 R (A i 0 * B 0 j) (A i 1 * B 1 j) (A i 2 * B 2 j) (m.trans (by norm_num))
    have t := tinyT_le
    refine h.trans ?_
    norm_num at *
    linarith
  have s1 := small_of_entries ent
  have s2 := Small.prod hP hQ (A' := A) (B' := B) (e := e) (f := f) (by rw [← neg_sub]; exact h.neg) (by rw [← neg_sub]; exact h'.neg)
  have f0 := h'.nonneg
  have e0 := h.nonneg
  have e1 : flRxr fl A B - P * Q = (flRxr fl A B - A * B) + -(P * Q - A * B) := by noncomm_ring
  rw [e1]
  refine (s1.add s2.neg).mono ?_
  have : e * f ≤ 1e-13 * 1e-13 := mul_le_mul he hf f0 (by norm_num)
  norm_num at *
  linarith

/-! ## Epochs -/

theorem fl_mjd0 (R : Rounding fl) : fl (2400000.5 - 2451545) = -51544.5 := by
  have h := R.keep (-103089) (-1) (by norm_num) (by norm_num) (le_trans (by norm_num : _ ≤ (2 : ℝ) ^ 20) (pow_le_pow_right₀ (by norm_num) (by norm_num)))
  have e : (2400000.5 - 2451545 : ℝ) = ((-103089 : ℤ) : ℝ) * 2 ^ (-1 : ℤ) := by norm_num
  rw [e, h]
  norm_num

theorem div_const {x X δ c : ℝ} (h : |x - X| ≤ δ) (hc : 0 < c) : |x / c - X / c| ≤ δ / c := by
  rw [← sub_div, abs_div, abs_of_pos hc]; exact div_le_div_of_nonneg_right h hc.le

theorem div_bd {X B c : ℝ} (h : |X| ≤ B) (hc : 0 < c) : |X / c| ≤ B / c := by
  rw [abs_div, abs_of_pos hc]; exact div_le_div_of_nonneg_right h hc.le

/-- Centuries from an epoch in years. -/
theorem flCent_ep (R : Rounding fl) {e E : ℝ} (he : |e - E| ≤ 5.6e-13) (hE : |E - 2000| ≤ 1000) :
    |flCent06 fl 2451545 (fl (fl (e - 2000) * 365.25)) - cent06 2451545 ((E - 2000) * 365.25)| ≤ 1.1e-14 ∧ |cent06 2451545 ((E - 2000) * 365.25)| ≤ 10 := by
  have a1 := R.add_err2 (δ := 5.6e-13) (B := 1000) 6.72e-13 (x := e - 2000) (X := E - 2000) (by rw [sub_sub_sub_cancel_right]; exact he) hE (by norm_num) (by norm_num)
  have a2 := R.mulB 2.87e-10 a1 (noerr (365.25 : ℝ)) hE (by norm_num : |(365.25 : ℝ)| ≤ 365.25) (by norm_num) (by norm_num)
  have b2 : |(E - 2000) * 365.25| ≤ 365250 := (mul_bd hE (by norm_num : |(365.25 : ℝ)| ≤ 365.25)).trans (by norm_num)
  have a3 := R.add_err2 3.28e-10 a2 b2 (by norm_num) (by norm_num)
  have a4 := R.add_err2 1.02e-14 (div_const a3 (by norm_num : (0 : ℝ) < 36525)) (div_bd b2 (by norm_num : (0 : ℝ) < 36525)) (by norm_num) (by norm_num)
  unfold flCent06 cent06
  rw [sub_self, R.zero, zero_add, zero_add]
  exact ⟨a4.trans (by norm_num), (div_bd b2 (by norm_num : (0 : ℝ) < 36525)).trans (by norm_num)⟩

/-- Centuries from a date. -/
theorem flCent_mjd (R : Rounding fl) {d : ℝ} (h : |d - 51544.5| ≤ 365250) : |flCent06 fl 2400000.5 d - cent06 2400000.5 d| ≤ 1.1e-14 ∧ |cent06 2400000.5 d| ≤ 10 := by
  have h' : |(-51544.5 : ℝ) + d| ≤ 365250 := by rw [add_comm, ← sub_eq_add_neg]; exact h
  have a3 := R.add_err2 4.1e-11 (noerr (-51544.5 + d)) h' (by norm_num) (by norm_num)
  have a4 := R.add_err2 2.4e-15 (div_const a3 (by norm_num : (0 : ℝ) < 36525)) (div_bd h' (by norm_num : (0 : ℝ) < 36525)) (by norm_num) (by norm_num)
  unfold flCent06 cent06
  rw [fl_mjd0 R, show (2400000.5 - 2451545 : ℝ) = -51544.5 by norm_num]
  exact ⟨a4.trans (by norm_num), (div_bd h' (by norm_num : (0 : ℝ) < 36525)).trans (by norm_num)⟩

theorem flEpj_near (R : Rounding fl) {d : ℝ} (h : |d - 51544.5| ≤ 365250) : |flEpj fl d - palEpjR d| ≤ 5.6e-13 ∧ |palEpjR d - 2000| ≤ 1000 := by
  have h' : |(-51544.5 : ℝ) + d| ≤ 365250 := by rw [add_comm, ← sub_eq_add_neg]; exact h
  have a3 := R.add_err2 4.06e-11 (noerr (-51544.5 + d)) h' (by norm_num) (by norm_num)
  have b := (div_bd h' (by norm_num : (0 : ℝ) < 365.25)).trans (by norm_num : (365250 : ℝ) / 365.25 ≤ 1000)
  have a4 := R.add_err2 2.23e-13 (div_const a3 (by norm_num : (0 : ℝ) < 365.25)) b (by norm_num) (by norm_num)
  unfold flEpj palEpjR rMJD0
  rw [fl_mjd0 R, show (2400000.5 - 2451545 : ℝ) = -51544.5 by norm_num, add_sub_cancel_left]
  refine ⟨?_, b⟩
  exact (R.addB _ (noerr 2000) a4 (by norm_num : |(2000 : ℝ)| ≤ 2000) b (by norm_num) (by norm_num)).1

end Pal
