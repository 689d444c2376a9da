import Mathlib.Analysis.Quaternion
import Verif.Props.Galactic

/-!
# Property C43: Bessel-Newcomb precession there and back, and as a turn about the ecliptic pole
-/

namespace Pal.Props
open Pal Pal.Spec Real Matrix

theorem axisZ_transpose (t : ℝ) : (axisZ t).transpose = axisZ (-t) := by
  ext i j; fin_cases i <;> fin_cases j <;> simp [axisZ]

theorem axisY_transpose (t : ℝ) : (axisY t).transpose = axisY (-t) := by
  ext i j; fin_cases i <;> fin_cases j <;> simp [axisY]

/-- **C43** (there and back) palPrebn from the second epoch to the first is exactly the inverse of palPrebn from the first to the second, for any two epochs: the published polynomials fit together. -/
theorem C43_prebn_inverse (a b : ℝ) : palPrebn b a = (palPrebn a b)ᵀ ∧ palPrebn b a * palPrebn a b = 1 := by
  have h : palPrebn b a = (palPrebn a b)ᵀ := by
    unfold palPrebn
    dsimp only
    rw [deuler_zyz, deuler_zyz, transpose_mul, transpose_mul, axisZ_transpose, axisZ_transpose, axisY_transpose, ← Matrix.mul_assoc]
    congr 3 <;> ring
  exact ⟨h, by rw [h]; exact rot_trans_mul (deuler_rot _ _ _ _)⟩

/-! ## As a turn about the pole of the ecliptic -/

/-- Rotation matrix of the quaternion `c - B j + A k`. -/
def quatMat (c B A : ℝ) : Mat3 :=
  !![c ^ 2 - A ^ 2 - B ^ 2, -(2 * c * A), -(2 * c * B); 2 * c * A, c ^ 2 - A ^ 2 + B ^ 2, -(2 * A * B); 2 * c * B, -(2 * A * B), c ^ 2 + A ^ 2 - B ^ 2]

/-- A vector as a quaternion. -/
def emb (x : Vec3) : Quaternion ℝ := ⟨0, x 0, x 1, x 2⟩

/-- The quaternion `c - B j + A k`. -/
def qq (c B A : ℝ) : Quaternion ℝ := ⟨c, 0, -B, A⟩

theorem emb_norm (x : Vec3) : ‖emb x‖ = len x := by
  have h : ‖emb x‖ * ‖emb x‖ = len x ^ 2 := by
    rw [← Quaternion.normSq_eq_norm_mul_self, Quaternion.normSq_def', len, Real.sq_sqrt (by positivity), Fin.sum_univ_three]
    simp [emb]
  rw [← sq] at h
  exact (sq_eq_sq₀ (norm_nonneg _) (len_nonneg _)).1 h

theorem quat_rot (c B A : ℝ) (x : Vec3) : qq c B A * emb x * star (qq c B A) = emb (quatMat c B A *ᵥ x) := by
  ext <;> simp only [Quaternion.re_mul, Quaternion.imI_mul, Quaternion.imJ_mul, Quaternion.imK_mul, Quaternion.re_star, Quaternion.imI_star, Quaternion.imJ_star, Quaternion.imK_star] <;>
    simp [emb, qq, quatMat, Matrix.mulVec, dotProduct, Fin.sum_univ_three] <;> ring

theorem quat_norm (c B A : ℝ) (h : c ^ 2 + B ^ 2 + A ^ 2 = 1) : ‖qq c B A‖ = 1 := by
  have h1 : ‖qq c B A‖ * ‖qq c B A‖ = 1 := by
    rw [← Quaternion.normSq_eq_norm_mul_self, Quaternion.normSq_def']
    simp only [qq]
    linarith
  nlinarith [norm_nonneg (qq c B A)]

theorem qq_sub (c B A c' B' A' : ℝ) : qq c B A - qq c' B' A' = qq (c - c') (B - B') (A - A') := by
  ext <;> simp only [Quaternion.re_sub, Quaternion.imI_sub, Quaternion.imJ_sub, Quaternion.imK_sub] <;> simp [qq] <;> ring

/-- Rotations of nearby unit quaternions. -/
theorem quat_near {c B A c' B' A' d : ℝ} (h : c ^ 2 + B ^ 2 + A ^ 2 = 1) (h' : c' ^ 2 + B' ^ 2 + A' ^ 2 = 1) (hd0 : 0 ≤ d) (hd : (c - c') ^ 2 + (B - B') ^ 2 + (A - A') ^ 2 ≤ d ^ 2) :
    Small (quatMat c B A - quatMat c' B' A') (2 * d) := by
  intro x
  have e1 : emb ((quatMat c B A - quatMat c' B' A') *ᵥ x) = emb (quatMat c B A *ᵥ x) - emb (quatMat c' B' A' *ᵥ x) := by
    rw [sub_mulVec]
    ext <;> simp only [Quaternion.re_sub, Quaternion.imI_sub, Quaternion.imJ_sub, Quaternion.imK_sub] <;> simp [emb]
  rw [← emb_norm, e1, ← quat_rot, ← quat_rot]
  have n1 := quat_norm c B A h
  have n2 := quat_norm c' B' A' h'
  have n3 : ‖qq c B A - qq c' B' A'‖ ≤ d := by
    have h1 : ‖qq c B A - qq c' B' A'‖ * ‖qq c B A - qq c' B' A'‖ ≤ d ^ 2 := by
      rw [← Quaternion.normSq_eq_norm_mul_self, Quaternion.normSq_def', qq_sub]
      simp only [qq]
      linarith
    exact (abs_le_of_sq_le_sq' (by nlinarith) hd0).2
  generalize qq c B A = q at *
  generalize qq c' B' A' = q' at *
  have e2 : q * emb x * star q - q' * emb x * star q' = (q - q') * emb x * star q + q' * emb x * star (q - q') := by
    rw [star_sub]; noncomm_ring
  rw [e2]
  refine (norm_add_le _ _).trans ?_
  rw [norm_mul, norm_mul, norm_mul, norm_mul, norm_star, norm_star, n1, n2, emb_norm]
  have := len_nonneg x
  nlinarith

theorem deg_23_45 : |sin (23.45 * (π / 180)) - 0.3979486313076| ≤ 5e-13 ∧ |cos (23.45 * (π / 180)) - 0.9174076993575| ≤ 5e-13 :=
  trig_near12 (a0 := 0.40927970959267028) (by norm_num) (deg_near _ _ (by norm_num) (by norm_num) (by norm_num)) (by norm_num) (by norm_num) (by norm_num) (by norm_num)

theorem sin_cubic (x : ℝ) : |sin x - x| ≤ |x| ^ 3 / 6 := by
  have h : ∀ y : ℝ, 0 ≤ y → |sin y - y| ≤ y ^ 3 / 6 := by
    intro y hy
    rw [abs_le]
    constructor
    · linarith [sin_ge_sub_cube hy]
    · have := Real.sin_le hy
      have : 0 ≤ y ^ 3 := by positivity
      linarith
  rcases le_total 0 x with hx | hx
  · rw [abs_of_nonneg hx]; exact h x hx
  · have := h (-x) (by linarith)
    rw [sin_neg] at this
    rw [abs_of_nonpos hx, ← abs_neg]
    convert this using 2
    ring

/-- The middle part of canonical precession as a quaternion. -/
theorem zyz_quat (m h : ℝ) : axisZ (-m) * axisY (2 * h) * axisZ (-m) = quatMat (cos h * cos m) (sin h) (cos h * sin m) := by
  have e1 := sin_sq_add_cos_sq h
  have e2 := sin_sq_add_cos_sq m
  ext i j
  fin_cases i <;> fin_cases j <;> simp [axisZ, axisY, quatMat, Matrix.mul_apply, Fin.sum_univ_three, sin_two_mul, cos_two_mul] <;> grind

theorem ecl_quat (e p : ℝ) : eclTurn e (2 * p) = quatMat (cos p) (sin p * sin e) (sin p * cos e) := by
  have e1 := sin_sq_add_cos_sq e
  have e2 := sin_sq_add_cos_sq p
  unfold eclTurn
  ext i j
  fin_cases i <;> fin_cases j <;> simp [axisZ, axisX, quatMat, Matrix.mul_apply, Fin.sum_univ_three, sin_two_mul, cos_two_mul] <;> grind

set_option maxHeartbeats 2000000 in
/-- The numbers behind `C43_prebn_ecliptic`. -/
theorem prebn_quat {x mu et se ce m h p : ℝ} (hx : |x| ≤ 7.28e-6) (hm : m = mu * x) (hh : h = et * x) (hp : p = 2513 * x)
    (m1 : 2303.5 ≤ mu) (m2 : mu ≤ 2305.8) (e1 : 1001.5 ≤ et) (e2 : et ≤ 1002.6) (s1 : 0.39794 ≤ se) (s2 : se ≤ 0.39795) (c1 : 0.9174 ≤ ce) (c2 : ce ≤ 0.91741) (hm' : |mu - 2513 * ce| ≤ 1.95)
    (hh' : |et - 2513 * se| ≤ 2.53) (hsc : se ^ 2 + ce ^ 2 = 1) :
    (cos h * cos m - cos p) ^ 2 + (sin h - sin p * se) ^ 2 + (cos h * sin m - sin p * ce) ^ 2 ≤ (3.45 * |x|) ^ 2 := by
  set X := |x| with hX
  have X0 : 0 ≤ X := abs_nonneg x
  have X2 : X ^ 2 ≤ 5.3e-11 := by nlinarith
  have X3 : X ^ 3 ≤ 5.3e-11 * X := by nlinarith [mul_nonneg X0 (sub_nonneg.2 X2)]
  have am : |m| ≤ 2305.8 * X := by rw [hm, abs_mul, abs_of_nonneg (by linarith)]; exact mul_le_mul_of_nonneg_right m2 X0
  have ah : |h| ≤ 1002.6 * X := by rw [hh, abs_mul, abs_of_nonneg (by linarith)]; exact mul_le_mul_of_nonneg_right e2 X0
  have ap : |p| = 2513 * X := by rw [hp, abs_mul, abs_of_nonneg (by norm_num)]
  have sm := sin_cubic m
  have sh := sin_cubic h
  have sp := sin_cubic p
  have m3 : |m| ^ 3 / 6 ≤ 0.1084 * X := by
    have : |m| ^ 3 ≤ (2305.8 * X) ^ 3 := pow_le_pow_left₀ (abs_nonneg m) am 3
    nlinarith
  have h3 : |h| ^ 3 / 6 ≤ 0.009 * X := by
    have : |h| ^ 3 ≤ (1002.6 * X) ^ 3 := pow_le_pow_left₀ (abs_nonneg h) ah 3
    nlinarith
  have p3 : |p| ^ 3 / 6 ≤ 0.1402 * X := by
    rw [ap]
    nlinarith
  have ch : |cos h - 1| ≤ 0.00002665 := by
    rw [abs_le]
    have a1 := Real.one_sub_sq_div_two_le_cos (x := h)
    have a2 := Real.cos_le_one h
    have : h ^ 2 ≤ (1002.6 * X) ^ 2 := by rw [← sq_abs]; exact pow_le_pow_left₀ (abs_nonneg h) ah 2
    constructor <;> nlinarith
  have lm : |m - p * ce| ≤ 1.95 * X := by
    rw [hm, hp, show mu * x - 2513 * x * ce = (mu - 2513 * ce) * x by ring, abs_mul]
    exact mul_le_mul_of_nonneg_right hm' X0
  have lh : |h - p * se| ≤ 2.53 * X := by
    rw [hh, hp, show et * x - 2513 * x * se = (et - 2513 * se) * x by ring, abs_mul]
    exact mul_le_mul_of_nonneg_right hh' X0
  have sml : |sin m| ≤ 2305.8 * X := (Real.abs_sin_le_abs).trans am
  have dA : |cos h * sin m - sin p * ce| ≤ 2.25 * X := by
    rw [show cos h * sin m - sin p * ce = (cos h - 1) * sin m + (sin m - m) + (m - p * ce) - (sin p - p) * ce by ring]
    have b1 : |(cos h - 1) * sin m| ≤ 0.0615 * X := by
      rw [abs_mul]
      have := mul_le_mul ch sml (abs_nonneg _) (by norm_num)
      linarith
    have b2 : |(sin p - p) * ce| ≤ 0.129 * X := by
      rw [abs_mul, abs_of_nonneg (a := ce) (by linarith)]
      have := mul_le_mul (sp.trans p3) c2 (by linarith) (by positivity)
      linarith
    have t1 := abs_sub ((cos h - 1) * sin m + (sin m - m) + (m - p * ce)) ((sin p - p) * ce)
    have t2 := abs_add_le ((cos h - 1) * sin m + (sin m - m)) (m - p * ce)
    have t3 := abs_add_le ((cos h - 1) * sin m) (sin m - m)
    linarith
  have dB : |sin h - sin p * se| ≤ 2.6 * X := by
    rw [show sin h - sin p * se = (sin h - h) + (h - p * se) - (sin p - p) * se by ring]
    have b2 : |(sin p - p) * se| ≤ 0.056 * X := by
      rw [abs_mul, abs_of_nonneg (a := se) (by linarith)]
      have := mul_le_mul (sp.trans p3) s2 (by linarith) (by positivity)
      linarith
    have t1 := abs_sub ((sin h - h) + (h - p * se)) ((sin p - p) * se)
    have t2 := abs_add_le (sin h - h) (h - p * se)
    linarith
  have spl : |sin p| ≤ 2513 * X := (Real.abs_sin_le_abs).trans ap.le
  have shl : |sin h| ≤ 1002.6 * X := (Real.abs_sin_le_abs).trans ah
  have cm : 0.999 ≤ cos m := by
    have a1 := Real.one_sub_sq_div_two_le_cos (x := m)
    have : m ^ 2 ≤ (2305.8 * X) ^ 2 := by rw [← sq_abs]; exact pow_le_pow_left₀ (abs_nonneg m) am 2
    nlinarith
  have cp : 0.999 ≤ cos p := by
    have a1 := Real.one_sub_sq_div_two_le_cos (x := p)
    have : p ^ 2 = (2513 * X) ^ 2 := by rw [← sq_abs, ap]
    nlinarith
  have cc : 1.99 ≤ cos h * cos m + cos p := by
    have := (abs_le.1 ch).1
    nlinarith [Real.cos_le_one m]
  have dc : |cos h * cos m - cos p| ≤ 0.1 * X := by
    have key : (cos h * cos m - cos p) * (cos h * cos m + cos p) = -((cos h * sin m - sin p * ce) * (cos h * sin m + sin p * ce) + (sin h - sin p * se) * (sin h + sin p * se)) := by
      linear_combination (cos h ^ 2) * sin_sq_add_cos_sq m + sin_sq_add_cos_sq h - sin_sq_add_cos_sq p - (sin p ^ 2) * hsc
    have k2 : |cos h * cos m - cos p| * |cos h * cos m + cos p| ≤ 2.25 * X * 0.036 + 2.6 * X * 0.0258 := by
      rw [← abs_mul, key, abs_neg]
      refine (abs_add_le _ _).trans (add_le_add ?_ ?_) <;> rw [abs_mul]
      · refine mul_le_mul dA ?_ (abs_nonneg _) (by positivity)
        refine (abs_add_le _ _).trans ?_
        rw [abs_mul, abs_mul, abs_of_nonneg (a := ce) (by linarith)]
        have := Real.abs_cos_le_one h
        nlinarith [abs_nonneg (sin m), abs_nonneg (sin p)]
      · refine mul_le_mul dB ?_ (abs_nonneg _) (by positivity)
        refine (abs_add_le _ _).trans ?_
        rw [abs_mul, abs_of_nonneg (a := se) (by linarith)]
        nlinarith [abs_nonneg (sin m), abs_nonneg (sin p)]
    rw [abs_of_nonneg (a := cos h * cos m + cos p) (by linarith)] at k2
    nlinarith [abs_nonneg (cos h * cos m - cos p)]
  have z1 := pow_le_pow_left₀ (abs_nonneg _) dA 2
  have z2 := pow_le_pow_left₀ (abs_nonneg _) dB 2
  have z3 := pow_le_pow_left₀ (abs_nonneg _) dc 2
  rw [sq_abs] at z1 z2 z3
  nlinarith [sq_nonneg X]

set_option maxHeartbeats 2000000 in
/-- **C43** (general precession) Between any two Besselian epochs from B1850 to B2000, palPrebn turns the sky about the pole of the ecliptic (obliquity 23.45 degrees), eastwards along it by 50.26 seconds
of arc a year, to within 7 seconds of arc per century of interval: whatever the starting vector, the two results differ by no more than that fraction of its length. -/
theorem C43_prebn_ecliptic (b0 b1 : ℝ) (h0 : 1850 ≤ b0 ∧ b0 ≤ 2000) (h1 : 1850 ≤ b1 ∧ b1 ≤ 2000) (x : Vec3) :
    len (palPrebn b0 b1 *ᵥ x - (axisX (-deg 23.45) * axisZ (-(50.26 * (b1 - b0) * Spec.arcsec)) * axisX (deg 23.45)) *ᵥ x) ≤ 7 * (|b1 - b0| / 100) * Spec.arcsec * len x := by
  obtain ⟨s1, c1⟩ := deg_23_45
  rw [abs_le] at s1 c1
  rw [← sub_mulVec]
  revert x
  change Small _ _
  rw [C43_prebn_angles]
  change Small (_ - eclTurn (deg 23.45) (50.26 * (b1 - b0) * Spec.arcsec)) _
  have har : Spec.arcsec = π / 648000 := by unfold Spec.arcsec; ring
  rw [har]
  set k := π / 648000 with hk
  have k0 : 0 < k := by positivity
  have k1 : k ≤ 4.8482e-6 := by rw [hk]; linarith [Real.pi_lt_d6]
  set T := (b0 - 1850) / 100 with hT
  set t := (b1 - b0) / 100 with ht
  have T0 : 0 ≤ T ∧ T ≤ 1.5 := ⟨by rw [hT]; linarith, by rw [hT]; linarith⟩
  have T1 : 0 ≤ T + t ∧ T + t ≤ 1.5 := ⟨by rw [hT, ht]; linarith, by rw [hT, ht]; linarith⟩
  have at1 : |t| ≤ 1.5 := abs_le.2 ⟨by linarith, by linarith⟩
  have ea : |b1 - b0| / 100 = |t| := by rw [ht, abs_div, abs_of_pos (a := (100 : ℝ)) (by norm_num)]
  have ep : 50.26 * (b1 - b0) * k = 2 * (2513 * (t * k)) := by rw [ht]; ring
  rw [ea, ep]
  have hX : |t * k| = |t| * k := by rw [abs_mul, abs_of_pos k0]
  set m := (newcombZ T t + newcombZeta T t) / 2 * k with hm
  set d := (newcombZ T t - newcombZeta T t) / 2 * k with hd
  set h := newcombTheta T t / 2 * k with hh
  have em : m = (2303.5548 + 1.39720 * T + 0.000059 * T ^ 2 + (0.6986 + 0.000059 * T) * t + 0.01816 * t ^ 2) * (t * k) := by rw [hm]; unfold newcombZ newcombZeta; ring
  have eh : h = ((2005.1125 - 0.85294 * T - 0.000365 * T ^ 2 - (0.42647 + 0.000365 * T) * t - 0.041802 * t ^ 2) / 2) * (t * k) := by rw [hh]; unfold newcombTheta; ring
  have ed : d = ((0.39618 + 0.000328 * T) * t + 0.000164 * t ^ 2) * (t * k) := by rw [hd]; unfold newcombZ newcombZeta; ring
  have t2 : 0 ≤ t ^ 2 ∧ t ^ 2 ≤ 2.25 := ⟨sq_nonneg t, by rw [← sq_abs]; nlinarith [abs_nonneg t]⟩
  have T2 : 0 ≤ T ^ 2 ∧ T ^ 2 ≤ 2.25 := ⟨sq_nonneg T, by nlinarith⟩
  have Tt : |T * t| ≤ 2.25 := by rw [abs_mul, abs_of_nonneg T0.1]; nlinarith [abs_nonneg t]
  rw [abs_le] at Tt
  have hxb : |t * k| ≤ 7.28e-6 := by rw [hX]; nlinarith [abs_nonneg t]
  have e23 : deg 23.45 = 23.45 * (π / 180) := rfl
  have q := prebn_quat (se := sin (deg 23.45)) (ce := cos (deg 23.45)) hxb em eh rfl (by linarith) (by linarith) (by linarith) (by linarith) (by rw [e23]; linarith) (by rw [e23]; linarith)
    (by rw [e23]; linarith) (by rw [e23]; linarith) (by rw [abs_le, e23]; constructor <;> linarith) (by rw [abs_le, e23]; constructor <;> linarith) (sin_sq_add_cos_sq _)
  have q1 := sin_sq_add_cos_sq h
  have q2 := sin_sq_add_cos_sq m
  have q3 := sin_sq_add_cos_sq (2513 * (t * k))
  have q4 := sin_sq_add_cos_sq (deg 23.45)
  have S := quat_near (c := cos h * cos m) (B := sin h) (A := cos h * sin m) (c' := cos (2513 * (t * k))) (B' := sin (2513 * (t * k)) * sin (deg 23.45)) (A' := sin (2513 * (t * k)) * cos (deg 23.45))
    (d := 3.45 * |t * k|) (by linear_combination (cos h ^ 2) * q2 + q1) (by linear_combination q3 + (sin (2513 * (t * k)) ^ 2) * q4) (by positivity) q
  rw [← zyz_quat, ← ecl_quat] at S
  have eM : axisZ (-(newcombZ T t * k)) * axisY (newcombTheta T t * k) * axisZ (-(newcombZeta T t * k)) = axisZ (-d) * (axisZ (-m) * axisY (2 * h) * axisZ (-m)) * axisZ d := by
    rw [show -(newcombZ T t * k) = -d + -m by rw [hm, hd]; ring, show -(newcombZeta T t * k) = -m + d by rw [hm, hd]; ring, show newcombTheta T t * k = 2 * h by rw [hh]; ring,
      ← axisZ_add, ← axisZ_add]
    simp only [Matrix.mul_assoc]
  rw [eM]
  generalize axisZ (-m) * axisY (2 * h) * axisZ (-m) = Q at *
  have C := small_comm (show Small (axisZ (-d) - 1) |d| by have := small_axisZ (-d); rwa [abs_neg] at this) (eclTurn_small (deg 23.45) (2 * (2513 * (t * k))))
  set E := eclTurn (deg 23.45) (2 * (2513 * (t * k))) with hE
  have dd : axisZ (-d) * axisZ d = 1 := by rw [axisZ_add, neg_add_cancel, axisZ_zero]
  have e : axisZ (-d) * Q * axisZ d - E = axisZ (-d) * (Q - E) * axisZ d + (axisZ (-d) * E - E * axisZ (-d)) * axisZ d := by
    rw [Matrix.sub_mul, Matrix.mul_assoc E, dd, Matrix.mul_sub, Matrix.sub_mul, Matrix.mul_one]
    abel
  rw [e]
  have R := (((S.lmul (rot_axisZ (-d))).rmul (rot_axisZ d)).add (C.rmul (rot_axisZ d)))
  refine R.mono ?_
  have ad : |d| ≤ 0.61 * |t * k| := by
    rw [ed, abs_mul]
    refine mul_le_mul_of_nonneg_right ?_ (abs_nonneg _)
    rw [abs_le]
    have := abs_le.1 at1
    constructor <;> linarith
  have a2 : |2 * (2513 * (t * k))| = 5026 * |t * k| := by rw [← mul_assoc, abs_mul]; norm_num
  rw [a2, hX] at *
  have : 0 ≤ |t| * k := by positivity
  nlinarith [abs_nonneg d]

/-- The bound is far below the turn itself: between B1900 and B1950 the sky turns by more than 2500 seconds of arc, known here to 3.5. -/
example (x : Vec3) : len (palPrebn 1900 1950 *ᵥ x - (axisX (-deg 23.45) * axisZ (-(2513 * Spec.arcsec)) * axisX (deg 23.45)) *ᵥ x) ≤ 3.5 * Spec.arcsec * len x := by
  have h := C43_prebn_ecliptic 1900 1950 (by norm_num) (by norm_num) x
  norm_num at h ⊢
  exact h

end Pal.Props
