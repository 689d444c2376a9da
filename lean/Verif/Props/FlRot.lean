import Verif.Lemmas.FlRot
import Verif.Props.FlSphere
import Verif.Spec.Orbit

/-!
# Rotation matrices and products in double precision

The specifications are the matrix and vector operations of Mathlib, the axis rotations of the models over the real numbers (whose properties are C34 and C74) and the dot and cross products of the specification.
-/

namespace Pal.Props
open Real Pal.Spec Matrix

/-- C107: products of matrices and vectors (palDmxv, palDimxv, palDmxm, palDvdv, palDvxv) in double precision. Each result is within 4.5e-16 of the sum of the absolute values of the terms it adds, plus 1e-199 for underflow. The
inverse product is that with the transposed matrix. -/
theorem C107_products {fl : ℝ → ℝ} (R : Rounding fl) (a b : Mat3) (u v : Vec3) (ha : ∀ i j, |a i j| ≤ 10 ^ 14) (hb : ∀ i j, |b i j| ≤ 10 ^ 14) (hu : ∀ i, |u i| ≤ 10 ^ 14) (hv : ∀ i, |v i| ≤ 10 ^ 14) :
    (∀ i, |flRxp fl a v i - (a *ᵥ v) i| ≤ 4.5e-16 * ∑ k, |a i k * v k| + 1 / 10 ^ 199) ∧
    (∀ i, |flTrxp fl a v i - (a.transpose *ᵥ v) i| ≤ 4.5e-16 * ∑ k, |a k i * v k| + 1 / 10 ^ 199) ∧
    (∀ i j, |flRxr fl a b i j - (a * b) i j| ≤ 4.5e-16 * ∑ k, |a i k * b k j| + 1 / 10 ^ 199) ∧
    |flPdp fl u v - dot u v| ≤ 4.5e-16 * ∑ k, |u k * v k| + 1 / 10 ^ 199 ∧
    (∀ i, |flPxp fl u v i - cross u v i| ≤ 2.3e-16 * (|u (i + 1) * v (i + 2)| + |u (i + 2) * v (i + 1)|) + 1 / 10 ^ 199) := by
  have pr : ∀ x y : ℝ, |x| ≤ 10 ^ 14 → |y| ≤ 10 ^ 14 → |x * y| ≤ 10 ^ 28 := fun x y hx hy => by
    rw [abs_mul, show (10 : ℝ) ^ 28 = 10 ^ 14 * 10 ^ 14 by norm_num]
    exact mul_le_mul hx hy (abs_nonneg _) (by positivity)
  have t : 10 * tinyT = 1 / 10 ^ 199 := by unfold tinyT; norm_num
  have d3 : ∀ x y z : ℝ, |x| ≤ 10 ^ 28 → |y| ≤ 10 ^ 28 → |z| ≤ 10 ^ 28 → |fl (fl (fl (0 + fl x) + fl y) + fl z) - (x + y + z)| ≤ 4.5e-16 * (|x| + |y| + |z|) + 1 / 10 ^ 199 := fun x y z hx hy hz => by
    rw [← t]; exact fl_dot3 R x y z (by norm_num at *; linarith)
  have mv : ∀ (a : Mat3) (v : Vec3), (∀ i j, |a i j| ≤ 10 ^ 14) → (∀ i, |v i| ≤ 10 ^ 14) → ∀ i, |flRxp fl a v i - (a *ᵥ v) i| ≤ 4.5e-16 * ∑ k, |a i k * v k| + 1 / 10 ^ 199 := by
    intro a v ha hv i
    have e : (a *ᵥ v) i = a i 0 * v 0 + a i 1 * v 1 + a i 2 * v 2 := by simp [Matrix.mulVec, dotProduct, Fin.sum_univ_three]
    rw [e, Fin.sum_univ_three]
    exact d3 _ _ _ (pr _ _ (ha _ _) (hv _)) (pr _ _ (ha _ _) (hv _)) (pr _ _ (ha _ _) (hv _))
  refine ⟨mv a v ha hv, fun i => ?_, fun i j => ?_, ?_, ?_⟩
  · unfold flTrxp
    rw [eraTr_eq]
    exact mv a.transpose v (fun i j => ha j i) hv i
  · rw [Matrix.mul_apply, Fin.sum_univ_three, Fin.sum_univ_three]
    exact d3 _ _ _ (pr _ _ (ha _ _) (hb _ _)) (pr _ _ (ha _ _) (hb _ _)) (pr _ _ (ha _ _) (hb _ _))
  · rw [dot_eq, Fin.sum_univ_three, ← t]
    have h0 := pr _ _ (hu 0) (hv 0); have h1 := pr _ _ (hu 1) (hv 1); have h2 := pr _ _ (hu 2) (hv 2)
    exact fl_pdp R _ _ _ (by norm_num at *; linarith)
  · have d2 : ∀ x y : ℝ, |x| ≤ 10 ^ 28 → |y| ≤ 10 ^ 28 → |fl (fl x - fl y) - (x - y)| ≤ 2.3e-16 * (|x| + |y|) + 1 / 10 ^ 199 := fun x y hx hy => by
      have := fl_diff2 R x y (by norm_num at *; linarith)
      have tt := tinyT_pos
      rw [← t]; linarith
    intro i
    fin_cases i
    · exact d2 _ _ (pr _ _ (hu 1) (hv 2)) (pr _ _ (hu 2) (hv 1))
    · exact d2 _ _ (pr _ _ (hu 2) (hv 0)) (pr _ _ (hu 0) (hv 2))
    · exact d2 _ _ (pr _ _ (hu 0) (hv 1)) (pr _ _ (hu 1) (hv 0))

example : (∀ i j, |(!![1, 2, 3; -4, 5, 6; 7, 8, 1e14] : Mat3) i j| ≤ 10 ^ 14) ∧ ∀ i, |(![1, -2, 3] : Vec3) i| ≤ 10 ^ 14 := by
  constructor
  · intro i j; fin_cases i <;> fin_cases j <;> norm_num [abs_of_pos, abs_neg]
  · intro i; fin_cases i <;> norm_num [abs_of_pos, abs_neg]

/-- C107: palDeuler in double precision, for any order string and any angles: the matrix is that of exact arithmetic (a rotation, C34) to 5.4e-15, in every entry and applied to any vector; its transpose is its inverse to 1.1e-14. -/
theorem C107_euler {fl : ℝ → ℝ} (R : Rounding fl) {L : Libm} (hL : LibmOK L) (order : List Char) (phi theta psi : ℝ) :
    let m := flDeuler fl L order phi theta psi
    (∀ i j, |m i j - palDeuler order phi theta psi i j| ≤ 5.4e-15) ∧
    (∀ x : Vec3, len (fun i => (m *ᵥ x) i - (palDeuler order phi theta psi *ᵥ x) i) ≤ 5.4e-15 * len x) ∧
    (∀ i j, |(m.transpose * m) i j - (1 : Mat3) i j| ≤ 1.1e-14) := by
  intro m
  have h := flDeuler_small R hL order phi theta psi
  have hQ := deuler_rot order phi theta psi
  refine ⟨fun i j => h.entry i j, fun x => ?_, fun i j => ?_⟩
  · have := h x
    rw [Matrix.sub_mulVec] at this
    exact this
  · have hE : Small (m - palDeuler order phi theta psi) 5.4e-15 := h
    have hEt := hE.transp
    have e : m.transpose * m - 1 = (m.transpose - (palDeuler order phi theta psi).transpose) * palDeuler order phi theta psi + (palDeuler order phi theta psi).transpose * (m - palDeuler order phi theta psi) +
        (m.transpose - (palDeuler order phi theta psi).transpose) * (m - palDeuler order phi theta psi) := by
      have := rot_trans_mul hQ
      rw [← this]; noncomm_ring
    have s := ((hEt.rmul hQ).add (hE.lmul (rot_transpose hQ))).add (hEt.mul hE)
    rw [← e] at s
    have := s.entry i j
    rw [Matrix.sub_apply] at this
    exact this.trans (by norm_num)

/-- C107 applies to the correctly rounded library and IEEE arithmetic, with a matrix that turns. -/
example : |flDeuler ieee roundedLibm ['Z'] (π / 2) 0 0 0 1 - 1| ≤ 5.4e-15 := by
  have := (C107_euler ieee_rounding roundedLibm_ok ['Z'] (π / 2) 0 0).1 0 1
  have e : palDeuler ['Z'] (π / 2) 0 0 0 1 = 1 := by
    unfold palDeuler
    rw [deulerLoop]; simp
    rw [deulerLoop]; simp [eraRz, eraIr]
  rwa [e] at this

/-- C107: rotating a vector with the matrix palDeuler computes and back with the inverse product (palDmxv, then palDimxv), all in double precision, returns the vector to 1.36e-14 of its length. -/
theorem C107_euler_round_trip {fl : ℝ → ℝ} (R : Rounding fl) {L : Libm} (hL : LibmOK L) (order : List Char) (phi theta psi : ℝ) (v : Vec3) (hv : len v ≤ 10 ^ 19) :
    let m := flDeuler fl L order phi theta psi
    len (fun i => flTrxp fl m (flRxp fl m v) i - v i) ≤ 1.36e-14 * len v + 1 / 10 ^ 190 := by
  intro m
  obtain ⟨h1, h2, -⟩ := C107_euler R hL order phi theta psi
  have hQ := deuler_rot order phi theta psi
  have hS : Small (m - palDeuler order phi theta psi) 5.4e-15 := flDeuler_small R hL order phi theta psi
  have hSt := hS.transp
  change ∀ i j, |m i j - _| ≤ _ at h1
  change ∀ x : Vec3, len (fun i => (m *ᵥ x) i - _) ≤ _ at h2
  generalize palDeuler order phi theta psi = Q at *
  generalize m = M at *
  have hM : ∀ i j, |M i j| ≤ 1.01 := by
    intro i j
    have q := rot_small hQ
    have := q.entry i j
    have t := abs_sub_abs_le_abs_sub (M i j) (Q i j)
    have := h1 i j
    norm_num at *
    linarith
  have n := len_nonneg v
  have a1 := flRxp_len R M hM v (hv.trans (by norm_num))
  have b1 := h2 v
  have c1 := len_tri (flRxp fl M v) (M *ᵥ v) (Q *ᵥ v)
  have t0 : (0 : ℝ) < 1 / 10 ^ 198 := by positivity
  have t1 : (1 : ℝ) / 10 ^ 198 ≤ 1 / 10 ^ 190 / 100 := by norm_num
  have t2 : (1 : ℝ) / 10 ^ 190 ≤ 1 / 10 ^ 10 := by norm_num
  have a2' := fun u hu => flRxp_len R M.transpose (fun i j => hM j i) u hu
  generalize (1 : ℝ) / 10 ^ 198 = ta at *
  generalize (1 : ℝ) / 10 ^ 190 = tb at *
  unfold flTrxp
  rw [eraTr_eq]
  generalize flRxp fl M v = u at *
  have d1 : len (fun i => u i - (Q *ᵥ v) i) ≤ 6.77e-15 * len v + ta := by norm_num at *; linarith
  have lq : len (Q *ᵥ v) = len v := rot_len hQ v
  have nu : len u ≤ 1.0001 * len v + ta := by
    have := (abs_le.1 ((len_rev_tri u (Q *ᵥ v)).trans d1)).2
    rw [lq] at this
    norm_num at *
    linarith
  have nu0 := len_nonneg u
  have a2 := a2' u (by norm_num at *; linarith)
  have b2 := hSt u
  rw [Matrix.sub_mulVec] at b2
  change len (fun i => (M.transpose *ᵥ u) i - (Q.transpose *ᵥ u) i) ≤ _ at b2
  have c2 := len_tri (flRxp fl M.transpose u) (M.transpose *ᵥ u) (Q.transpose *ᵥ u)
  have c3 := len_tri (flRxp fl M.transpose u) (Q.transpose *ᵥ u) v
  have e3 : len (fun i => (Q.transpose *ᵥ u) i - v i) = len (fun i => u i - (Q *ᵥ v) i) := by
    have : (fun i => (Q.transpose *ᵥ u) i - v i) = Q.transpose *ᵥ (u - Q *ᵥ v) := by
      rw [Matrix.mulVec_sub, Matrix.mulVec_mulVec, rot_trans_mul hQ, Matrix.one_mulVec]; rfl
    rw [this, rot_len (rot_transpose hQ)]; rfl
  rw [e3] at c3
  norm_num at *
  linarith

example : len (![3, 0, 4] : Vec3) ≤ 10 ^ 19 := by
  have h : len (![3, 0, 4] : Vec3) = 5 := by
    unfold len; rw [Fin.sum_univ_three, show (![3, 0, 4] : Vec3) 0 ^ 2 + (![3, 0, 4] : Vec3) 1 ^ 2 + (![3, 0, 4] : Vec3) 2 ^ 2 = 5 ^ 2 by simp; norm_num]
    exact Real.sqrt_sq (by norm_num)
  rw [h]; norm_num

/-- C107: palDav2m in double precision: for the null vector and for rotation vectors of length between 1e-29 and 100 radians every entry of the matrix is that of exact arithmetic (C74) to 5.6e-15 plus 1.1e-15 times the length. -/
theorem C107_av2m {fl : ℝ → ℝ} (R : Rounding fl) {L : Libm} (hL : LibmOK L) (w : Vec3) (h : len w = 0 ∨ (1 / 10 ^ 29 ≤ len w ∧ len w ≤ 100)) :
    ∀ i j, |flRv2m fl L w i j - palDav2m w i j| ≤ 5.6e-15 + 1.1e-15 * len w := by
  have n0 := len_nonneg w
  have hW : len w ≤ 100 := by rcases h with h | h; rw [h]; norm_num; exact h.2
  obtain ⟨m0, m1⟩ := flPm_err R w (hW.trans (by norm_num))
  have e1 : flPm fl w = fl (√(fl (fl (fl (w 0 * w 0) + fl (w 1 * w 1)) + fl (w 2 * w 2)))) := rfl
  have e2 : len w = √(w 0 * w 0 + w 1 * w 1 + w 2 * w 2) := by rw [len_eq, dot_eq]
  unfold palDav2m eraRv2m flRv2m
  rw [← e1, ← e2]
  have hphi : |flPm fl w - len w| ≤ 5.3e-16 * len w := by
    rcases h with h | h
    · have : w = fun _ => 0 := by
        funext i
        have := comp_le_len w i
        rw [h] at this
        exact abs_nonpos_iff.1 this
      rw [this]
      unfold flPm
      have z : len (fun _ => (0 : ℝ)) = 0 := by unfold len; simp
      rw [z]
      simp [R.zero]
    · have z : (1 : ℝ) / 10 ^ 96 ≤ 1e-18 * (1 / 10 ^ 29) := by norm_num
      have z' := h.1
      generalize (1 : ℝ) / 10 ^ 96 = t at *
      generalize (1 : ℝ) / 10 ^ 29 = t' at *
      norm_num at *
      linarith
  have hx : ∀ i, |(if flPm fl w > 0 then fl (w i / flPm fl w) else w i) - (if len w > 0 then w i / len w else w i)| ≤ 6.5e-16 ∧ |if len w > 0 then w i / len w else w i| ≤ 1 := by
    intro i
    have ci := comp_le_len w i
    rcases h with h | h
    · rw [h] at ci hphi
      rw [mul_zero, sub_zero] at hphi
      have f0 : flPm fl w = 0 := abs_nonpos_iff.1 hphi
      have w0 : w i = 0 := abs_nonpos_iff.1 ci
      rw [h, f0, w0]
      norm_num
    · have n1 : 0 < len w := lt_of_lt_of_le (by positivity) h.1
      have w0 : 0 < flPm fl w := by
        have := (abs_le.1 hphi).1
        norm_num at *; linarith
      rw [if_pos w0, if_pos n1]
      have X1 : |w i / len w| ≤ 1 := by rw [abs_div, abs_of_pos n1, div_le_one n1]; exact ci
      refine ⟨R.add_err _ (δ := 5.31e-16) (B := 1) ?_ X1 le_rfl (by norm_num) (by norm_num), X1⟩
      have q : |len w / flPm fl w - 1| ≤ 5.31e-16 := by
        rw [show len w / flPm fl w - 1 = (len w - flPm fl w) / flPm fl w by field_simp, abs_div, abs_of_pos w0, div_le_iff₀ w0, abs_sub_comm]
        refine hphi.trans ?_
        have := (abs_le.1 hphi).1
        norm_num at *
        linarith
      rw [show w i / flPm fl w - w i / len w = (len w / flPm fl w - 1) * (w i / len w) by field_simp, abs_mul]
      have := mul_le_mul q X1 (abs_nonneg _) (by norm_num)
      linarith
  have hs : |L.sin (flPm fl w) - sin (len w)| ≤ 2.3e-16 + 5.3e-16 * len w := by
    have a := hL.sin (flPm fl w)
    have b := (abs_sin_sub_sin_le (flPm fl w) (len w)).trans hphi
    have := abs_sub_le (L.sin (flPm fl w)) (sin (flPm fl w)) (sin (len w))
    linarith
  have hc : |L.cos (flPm fl w) - cos (len w)| ≤ 2.3e-16 + 5.3e-16 * len w := by
    have a := hL.cos (flPm fl w)
    have b := (abs_cos_sub_cos_le (flPm fl w) (len w)).trans hphi
    have := abs_sub_le (L.cos (flPm fl w)) (cos (flPm fl w)) (cos (len w))
    linarith
  have hd : 5.3e-16 * len w ≤ 5.3e-14 := by norm_num at *; linarith
  have hd0 : 0 ≤ 5.3e-16 * len w := by positivity
  obtain ⟨d, hdd⟩ : ∃ d, d = 5.3e-16 * len w := ⟨_, rfl⟩
  have goal : (5.6e-15 : ℝ) + 1.1e-15 * len w ≥ 5.6e-15 + 2 * d := by rw [hdd]; norm_num; linarith
  rw [← hdd] at hs hc hd hd0
  refine fun i j => le_trans ?_ goal
  have sb := abs_sin_le_one (len w)
  have cb := abs_cos_le_one (len w)
  obtain ⟨a0, b0⟩ := hx 0
  obtain ⟨a1, b1⟩ := hx 1
  obtain ⟨a2, b2⟩ := hx 2
  generalize (if flPm fl w > 0 then fl (w 0 / flPm fl w) else w 0) = x at *
  generalize (if flPm fl w > 0 then fl (w 1 / flPm fl w) else w 1) = y at *
  generalize (if flPm fl w > 0 then fl (w 2 / flPm fl w) else w 2) = z at *
  generalize (if len w > 0 then w 0 / len w else w 0) = X at *
  generalize (if len w > 0 then w 1 / len w else w 1) = Y at *
  generalize (if len w > 0 then w 2 / len w else w 2) = Z at *
  generalize L.sin (flPm fl w) = s at *
  generalize L.cos (flPm fl w) = c at *
  generalize sin (len w) = S at *
  generalize cos (len w) = C at *
  clear hx hdd goal h hW m0 m1 e1 e2 hphi n0
  have hf : |fl (1 - c) - (1 - C)| ≤ 4.6e-16 + d := by
    refine R.add_err _ (δ := 2.3e-16 + d) (B := 2) ?_ ?_ (by norm_num) ?_ ?_
    · rw [show 1 - c - (1 - C) = -(c - C) by ring, abs_neg]; exact hc
    · have := abs_le.1 cb; rw [abs_le]; constructor <;> linarith
    · norm_num at *; linarith
    · norm_num at *; linarith
  have fb : |1 - C| ≤ 2 := by have := abs_le.1 cb; rw [abs_le]; constructor <;> linarith
  have pp : ∀ {a A b B : ℝ}, |a - A| ≤ 6.5e-16 → |b - B| ≤ 6.5e-16 → |A| ≤ 1 → |B| ≤ 1 → |fl (fl (a * b) * fl (1 - c)) - A * B * (1 - C)| ≤ 3.51e-15 + d := by
    intro a A b B h1 h2 h3 h4
    have p := R.mul 1.412e-15 h1 h2 h3 h4 (by norm_num) (by norm_num) (by norm_num)
    have q : |A * B| ≤ 1 := by rw [abs_mul]; exact mul_le_one₀ h3 (abs_nonneg _) h4
    exact R.mul2 _ p hf q fb (by norm_num) (by norm_num at *; linarith) (by norm_num at *; linarith)
  have ss : ∀ {a A : ℝ}, |a - A| ≤ 6.5e-16 → |A| ≤ 1 → |fl (a * s) - A * S| ≤ 9.92e-16 + d := by
    intro a A h1 h3
    exact R.mul _ h1 hs h3 sb (by norm_num) (by norm_num at *; linarith) (by norm_num at *; linarith)
  have pb : ∀ {A B : ℝ}, |A| ≤ 1 → |B| ≤ 1 → |A * B * (1 - C)| ≤ 2 := by
    intro A B h3 h4
    have q : |A * B| ≤ 1 := by rw [abs_mul]; exact mul_le_one₀ h3 (abs_nonneg _) h4
    rw [abs_mul]
    calc |A * B| * |1 - C| ≤ 1 * 2 := mul_le_mul q fb (abs_nonneg _) zero_le_one
      _ = 2 := by norm_num
  have sb' : ∀ {A : ℝ}, |A| ≤ 1 → |A * S| ≤ 1 := by
    intro A h; rw [abs_mul]; exact mul_le_one₀ h (abs_nonneg _) sb
  have diag : ∀ {a A : ℝ}, |a - A| ≤ 6.5e-16 → |A| ≤ 1 → |fl (fl (fl (a * a) * fl (1 - c)) + c) - (A * A * (1 - C) + C)| ≤ 5.6e-15 + 2 * d := by
    intro a A h1 h3
    refine R.add 3 _ (pp h1 h1 h3 h3) hc ((abs_add_le _ _).trans (by linarith [pb h3 h3])) ?_ ?_ ?_ ?_ ?_ <;> norm_num at * <;> linarith
  have plus : ∀ {a A b B e E : ℝ}, |a - A| ≤ 6.5e-16 → |b - B| ≤ 6.5e-16 → |e - E| ≤ 6.5e-16 → |A| ≤ 1 → |B| ≤ 1 → |E| ≤ 1 → |fl (fl (fl (a * b) * fl (1 - c)) + fl (e * s)) - (A * B * (1 - C) + E * S)| ≤ 5.6e-15 + 2 * d := by
    intro a A b B e E h1 h2 h3 h4 h5 h6
    refine R.add 3 _ (pp h1 h2 h4 h5) (ss h3 h6) ((abs_add_le _ _).trans (by linarith [pb h4 h5, sb' h6])) ?_ ?_ ?_ ?_ ?_ <;> norm_num at * <;> linarith
  have minus : ∀ {a A b B e E : ℝ}, |a - A| ≤ 6.5e-16 → |b - B| ≤ 6.5e-16 → |e - E| ≤ 6.5e-16 → |A| ≤ 1 → |B| ≤ 1 → |E| ≤ 1 → |fl (fl (fl (a * b) * fl (1 - c)) - fl (e * s)) - (A * B * (1 - C) - E * S)| ≤ 5.6e-15 + 2 * d := by
    intro a A b B e E h1 h2 h3 h4 h5 h6
    have := plus (a := a) (b := b) (e := -e) (E := -E) h1 h2 (by rwa [neg_sub_neg, abs_sub_comm]) h4 h5 (by rwa [abs_neg])
    rwa [neg_mul, R.odd, neg_mul, ← sub_eq_add_neg, ← sub_eq_add_neg] at this
  fin_cases i <;> fin_cases j
  · exact diag a0 b0
  · exact plus a0 a1 a2 b0 b1 b2
  · exact minus a0 a2 a1 b0 b2 b1
  · exact minus a1 a0 a2 b1 b0 b2
  · exact diag a1 b1
  · exact plus a1 a2 a0 b1 b2 b0
  · exact plus a2 a0 a1 b2 b0 b1
  · exact minus a2 a1 a0 b2 b1 b0
  · exact diag a2 b2

example : (1 : ℝ) / 10 ^ 29 ≤ len (![0, 0, 1] : Vec3) ∧ len (![0, 0, 1] : Vec3) ≤ 100 := by
  have h : len (![0, 0, 1] : Vec3) = 1 := by unfold len; rw [Fin.sum_univ_three]; simp
  rw [h]; norm_num

end Pal.Props
