import Verif.Lemmas.FlAltaz

/-!
# C142: palAltaz in double precision
-/

namespace Pal.Props
open Real Pal Pal.Spec

variable {fl : ℝ → ℝ} {L : Libm}

/-- **C142** palAltaz in double precision: azimuth and elevation are those of exact arithmetic to 9e-15 on the sphere and the parallactic angle, up to whole turns, to 1e-14 divided by the cosine of the
elevation, everywhere; the velocities and accelerations, at least 1e-6 radians from the zenith and the nadir, to 1.1e-14 and 8e-14 (azimuth), 8e-15 and 4.5e-14 (elevation) and 8e-15 and 8e-14
(parallactic angle), divided by the power of the cosine of the elevation with which they grow. -/
theorem C142_altaz (R : Rounding fl) (hL : LibmOK L) (nz1 nz2 : Bool) (ha dec phi : ℝ) :
    let o := flAltaz fl L nz1 nz2 ha dec phi
    let e := palAltaz ha dec phi
    0 ≤ o.az ∧ o.az ≤ flPal2PI fl ∧ |o.el| ≤ π / 2 + 4.5e-16 ∧ len (fun i => dir o.az o.el i - dir e.az e.el i) ≤ 9e-15 ∧
    (∃ k : ℤ, cos e.el * |o.pa - (e.pa + k * (2 * π))| ≤ 1e-14) ∧
    (1e-6 ≤ cos e.el →
      |o.pa| ≤ π + 4.5e-16 ∧
      |o.azd - e.azd| ≤ 1.1e-14 / cos e.el ^ 2 ∧ |o.azdd - e.azdd| ≤ 8e-14 / cos e.el ^ 3 ∧
      |o.eld - e.eld| ≤ 8e-15 / cos e.el ∧ |o.eldd - e.eldd| ≤ 4.5e-14 / cos e.el ^ 2 ∧
      |o.pad - e.pad| ≤ 8e-15 / cos e.el ^ 2 ∧ |o.padd - e.padd| ≤ 8e-14 / cos e.el ^ 3) := by
  intro o e
  obtain ⟨z1, z2⟩ := flAltaz_de2h R hL nz1 nz2 ha dec phi
  obtain ⟨c1, c2, -⟩ := C29_altaz_values ha dec phi
  obtain ⟨h1, h2, h3, h4⟩ := (C102_horizon R hL nz1 ha dec phi).1
  have ce : cos e.el = azR dec phi ha := altaz_cos_el ha dec phi
  have R0 : 0 ≤ azR dec phi ha := Real.sqrt_nonneg _
  have R1 : azR dec phi ha ≤ 1 := by rw [← ce]; exact cos_le_one _
  refine ⟨by rw [z1]; exact h1, by rw [z1]; exact h2, by rw [z2]; exact h3, ?_, ?_⟩
  · rw [z1, z2, c1, c2]; exact h4
  rw [ce]
  by_cases hr : azR dec phi ha = 0
  · rw [hr]
    exact ⟨⟨0, by rw [zero_mul]; norm_num⟩, fun h => absurd h (by norm_num)⟩
  obtain ⟨p1, p2⟩ := altaz_pa ha dec phi hr
  have pa := flAltaz_pa R hL nz2 ha dec phi _ _ R0 R1 p1 p2
  refine ⟨pa.1, fun r0 => ?_⟩
  refine ⟨pa.2 r0, ?_⟩
  have he : ∀ i, |flAltazVec fl L ha dec phi i - horizonVec ha dec phi i| ≤ 1.64e-15 := by rw [flAltazVec_eq R]; exact horizon_err R hL ha dec phi
  have ho : o = flAltaz fl L nz1 nz2 ha dec phi := rfl
  have hee : e = palAltaz ha dec phi := rfl
  have x0 : horizonVec ha dec phi 0 = azX dec phi ha := by simp [horizonVec, azX]
  have x1 : horizonVec ha dec phi 1 = azY dec ha := by simp [horizonVec, azY]
  have x2 : horizonVec ha dec phi 2 = azZ dec phi ha := by simp [horizonVec, azZ]
  have hun : dot (horizonVec ha dec phi) (horizonVec ha dec phi) = 1 := by rw [dot_eq, x0, x1, x2]; exact az_sq _ _ _
  have hρ : azR dec phi ha = √(horizonVec ha dec phi 0 * horizonVec ha dec phi 0 + horizonVec ha dec phi 1 * horizonVec ha dec phi 1) := by rw [x0, x1]; rfl
  obtain ⟨q1, q2, q3, q4, q5, q6, q7, q8, q9⟩ := flAltaz_base R he hun hρ r0 rfl
  have clampE : ¬ azX dec phi ha * azX dec phi ha + azY dec ha * azY dec ha < 1 / 10 ^ 30 := by
    rw [← azR_sq]
    have : (1e-6 : ℝ) * 1e-6 ≤ azR dec phi ha * azR dec phi ha := by nlinarith only [r0]
    clear * - this
    norm_num at *; linarith
  have clampF : ¬ fl (fl (flAltazVec fl L ha dec phi 0 * flAltazVec fl L ha dec phi 0) + fl (flAltazVec fl L ha dec phi 1 * flAltazVec fl L ha dec phi 1)) < fl (1 / 10 ^ 30) := by
    have t := (abs_le.1 (R.err (x := 1 / 10 ^ 30) (by rw [abs_of_pos (by positivity)]; norm_num))).2
    rw [abs_of_pos (by positivity : (0 : ℝ) < 1 / 10 ^ 30)] at t
    have : (1 : ℝ) / 10 ^ 200 ≤ 1e-30 := by norm_num
    generalize (1 : ℝ) / 10 ^ 200 = y at *
    generalize fl (1 / 10 ^ 30) = y' at *
    clear * - this t q1
    push Not
    norm_num at *; linarith
  have key := flAltaz_rates R (s := L.sin phi) (c := L.cos phi) (he 0) (he 1) (he 2) (hL.sin phi) (hL.cos phi) (abs_sin_le_one phi) (abs_cos_le_one phi) (q7 0) (q7 1) (q7 2) q8 q9 q2 q3 q4 q5 q6 r0 rfl rfl rfl rfl rfl rfl rfl rfl
  rw [x0, x1, x2] at key
  have w1 : ∀ c : ℝ, c / azR dec phi ha = c * (1 / azR dec phi ha) := fun c => div_eq_mul_one_div _ _
  have w2 : ∀ (c : ℝ) (n : ℕ), c / azR dec phi ha ^ n = c * (1 / azR dec phi ha) ^ n := fun c n => by rw [div_pow, one_pow, ← div_eq_mul_one_div]
  rw [w1, w2, w2, w2, w2]
  obtain ⟨k1, k2, k3, k4, k5, k6⟩ := key
  have E : e = { az := e.az, azd := sin phi + azZ dec phi ha * (-azX dec phi ha * cos phi / (azR dec phi ha * azR dec phi ha)), azdd := cos phi * azY dec ha / azR dec phi ha / azR dec phi ha * (azZ dec phi ha * sin phi + (2 - azR dec phi ha * azR dec phi ha) * (-azX dec phi ha * cos phi / (azR dec phi ha * azR dec phi ha))), el := e.el, eld := cos phi * azY dec ha / azR dec phi ha, eldd := -azR dec phi ha * (-azX dec phi ha * cos phi / (azR dec phi ha * azR dec phi ha)) * (sin phi + azZ dec phi ha * (-azX dec phi ha * cos phi / (azR dec phi ha * azR dec phi ha))), pa := e.pa, pad := -azX dec phi ha * cos phi / (azR dec phi ha * azR dec phi ha), padd := cos phi * azY dec ha / azR dec phi ha / azR dec phi ha * (sin phi + 2 * azZ dec phi ha * (-azX dec phi ha * cos phi / (azR dec phi ha * azR dec phi ha))) } := by
    rw [azR_sq]
    have : e = _ := hee.trans (palAltaz.eq_1 ha dec phi)
    rw [this]
    dsimp only
    have cl : ¬ ((-(cos ha * cos dec) * sin phi + sin dec * cos phi) * (-(cos ha * cos dec) * sin phi + sin dec * cos phi) + -sin ha * cos dec * (-sin ha * cos dec) < 1 / 10 ^ 30) := clampE
    simp only [if_neg cl]
    rfl
  rw [E]
  rw [ho]
  unfold flAltaz
  dsimp only
  rw [if_neg clampF]
  exact ⟨k2, k4, k3, k5, k1, k6⟩

/-- A star away from the zenith for IEEE 754 arithmetic: hour angle 1 and declination 0 seen from the equator. -/
example : Rounding ieee ∧ LibmOK roundedLibm ∧ 1e-6 ≤ cos (palAltaz 1 0 0).el := by
  refine ⟨ieee_rounding, roundedLibm_ok, ?_⟩
  have h := altaz_cos_el 1 0 0
  have s := Real.sin_gt_sub_cube (x := 1) (by norm_num)
  have e : azR 0 0 1 = sin 1 := by
    unfold azR azX azY
    simp only [cos_zero, sin_zero, mul_zero, mul_one, zero_mul, add_zero, zero_add, neg_mul_neg]
    exact Real.sqrt_mul_self (by norm_num at *; linarith)
  rw [h, e]
  norm_num at *; linarith

end Pal.Props
