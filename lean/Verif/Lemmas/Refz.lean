import Verif.Lemmas.Refr
import Mathlib.Analysis.SpecialFunctions.Trigonometric.ArctanDeriv
import Mathlib.Analysis.Calculus.MeanValue
import Mathlib.Analysis.SpecialFunctions.Trigonometric.Bounds
import Mathlib.Analysis.Real.Pi.Bounds

namespace Pal
open Real Spec

/-- Derivative of the two-constant model in terms of the tangent. -/
noncomputable def unrefractD (a b z : ℝ) : ℝ := 1 + (a + 3 * b * tan z ^ 2) * (1 + tan z ^ 2)

theorem inv_cos_sq {z : ℝ} (h : cos z ≠ 0) : 1 / cos z ^ 2 = 1 + tan z ^ 2 := by
  rw [tan_eq_sin_div_cos]
  field_simp
  linarith [sin_sq_add_cos_sq z]

theorem unrefract_deriv (a b : ℝ) {z : ℝ} (h : cos z ≠ 0) : HasDerivAt (unrefract a b) (unrefractD a b z) z := by
  have ht : HasDerivAt tan (1 + tan z ^ 2) z := (Real.hasDerivAt_tan h).congr_deriv (inv_cos_sq h)
  have h3 := ht.pow 3
  have := ((hasDerivAt_id z).add (ht.const_mul a)).add (h3.const_mul b)
  refine this.congr_deriv ?_
  unfold unrefractD
  norm_num
  ring

theorem refzStep_eq (zu a b : ℝ) {z : ℝ} (h : cos z ≠ 0) : refzStep zu a b z = (unrefract a b z - zu) / unrefractD a b z := by
  unfold refzStep unrefract unrefractD
  dsimp only
  have e1 : (a + 3 * b * (sin z / cos z * (sin z / cos z))) / (cos z * cos z) = (a + 3 * b * tan z ^ 2) * (1 + tan z ^ 2) := by
    rw [← inv_cos_sq h, tan_eq_sin_div_cos]; field_simp
  rw [e1, tan_eq_sin_div_cos]
  congr 1
  ring

theorem arctan_region {T x : ℝ} (hx : |x| ≤ arctan T) : |tan x| ≤ T ∧ 0 < cos x := by
  have h1 := abs_le.1 hx
  have hT := arctan_lt_pi_div_two T
  have hlo : -(π / 2) < x := by linarith
  have hhi : x < π / 2 := by linarith
  refine ⟨abs_le.2 ⟨?_, ?_⟩, cos_pos_of_mem_Ioo ⟨hlo, hhi⟩⟩
  · rw [← Real.tan_arctan T, ← tan_neg]
    exact Real.strictMonoOn_tan.monotoneOn ⟨by linarith, by linarith⟩ ⟨hlo, hhi⟩ h1.1
  · rw [← Real.tan_arctan T]
    exact Real.strictMonoOn_tan.monotoneOn ⟨hlo, hhi⟩ ⟨by linarith, hT⟩ h1.2

theorem tan_lip {T x y : ℝ} (hx : |x| ≤ arctan T) (hy : |y| ≤ arctan T) : |tan y - tan x| ≤ (1 + T ^ 2) * |y - x| := by
  have := Convex.norm_image_sub_le_of_norm_hasDerivWithin_le (f := tan) (f' := fun z => 1 + tan z ^ 2) (C := 1 + T ^ 2) (s := Set.Icc (-arctan T) (arctan T))
    (x := x) (y := y) (fun z hz => by
      have := arctan_region (abs_le.2 hz)
      exact ((Real.hasDerivAt_tan this.2.ne').congr_deriv (inv_cos_sq this.2.ne')).hasDerivWithinAt) (fun z hz => by
      have := arctan_region (abs_le.2 hz)
      rw [Real.norm_eq_abs, abs_of_nonneg (by positivity)]
      have h2 : tan z ^ 2 ≤ T ^ 2 := by rw [← sq_abs]; exact pow_le_pow_left₀ (abs_nonneg _) this.1 2
      linarith) (convex_Icc _ _) (abs_le.1 hx) (abs_le.1 hy)
  simpa [Real.norm_eq_abs] using this

theorem unrefractD_lip {T x y a b : ℝ} (hT : 0 ≤ T) (hx : |x| ≤ arctan T) (hy : |y| ≤ arctan T) :
    |unrefractD a b y - unrefractD a b x| ≤ (1 + T ^ 2) * (2 * T * |a + 3 * b| + 12 * |b| * T ^ 3) * |y - x| := by
  have tx := (arctan_region hx).1
  have ty := (arctan_region hy).1
  have hl := tan_lip hx hy
  unfold unrefractD
  generalize tan x = p at *
  generalize tan y = q at *
  have e : 1 + (a + 3 * b * q ^ 2) * (1 + q ^ 2) - (1 + (a + 3 * b * p ^ 2) * (1 + p ^ 2)) =
      (q - p) * ((a + 3 * b) * (q + p) + 3 * b * ((q + p) * (q ^ 2 + p ^ 2))) := by ring
  rw [e, abs_mul]
  have h1 : |q + p| ≤ 2 * T := (abs_add_le q p).trans (by linarith)
  have hq2 : q ^ 2 ≤ T ^ 2 := by rw [← sq_abs]; exact pow_le_pow_left₀ (abs_nonneg _) ty 2
  have hp2 : p ^ 2 ≤ T ^ 2 := by rw [← sq_abs]; exact pow_le_pow_left₀ (abs_nonneg _) tx 2
  have h2 : |(q + p) * (q ^ 2 + p ^ 2)| ≤ 4 * T ^ 3 := by
    rw [abs_mul, abs_of_nonneg (show 0 ≤ q ^ 2 + p ^ 2 by positivity)]
    calc |q + p| * (q ^ 2 + p ^ 2) ≤ (2 * T) * (2 * T ^ 2) := mul_le_mul h1 (by linarith) (by positivity) (by linarith)
      _ = 4 * T ^ 3 := by ring
  have h3 : |(a + 3 * b) * (q + p) + 3 * b * ((q + p) * (q ^ 2 + p ^ 2))| ≤ 2 * T * |a + 3 * b| + 12 * |b| * T ^ 3 := by
    refine (abs_add_le _ _).trans ?_
    rw [abs_mul, abs_mul (3 * b), abs_mul 3 b, abs_of_pos (show (0 : ℝ) < 3 by norm_num)]
    have k1 := mul_le_mul_of_nonneg_left h1 (abs_nonneg (a + 3 * b))
    have k2 := mul_le_mul_of_nonneg_left h2 (show 0 ≤ 3 * |b| by positivity)
    linarith
  calc |q - p| * |(a + 3 * b) * (q + p) + 3 * b * ((q + p) * (q ^ 2 + p ^ 2))|
      ≤ ((1 + T ^ 2) * |y - x|) * (2 * T * |a + 3 * b| + 12 * |b| * T ^ 3) := mul_le_mul hl h3 (abs_nonneg _) (by positivity)
    _ = _ := by ring

/-- One Newton step leaves a residual quadratic in the step. -/
theorem newton_residual {T a b z z' zu M : ℝ} (hz : |z| ≤ arctan T) (hz' : |z'| ≤ arctan T) (hM0 : 0 ≤ M)
    (hM : ∀ x y, |x| ≤ arctan T → |y| ≤ arctan T → |unrefractD a b y - unrefractD a b x| ≤ M * |y - x|) (hD : unrefractD a b z ≠ 0)
    (hstep : z' = z - (unrefract a b z - zu) / unrefractD a b z) : |unrefract a b z' - zu| ≤ M * (z' - z) ^ 2 := by
  have hseg : ∀ x ∈ Set.uIcc z z', |x| ≤ arctan T := by
    intro x hx
    have h1 := abs_le.1 hz
    have h2 := abs_le.1 hz'
    rcases Set.mem_uIcc.1 hx with h | h
    · exact abs_le.2 ⟨by linarith [h.1], by linarith [h.2]⟩
    · exact abs_le.2 ⟨by linarith [h.1], by linarith [h.2]⟩
  have := Convex.norm_image_sub_le_of_norm_hasDerivWithin_le (f := fun x => unrefract a b x - unrefractD a b z * x) (f' := fun x => unrefractD a b x - unrefractD a b z)
    (C := M * |z' - z|) (s := Set.uIcc z z') (x := z) (y := z') (fun x hx => by
      have h := arctan_region (hseg x hx)
      have h1 := (unrefract_deriv a b h.2.ne').sub ((hasDerivAt_id x).const_mul (unrefractD a b z))
      exact (h1.congr_deriv (by ring)).hasDerivWithinAt) (fun x hx => by
      rw [Real.norm_eq_abs]
      refine (hM z x hz (hseg x hx)).trans (mul_le_mul_of_nonneg_left ?_ hM0)
      exact Set.abs_sub_left_of_mem_uIcc hx) (convex_uIcc _ _) Set.left_mem_uIcc Set.right_mem_uIcc
  rw [Real.norm_eq_abs, Real.norm_eq_abs] at this
  have e : unrefract a b z' - zu = (unrefract a b z' - unrefractD a b z * z') - (unrefract a b z - unrefractD a b z * z) := by
    rw [hstep]
    field_simp
    ring
  rw [e]
  refine this.trans (le_of_eq ?_)
  rw [mul_assoc, ← sq, sq_abs]

/-- Two Newton steps, with numerical bounds supplied. -/
theorem newton_two {T T0 a b zu q M s1 s2 : ℝ} (hT : 0 ≤ T) (hq1 : q < 1) (hq : ∀ x, |x| ≤ arctan T → |unrefractD a b x - 1| ≤ q) (hM0 : 0 ≤ M)
    (hM : (1 + T ^ 2) * (2 * T * |a + 3 * b| + 12 * |b| * T ^ 3) ≤ M) (hzu : |zu| ≤ arctan T0) (hsep : arctan T0 + s1 + s2 ≤ arctan T) (h0 : 0 ≤ s1) (h0' : 0 ≤ s2)
    (hs1 : ∀ t, |t| ≤ T0 → |a * t + b * t ^ 3| ≤ s1 * (1 - q)) (hs2 : M * s1 ^ 2 ≤ s2 * (1 - q)) :
    let z1 := zu - refzStep zu a b zu
    let z2 := z1 - refzStep zu a b z1
    |z1 - zu| ≤ s1 ∧ |z2 - z1| ≤ s2 ∧ |z2| ≤ arctan T ∧ |unrefract a b z2 - zu| ≤ M * s2 ^ 2 := by
  dsimp only
  have hzuT : |zu| ≤ arctan T := by linarith
  have hcu := (arctan_region hzuT).2
  have hMl : ∀ x y, |x| ≤ arctan T → |y| ≤ arctan T → |unrefractD a b y - unrefractD a b x| ≤ M * |y - x| := fun x y hx hy =>
    (unrefractD_lip hT hx hy).trans (mul_le_mul_of_nonneg_right hM (abs_nonneg _))
  have hDpos : ∀ x, |x| ≤ arctan T → 1 - q ≤ unrefractD a b x := fun x hx => by linarith [(abs_le.1 (hq x hx)).1]
  have hq0 : 0 < 1 - q := by linarith
  have hdiv : ∀ n x s, |x| ≤ arctan T → |n| ≤ s * (1 - q) → 0 ≤ s → |n / unrefractD a b x| ≤ s := by
    intro n x s hx hn hs
    have hp : 0 < unrefractD a b x := lt_of_lt_of_le hq0 (hDpos x hx)
    rw [abs_div, abs_of_pos hp, div_le_iff₀ hp]
    exact hn.trans (mul_le_mul_of_nonneg_left (hDpos x hx) hs)
  have hst1 : |refzStep zu a b zu| ≤ s1 := by
    rw [refzStep_eq zu a b hcu.ne']
    apply hdiv _ _ _ hzuT _ h0
    have : unrefract a b zu - zu = a * tan zu + b * tan zu ^ 3 := by unfold unrefract; ring
    rw [this]
    exact hs1 _ (arctan_region hzu).1
  set z1 := zu - refzStep zu a b zu with hz1
  have hd1 : z1 - zu = -refzStep zu a b zu := by rw [hz1]; ring
  have hz1T : |z1| ≤ arctan T := by
    have : |z1| ≤ |zu| + |refzStep zu a b zu| := by rw [hz1]; exact abs_sub _ _
    linarith
  have hres1 : |unrefract a b z1 - zu| ≤ M * s1 ^ 2 := by
    refine (newton_residual hzuT hz1T hM0 hMl (lt_of_lt_of_le hq0 (hDpos zu hzuT)).ne' (by rw [hz1, refzStep_eq zu a b hcu.ne'])).trans ?_
    apply mul_le_mul_of_nonneg_left _ hM0
    rw [hd1, neg_sq, ← sq_abs]
    exact pow_le_pow_left₀ (abs_nonneg _) hst1 2
  have hc1 := (arctan_region hz1T).2
  have hst2 : |refzStep zu a b z1| ≤ s2 := by
    rw [refzStep_eq zu a b hc1.ne']
    exact hdiv _ _ _ hz1T (hres1.trans hs2) h0'
  set z2 := z1 - refzStep zu a b z1 with hz2
  have hd2 : z2 - z1 = -refzStep zu a b z1 := by rw [hz2]; ring
  have hz2T : |z2| ≤ arctan T := by
    have h1 : |z2| ≤ |z1| + |refzStep zu a b z1| := by rw [hz2]; exact abs_sub _ _
    have h2 : |z1| ≤ |zu| + |refzStep zu a b zu| := by rw [hz1]; exact abs_sub _ _
    linarith
  refine ⟨by rw [hd1, abs_neg]; exact hst1, by rw [hd2, abs_neg]; exact hst2, hz2T, ?_⟩
  refine (newton_residual hz1T hz2T hM0 hMl (lt_of_lt_of_le hq0 (hDpos z1 hz1T)).ne' (by rw [hz2, refzStep_eq zu a b hc1.ne'])).trans ?_
  apply mul_le_mul_of_nonneg_left _ hM0
  rw [hd2, neg_sq, ← sq_abs]
  exact pow_le_pow_left₀ (abs_nonneg _) hst2 2

theorem arctan_ge {c u : ℝ} (h0 : 0 ≤ c) (h1 : c < 1) (h : c ≤ u * (1 - c ^ 2 / 2)) : c ≤ arctan u := by
  have hc : 0 < 1 - c ^ 2 / 2 := by nlinarith
  have hp := pi_gt_three
  have hcos : 1 - c ^ 2 / 2 ≤ cos c := one_sub_sq_div_two_le_cos
  have ht : tan c ≤ u := by
    rw [tan_eq_sin_div_cos, div_le_iff₀ (by linarith)]
    have hu : 0 ≤ u := by by_contra hn; push Not at hn; nlinarith
    have := sin_le h0
    nlinarith
  calc c = arctan (tan c) := (arctan_tan (by linarith) (by linarith)).symm
    _ ≤ arctan u := arctan_strictMono.monotone ht

theorem arctan_sep {T0 T u c : ℝ} (hc0 : 0 ≤ c) (hc1 : c < 1) (hcu : c ≤ u * (1 - c ^ 2 / 2)) (h1 : T0 * u < 1) (h : T0 + u ≤ T * (1 - T0 * u)) :
    arctan T0 + c ≤ arctan T := by
  have h2 := arctan_ge hc0 hc1 hcu
  have h3 : arctan T0 + arctan u = arctan ((T0 + u) / (1 - T0 * u)) := Real.arctan_add h1
  have h4 : arctan ((T0 + u) / (1 - T0 * u)) ≤ arctan T := by
    apply arctan_strictMono.monotone
    rw [div_le_iff₀ (by linarith)]
    exact h
  linarith

theorem unrefractD_near {T a b x : ℝ} (ha : 0 ≤ a) (hx : |x| ≤ arctan T) : |unrefractD a b x - 1| ≤ (a + 3 * |b| * T ^ 2) * (1 + T ^ 2) := by
  have ht := (arctan_region hx).1
  have h2 : tan x ^ 2 ≤ T ^ 2 := by rw [← sq_abs]; exact pow_le_pow_left₀ (abs_nonneg _) ht 2
  unfold unrefractD
  rw [add_sub_cancel_left, abs_mul, abs_of_nonneg (show 0 ≤ 1 + tan x ^ 2 by positivity)]
  apply mul_le_mul _ (by linarith) (by positivity) (by positivity)
  refine (abs_add_le _ _).trans ?_
  rw [abs_of_nonneg ha, abs_mul, abs_mul, abs_of_pos (show (0 : ℝ) < 3 by norm_num), abs_of_nonneg (sq_nonneg (tan x))]
  have := mul_le_mul_of_nonneg_left h2 (show 0 ≤ 3 * |b| by positivity)
  linarith

theorem arctan_83 : 83 * (π / 180) ≤ arctan 8.2 := by
  have h := Real.arctan_inv_of_pos (x := 8.2) (by norm_num)
  have h2 : arctan (8.2⁻¹ : ℝ) ≤ 8.2⁻¹ := by
    have hp : (0 : ℝ) ≤ arctan (8.2⁻¹) := arctan_nonneg.2 (by norm_num)
    have := Real.le_tan hp (arctan_lt_pi_div_two _)
    rwa [Real.tan_arctan] at this
  have hp := pi_gt_d4
  norm_num at *
  linarith

theorem arctan_4_83 : arctan 4 ≤ 83 * (π / 180) := by
  have h := Real.arctan_inv_of_pos (x := 4) (by norm_num)
  have h2 : (0.2 : ℝ) ≤ arctan (4⁻¹) := arctan_ge (by norm_num) (by norm_num) (by norm_num)
  have hp := pi_lt_d4
  norm_num at *
  linarith

end Pal
