import Verif.Lemmas.Refz
import Verif.Spec.Sphere

/-!
# Property C54: applying refraction (palRefz and palRefv)
-/

namespace Pal.Props
open Pal Pal.Spec Real

/-! ## palRefz -/

/-- **C54** With both constants zero palRefz does not change the zenith distance. -/
theorem C54_no_atmosphere (zu : ℝ) : palRefz zu 0 0 = zu := by
  unfold palRefz refzStep
  dsimp only
  norm_num

/-- **C54** Beyond 93 degrees the refraction is held at its 93 degree value. -/
theorem C54_held_beyond_93 (zu a b : ℝ) (h : 93 * (π / 180) ≤ zu) :
    zu - palRefz zu a b = 93 * (π / 180) - palRefz (93 * (π / 180)) a b := by
  have hp := pi_pos
  have e1 : min zu (83 * (π / 180)) = 83 * (π / 180) := min_eq_right (by linarith)
  have e2 : min (93 * (π / 180)) (83 * (π / 180)) = 83 * (π / 180) := min_eq_right (by linarith)
  have e3 : min 93 (zu * (180 / π)) = 93 := by
    apply min_eq_left
    rw [← mul_div_assoc, le_div_iff₀ hp]; linarith
  have e4 : min 93 (93 * (π / 180) * (180 / π)) = 93 := by
    apply min_eq_left
    apply le_of_eq
    field_simp
  unfold palRefz
  dsimp only
  rw [e1, e2, e3, e4, if_pos (show zu > 83 * (π / 180) by linarith), if_pos (show 93 * (π / 180) > 83 * (π / 180) by linarith)]
  ring

/-- The number of radians of refraction at a zenith distance up to 83 degrees. -/
noncomputable def lowRefr (a b zu : ℝ) : ℝ := zu - (zu - refzStep zu a b zu - refzStep zu a b (zu - refzStep zu a b zu))

theorem refz_low {zu a b : ℝ} (h : zu ≤ 83 * (π / 180)) :
    palRefz zu a b = zu - refzStep zu a b zu - refzStep zu a b (zu - refzStep zu a b zu) := by
  unfold palRefz
  dsimp only
  rw [min_eq_left h, if_neg (lt_irrefl zu)]
  ring

theorem refz_whole (zu a b : ℝ) : palRefz zu a b =
    zu - lowRefr a b (min zu (83 * (π / 180))) / refzHigh 7 * refzHigh (90 - min 93 (max zu (83 * (π / 180)) * (180 / π))) := by
  have hp := pi_pos
  rcases le_or_gt zu (83 * (π / 180)) with h | h
  · rw [refz_low h, max_eq_right h, min_eq_left h]
    have : min 93 (83 * (π / 180) * (180 / π)) = 83 := by
      have : 83 * (π / 180) * (180 / π) = 83 := by field_simp
      rw [this]; norm_num
    rw [this, show (90 : ℝ) - 83 = 7 by norm_num]
    have h7 : refzHigh 7 ≠ 0 := by unfold refzHigh; norm_num
    rw [div_mul_cancel₀ _ h7]
    unfold lowRefr
    ring
  · unfold palRefz lowRefr
    dsimp only
    rw [max_eq_left h.le, min_eq_right h.le, if_pos h]
    unfold refzHigh
    ring

/-- Bounds for the constants: 0 ≤ A ≤ 4e-4 rad (83 arcsec) and |B| ≤ 1e-6 rad (0.2 arcsec); the values for a real atmosphere at sea level are about 2.9e-4 and -3e-7. -/
structure RealisticConstants (a b : ℝ) : Prop where
  a_nonneg : 0 ≤ a
  a_le : a ≤ 4e-4
  b_abs : |b| ≤ 1e-6

theorem sep83 : arctan 8.2 + 0.0045 ≤ arctan 8.6 := by
  apply arctan_sep (u := 0.0046) <;> norm_num

theorem sep4 : arctan 4 + 0.0045 ≤ arctan 4.1 := by
  apply arctan_sep (u := 0.0046) <;> norm_num

theorem near83 {a b : ℝ} (h : RealisticConstants a b) (x : ℝ) (hx : |x| ≤ arctan 8.6) : |unrefractD a b x - 1| ≤ 0.0467 := by
  refine (unrefractD_near h.a_nonneg hx).trans ?_
  have h1 := h.a_le
  have h2 := h.b_abs
  norm_num at *
  linarith

theorem near4 {a b : ℝ} (h : RealisticConstants a b) (x : ℝ) (hx : |x| ≤ arctan 4.1) : |unrefractD a b x - 1| ≤ 0.0081 := by
  refine (unrefractD_near h.a_nonneg hx).trans ?_
  have h1 := h.a_le
  have h2 := h.b_abs
  norm_num at *
  linarith

theorem step_bound {a b T s : ℝ} (h : RealisticConstants a b) (hs : 4e-4 * T + 1e-6 * T ^ 3 ≤ s) (t : ℝ) (ht : |t| ≤ T) : |a * t + b * t ^ 3| ≤ s := by
  refine (abs_add_le _ _).trans ?_
  rw [abs_mul, abs_mul, abs_pow, abs_of_nonneg h.a_nonneg]
  have h1 : a * |t| ≤ 4e-4 * T := mul_le_mul h.a_le ht (abs_nonneg _) (by norm_num)
  have h2 : |b| * |t| ^ 3 ≤ 1e-6 * T ^ 3 := mul_le_mul h.b_abs (pow_le_pow_left₀ (abs_nonneg _) ht 3) (by positivity) (by norm_num)
  linarith

theorem a3b {a b : ℝ} (h : RealisticConstants a b) : |a + 3 * b| ≤ 4.03e-4 := by
  have h1 := h.a_nonneg
  have h2 := h.a_le
  have h3 := abs_le.1 h.b_abs
  rw [abs_le]
  constructor <;> norm_num at * <;> linarith [h3.1, h3.2]

theorem newton83 {a b zu : ℝ} (h : RealisticConstants a b) (hz : |zu| ≤ arctan 8.2) :
    let z1 := zu - refzStep zu a b zu
    let z2 := z1 - refzStep zu a b z1
    |z1 - zu| ≤ 0.00403 ∧ |z2 - z1| ≤ 1.9e-5 ∧ |z2| ≤ arctan 8.6 ∧ |unrefract a b z2 - zu| ≤ 1.092 * 1.9e-5 ^ 2 := by
  have h3 := a3b h
  have hb := h.b_abs
  refine newton_two (T := 8.6) (T0 := 8.2) (q := 0.0467) (M := 1.092) (s1 := 0.00403) (s2 := 1.9e-5) (by norm_num) (by norm_num) (near83 h) (by norm_num) ?_ hz ?_
    (by norm_num) (by norm_num) (step_bound h (by norm_num)) (by norm_num)
  · norm_num at *; linarith
  · have := sep83; norm_num at *; linarith

theorem newton4 {a b zu : ℝ} (h : RealisticConstants a b) (hz : |zu| ≤ arctan 4) :
    let z1 := zu - refzStep zu a b zu
    let z2 := z1 - refzStep zu a b z1
    |z1 - zu| ≤ 0.00168 ∧ |z2 - z1| ≤ 2.11e-7 ∧ |z2| ≤ arctan 4.1 ∧ |unrefract a b z2 - zu| ≤ 0.0737 * 2.11e-7 ^ 2 := by
  have h3 := a3b h
  have hb := h.b_abs
  refine newton_two (T := 4.1) (T0 := 4) (q := 0.0081) (M := 0.0737) (s1 := 0.00168) (s2 := 2.11e-7) (by norm_num) (by norm_num) (near4 h) (by norm_num) ?_ hz ?_
    (by norm_num) (by norm_num) (step_bound h (by norm_num)) (by norm_num)
  · norm_num at *; linarith
  · have := sep4; norm_num at *; linarith

/-- **C54** palRefz inverts the A tan z + B tan³ z model: for every zenith distance up to 83 degrees, removing the modelled refraction from the answer gives back
the argument to within 4e-10 rad (0.0001 arcsec); up to arctan 4 (76 degrees), within 4e-15 rad. -/
theorem C54_inverts_model {a b zu : ℝ} (h : RealisticConstants a b) :
    (|zu| ≤ 83 * (π / 180) → |unrefract a b (palRefz zu a b) - zu| ≤ 4e-10) ∧
    (|zu| ≤ arctan 4 → |unrefract a b (palRefz zu a b) - zu| ≤ 4e-15) := by
  constructor
  · intro hz
    rw [refz_low ((le_abs_self zu).trans hz)]
    exact (newton83 h (hz.trans arctan_83)).2.2.2.trans (by norm_num)
  · intro hz
    rw [refz_low ((le_abs_self zu).trans (hz.trans arctan_4_83))]
    exact (newton4 h hz).2.2.2.trans (by norm_num)

theorem unrefract_expand {a b x y : ℝ} (h : RealisticConstants a b) (hx : |x| ≤ arctan 8.6) (hy : |y| ≤ arctan 8.6) :
    0.95 * |y - x| ≤ |unrefract a b y - unrefract a b x| := by
  have := Convex.norm_image_sub_le_of_norm_hasDerivWithin_le (f := fun x => unrefract a b x - x) (f' := fun x => unrefractD a b x - 1)
    (C := 0.0467) (s := Set.Icc (-arctan 8.6) (arctan 8.6)) (x := x) (y := y) (fun z hz => by
      have h1 := (arctan_region (abs_le.2 hz)).2
      exact ((unrefract_deriv a b h1.ne').sub (hasDerivAt_id z)).hasDerivWithinAt) (fun z hz => near83 h z (abs_le.2 hz)) (convex_Icc _ _) (abs_le.1 hx) (abs_le.1 hy)
  rw [Real.norm_eq_abs, Real.norm_eq_abs] at this
  have h2 : |y - x| ≤ |unrefract a b y - unrefract a b x| + |unrefract a b y - y - (unrefract a b x - x)| := by
    have := abs_sub (unrefract a b y - unrefract a b x) (unrefract a b y - y - (unrefract a b x - x))
    rwa [show unrefract a b y - unrefract a b x - (unrefract a b y - y - (unrefract a b x - x)) = y - x by ring] at this
  norm_num at *
  linarith [abs_nonneg (y - x)]

/-- **C54** Conversely palRefz recovers an observed zenith distance z (up to 83 degrees) from the zenith distance that the model assigns to it in vacuo, to 5e-10 rad. -/
theorem C54_recovers {a b z : ℝ} (h : RealisticConstants a b) (hz : |z| ≤ arctan 8.6) (hu : |unrefract a b z| ≤ 83 * (π / 180)) :
    |palRefz (unrefract a b z) a b - z| ≤ 5e-10 := by
  have h1 := (C54_inverts_model (zu := unrefract a b z) h).1 hu
  have h2 : |palRefz (unrefract a b z) a b| ≤ arctan 8.6 := by
    rw [refz_low ((le_abs_self _).trans hu)]
    exact (newton83 h (hu.trans arctan_83)).2.2.1
  have h3 := unrefract_expand h hz h2
  norm_num at *
  linarith

/-- A step of the Newton iteration of palRefz is continuous as long as the divisions are defined. -/
theorem step_continuousWithin {a b : ℝ} {s : Set ℝ} {f : ℝ → ℝ} {x : ℝ} (hf : ContinuousWithinAt f s x) (hc : cos (f x) ≠ 0) (hD : unrefractD a b (f x) ≠ 0) :
    ContinuousWithinAt (fun zu => refzStep zu a b (f zu)) s x := by
  have hcf : ContinuousWithinAt (fun y => cos (f y)) s x := continuous_cos.continuousAt.comp_continuousWithinAt hf
  have hsf : ContinuousWithinAt (fun y => sin (f y)) s x := continuous_sin.continuousAt.comp_continuousWithinAt hf
  have ht : ContinuousWithinAt (fun y => sin (f y) / cos (f y)) s x := hsf.div hcf hc
  unfold refzStep
  refine ContinuousWithinAt.div ?_ ?_ ?_
  · exact ((hf.sub continuousWithinAt_id).add (ht.const_smul a)).add ((ht.mul (ht.mul ht)).const_smul b)
  · exact continuousWithinAt_const.add ((continuousWithinAt_const.add ((ht.mul ht).const_smul (3 * b))).div (hcf.mul hcf) (mul_ne_zero hc hc))
  · have e1 : (a + 3 * b * (sin (f x) / cos (f x) * (sin (f x) / cos (f x)))) / (cos (f x) * cos (f x)) = (a + 3 * b * tan (f x) ^ 2) * (1 + tan (f x) ^ 2) := by
      rw [← inv_cos_sq hc, tan_eq_sin_div_cos]; field_simp
    rw [e1]
    exact hD

/-- **C54** There is no glitch: palRefz is a continuous function of the zenith distance from -83 degrees upwards, in particular where the empirical formula
takes over at 83 degrees and where the refraction is frozen at 93 degrees. -/
theorem C54_continuous {a b : ℝ} (h : RealisticConstants a b) : ContinuousOn (fun zu => palRefz zu a b) (Set.Ici (-(83 * (π / 180)))) := by
  have hp := pi_pos
  have hlow : ContinuousOn (lowRefr a b) (Set.Icc (-(83 * (π / 180))) (83 * (π / 180))) := by
    intro x hx
    have hx' : |x| ≤ arctan 8.2 := (abs_le.2 hx).trans arctan_83
    have hn := newton83 h hx'
    dsimp only at hn
    have hxT : |x| ≤ arctan 8.6 := hx'.trans (by linarith [sep83])
    have hz1 : |x - refzStep x a b x| ≤ arctan 8.6 := by
      have h1 := abs_add_le x (x - refzStep x a b x - x)
      rw [show x + (x - refzStep x a b x - x) = x - refzStep x a b x by ring] at h1
      have h2 := hn.1
      have h3 := sep83
      norm_num at *
      linarith
    have pos : ∀ y, |y| ≤ arctan 8.6 → unrefractD a b y ≠ 0 := by
      intro y hy h0
      have := near83 h y hy
      rw [h0] at this
      norm_num at this
    have c1 := step_continuousWithin (a := a) (b := b) (s := Set.Icc (-(83 * (π / 180))) (83 * (π / 180))) (f := fun x => x) (x := x) continuousWithinAt_id
      (arctan_region hxT).2.ne' (pos _ hxT)
    have c2 : ContinuousWithinAt (fun x => x - refzStep x a b x) (Set.Icc (-(83 * (π / 180))) (83 * (π / 180))) x := continuousWithinAt_id.sub c1
    have c3 := step_continuousWithin (a := a) (b := b) c2 (arctan_region hz1).2.ne' (pos _ hz1)
    exact continuousWithinAt_id.sub (c2.sub c3)
  have hhigh : Continuous refzHigh := by
    unfold refzHigh
    refine Continuous.div (by fun_prop) (by fun_prop) fun e => ?_
    nlinarith [sq_nonneg (e + 5.938)]
  have e : (fun zu => palRefz zu a b) = fun zu => zu - lowRefr a b (min zu (83 * (π / 180))) / refzHigh 7 * refzHigh (90 - min 93 (max zu (83 * (π / 180)) * (180 / π))) :=
    funext fun zu => refz_whole zu a b
  rw [e]
  refine continuousOn_id.sub (ContinuousOn.mul (ContinuousOn.div_const ?_ _) ?_)
  · refine hlow.comp (continuous_id.min continuous_const).continuousOn fun x hx => ?_
    exact ⟨le_min hx (by linarith), min_le_right _ _⟩
  · apply Continuous.continuousOn
    exact hhigh.comp (continuous_const.sub (continuous_const.min ((continuous_id.max continuous_const).mul continuous_const)))

example : RealisticConstants 2.9e-4 (-3e-7) := ⟨by norm_num, by norm_num, by norm_num⟩

/-- Lower bound for the residual left by a Newton step of z + A tan z. -/
theorem newton_residual_lower {a t h x zu : ℝ} (ha : 0 < a) (ht5 : 5 ≤ t) (ht6 : t ≤ 6) (hh : 0 ≤ h) (hh1 : h ≤ 0.01) (hx : tan x = t) (hc : 0 < cos x) (hc' : 0 < cos (x - h))
    (hstep : h * unrefractD a 0 x = unrefract a 0 x - zu) : 0.9 * a * t * (1 + t ^ 2) * h ^ 2 ≤ unrefract a 0 (x - h) - zu := by
  have hp := pi_gt_three
  have hcosh : 0 < cos h := cos_pos_of_mem_Ioo ⟨by linarith, by linarith⟩
  have hτ1 : h ≤ tan h := le_tan hh (by linarith)
  have hτ2 : tan h ≤ h * (1 + h ^ 2) := by
    have hcc : 1 - h ^ 2 / 2 ≤ cos h := one_sub_sq_div_two_le_cos
    rw [tan_eq_sin_div_cos, div_le_iff₀ hcosh]
    have hs := sin_le hh
    have h2 : h ^ 2 ≤ 1e-4 := by nlinarith
    have : 1 ≤ (1 + h ^ 2) * cos h := by nlinarith [sq_nonneg h]
    nlinarith
  have htan : tan (x - h) * (1 + t * tan h) = t - tan h := by
    rw [← hx, tan_eq_sin_div_cos, tan_eq_sin_div_cos, tan_eq_sin_div_cos]
    rw [sin_sub]
    have : cos (x - h) = cos x * cos h + sin x * sin h := cos_sub x h
    have hne : cos x * cos h + sin x * sin h ≠ 0 := by rw [← this]; exact hc'.ne'
    rw [this]
    field_simp
    rw [mul_div_assoc, div_self (by rw [mul_comm (cos h)]; exact hne), mul_one]
  unfold unrefractD at hstep
  unfold unrefract at hstep ⊢
  rw [hx] at hstep
  generalize tan h = τ at *
  generalize tan (x - h) = w at *
  have hd : 0 < 1 + t * τ := by nlinarith
  have hw : w = t - τ * (1 + t ^ 2) / (1 + t * τ) := by
    field_simp
    linarith
  have hk : τ / (1 + t * τ) ≤ h - 0.9 * t * h ^ 2 := by
    have hk1 : τ / (1 + t * τ) ≤ h * (1 + h ^ 2) / (1 + t * h) := by
      rw [div_le_div_iff₀ hd (by nlinarith)]
      have h1 : 0 ≤ h * (1 + h ^ 2) := by positivity
      have h2 : τ * (t * h) ≤ (h * (1 + h ^ 2)) * (t * τ) := by
        have : h ≤ h * (1 + h ^ 2) := by nlinarith [pow_nonneg hh 3]
        have h3 : 0 ≤ t * τ := by nlinarith
        nlinarith
      nlinarith
    refine hk1.trans ?_
    rw [div_le_iff₀ (by nlinarith)]
    have : h * (1 + 0.9 * t ^ 2) ≤ 0.1 * t := by nlinarith
    have h2 : 0 ≤ h ^ 2 := sq_nonneg h
    nlinarith
  have hmain : 0 ≤ h * (1 + t ^ 2) - (t - w) - 0.9 * t * (1 + t ^ 2) * h ^ 2 := by
    rw [hw]
    have e : τ * (1 + t ^ 2) / (1 + t * τ) = (1 + t ^ 2) * (τ / (1 + t * τ)) := by ring
    rw [e]
    have : (1 + t ^ 2) * (τ / (1 + t * τ)) ≤ (1 + t ^ 2) * (h - 0.9 * t * h ^ 2) := mul_le_mul_of_nonneg_left hk (by positivity)
    nlinarith
  have := mul_nonneg ha.le hmain
  nlinarith

/-- One arcsecond in radians. -/
noncomputable def arcsec : ℝ := π / 648000

/-- **C54** (negation of a documented figure) The prologue says the two Newton iterations agree with the refracted-to-unrefracted model "at the 1D-11 arcseconds level for a
ZD of 80 degrees".  For the typical sea-level constant A = 2.9e-4 the disagreement at 80 degrees, with exact arithmetic, is more than three times that. -/
theorem C54_documented_agreement_false :
    3 * (1e-11 * arcsec) < |unrefract 2.9e-4 0 (palRefz (80 * (π / 180)) 2.9e-4 0) - 80 * (π / 180)| := by
  have hp1 := pi_gt_d4
  have hp2 := pi_lt_d4
  have hat5 : arctan 5 ≤ π / 2 - 0.196 := by
    have h := Real.arctan_inv_of_pos (x := 5) (by norm_num)
    have h2 : (0.196 : ℝ) ≤ arctan (5⁻¹) := arctan_ge (by norm_num) (by norm_num) (by norm_num)
    linarith
  have htlow : ∀ x, π / 2 - 0.196 ≤ x → x ≤ 80 * (π / 180) → 5 ≤ tan x ∧ tan x ≤ 6 ∧ 0 < cos x := by
    intro x h1 h2
    have hx0 : 0 < x := by linarith
    have hx2 : x < π / 2 := by linarith
    refine ⟨?_, ?_, cos_pos_of_mem_Ioo ⟨by linarith, hx2⟩⟩
    · rw [← Real.tan_arctan 5]
      exact Real.strictMonoOn_tan.monotoneOn ⟨neg_pi_div_two_lt_arctan _, arctan_lt_pi_div_two _⟩ ⟨by linarith, hx2⟩ (by linarith)
    · have h3 : π / 2 - x ≤ tan (π / 2 - x) := le_tan (by linarith) (by linarith)
      rw [tan_pi_div_two_sub] at h3
      have hpos := tan_pos_of_pos_of_lt_pi_div_two hx0 hx2
      have h4 : (π / 2 - x) * tan x ≤ 1 := by
        have := mul_le_mul_of_nonneg_right h3 hpos.le
        rwa [inv_mul_cancel₀ hpos.ne'] at this
      have h5 : 0.174 ≤ π / 2 - x := by norm_num at *; linarith
      by_contra h6
      push Not at h6
      nlinarith
  set zu : ℝ := 80 * (π / 180) with hzu
  rw [refz_low (by rw [hzu]; linarith)]
  set a : ℝ := 2.9e-4 with ha
  have ha0 : 0 < a := by rw [ha]; norm_num
  obtain ⟨t5, t6, hc⟩ := htlow zu (by rw [hzu]; linarith) le_rfl
  set h1 := refzStep zu a 0 zu with hh1
  have D0 : ∀ x, unrefractD a 0 x = 1 + a * (1 + tan x ^ 2) := fun x => by unfold unrefractD; ring
  have e1 : h1 * unrefractD a 0 zu = unrefract a 0 zu - zu := by
    rw [hh1, refzStep_eq _ _ _ hc.ne', div_mul_cancel₀]
    rw [D0]; positivity
  have e1' : h1 * (1 + a * (1 + tan zu ^ 2)) = a * tan zu := by
    rw [← D0, e1]; unfold unrefract; ring
  have h1lo : 1.43e-3 ≤ h1 := by
    have hD : 1 + a * (1 + tan zu ^ 2) ≤ 1.0108 := by rw [ha]; nlinarith
    have hD1 : 1 ≤ 1 + a * (1 + tan zu ^ 2) := by nlinarith [sq_nonneg (tan zu)]
    by_contra hn
    push Not at hn
    have hpos : 0 < a * tan zu := by positivity
    have : h1 * (1 + a * (1 + tan zu ^ 2)) ≤ 1.43e-3 * 1.0108 := by
      have h0 : 0 ≤ h1 := by
        by_contra h0
        push Not at h0
        nlinarith
      nlinarith
    rw [e1', ha] at this
    nlinarith
  have h1hi : h1 ≤ 0.01 := by
    have hD1 : 1 ≤ 1 + a * (1 + tan zu ^ 2) := by nlinarith [sq_nonneg (tan zu)]
    have : h1 ≤ a * tan zu := by rw [← e1']; nlinarith
    rw [ha] at this
    nlinarith
  obtain ⟨t5', t6', hc'⟩ := htlow (zu - h1) (by rw [hzu]; linarith) (by linarith)
  have r1 := newton_residual_lower ha0 t5 t6 (by linarith) h1hi rfl hc hc' e1
  set h2 := refzStep zu a 0 (zu - h1) with hh2
  have e2 : h2 * unrefractD a 0 (zu - h1) = unrefract a 0 (zu - h1) - zu := by
    rw [hh2, refzStep_eq _ _ _ hc'.ne', div_mul_cancel₀]
    rw [D0]; positivity
  have hpoly : ∀ t : ℝ, 5 ≤ t → 130 ≤ t * (1 + t ^ 2) := fun t ht => by nlinarith
  have r1' : 6.93e-8 ≤ unrefract a 0 (zu - h1) - zu := by
    refine le_trans ?_ r1
    have hq := hpoly _ t5
    have hs : 1.43e-3 ^ 2 ≤ h1 ^ 2 := pow_le_pow_left₀ (by norm_num) h1lo 2
    have : 0.9 * a * tan zu * (1 + tan zu ^ 2) * h1 ^ 2 = 0.9 * a * ((tan zu * (1 + tan zu ^ 2)) * h1 ^ 2) := by ring
    rw [this]
    have h3 : 130 * 1.43e-3 ^ 2 ≤ (tan zu * (1 + tan zu ^ 2)) * h1 ^ 2 := mul_le_mul hq hs (by positivity) (by linarith)
    rw [ha]
    norm_num at *
    linarith
  have hDb : unrefractD a 0 (zu - h1) ≤ 1.0108 ∧ 1 ≤ unrefractD a 0 (zu - h1) := by
    rw [D0]
    constructor
    · rw [ha]; nlinarith
    · nlinarith [sq_nonneg (tan (zu - h1))]
  have h2lo : 6.85e-8 ≤ h2 := by
    rw [← e2] at r1'
    by_contra hn
    push Not at hn
    have hDb1 := hDb.1
    have hDb2 := hDb.2
    clear_value h2
    generalize unrefractD a 0 (zu - h1) = D at *
    rcases le_or_gt 0 h2 with h0 | h0
    · have : h2 * D ≤ 6.85e-8 * 1.0108 := mul_le_mul hn.le hDb1 (by linarith) (by norm_num)
      norm_num at *; linarith
    · have : h2 * D ≤ 0 := mul_nonpos_of_nonpos_of_nonneg h0.le (by linarith)
      norm_num at *; linarith
  have h2hi : h2 ≤ 0.01 := by
    have h20 : 0 ≤ h2 := le_trans (by norm_num) h2lo
    have h2le : h2 ≤ unrefract a 0 (zu - h1) - zu := by rw [← e2]; exact le_mul_of_one_le_right h20 hDb.2
    have hu : unrefract a 0 (zu - h1) - zu = -h1 + a * tan (zu - h1) := by unfold unrefract; ring
    have hat : a * tan (zu - h1) ≤ a * 6 := mul_le_mul_of_nonneg_left t6' ha0.le
    have ha6 : a * 6 ≤ 0.01 := by rw [ha]; norm_num
    have h10 : 0 ≤ h1 := le_trans (by norm_num) h1lo
    calc h2 ≤ -h1 + a * tan (zu - h1) := h2le.trans_eq hu
      _ ≤ 0 + a * 6 := add_le_add (by linarith) hat
      _ ≤ 0.01 := by rw [zero_add]; exact ha6
  obtain ⟨t5'', t6'', hc''⟩ := htlow (zu - h1 - h2) (by rw [hzu]; linarith) (by linarith)
  have r2 := newton_residual_lower ha0 t5' t6' (by linarith) h2hi rfl hc' hc'' e2
  refine lt_of_lt_of_le ?_ (le_abs_self _)
  refine lt_of_lt_of_le ?_ r2
  have hq := hpoly _ t5'
  have hs : 6.85e-8 ^ 2 ≤ h2 ^ 2 := pow_le_pow_left₀ (by norm_num) h2lo 2
  have : 0.9 * a * tan (zu - h1) * (1 + tan (zu - h1) ^ 2) * h2 ^ 2 = 0.9 * a * ((tan (zu - h1) * (1 + tan (zu - h1) ^ 2)) * h2 ^ 2) := by ring
  rw [this]
  have h3 : 130 * 6.85e-8 ^ 2 ≤ (tan (zu - h1) * (1 + tan (zu - h1) ^ 2)) * h2 ^ 2 := mul_le_mul hq hs (by positivity) (by linarith)
  unfold arcsec
  rw [ha]
  norm_num at *
  linarith

/-! ## palRefv -/

/-- The unit vector with a given zenith distance and (east of x) azimuthal angle. -/
noncomputable def zenithDir (phi z : ℝ) : Fin 3 → ℝ := ![sin z * cos phi, sin z * sin phi, cos z]

/-- **C54** For a unit vector with zenith distance z, cos z ≥ 0.05 (elevation above 2.9 degrees), palRefv reduces the zenith distance by arctan d, where d is the first Newton
correction that palRefz makes, leaves the azimuth alone and scales the length by (1 - d²/2) √(1 + d²). -/
theorem C54_refv (phi z a b : ℝ) (hz0 : 0 ≤ z) (hz1 : z ≤ π) (hc : 0.05 ≤ cos z) :
    let t := tan z
    let d := (a * t + b * t ^ 3) / (1 + (a + 3 * b * t ^ 2) * (1 + t ^ 2))
    palRefv (zenithDir phi z) a b = ((1 - d ^ 2 / 2) * √(1 + d ^ 2)) • zenithDir phi (z - arctan d) ∧ d = refzStep z a b z := by
  have hcpos : 0 < cos z := by linarith [show (0 : ℝ) < 0.05 by norm_num]
  have hs : 0 ≤ sin z := sin_nonneg_of_nonneg_of_le_pi hz0 hz1
  intro t d
  have hd : d = refzStep z a b z := by
    rw [refzStep_eq _ _ _ hcpos.ne']
    show (a * tan z + b * tan z ^ 3) / (1 + (a + 3 * b * tan z ^ 2) * (1 + tan z ^ 2)) = _
    unfold unrefract unrefractD
    congr 1
    ring
  refine ⟨?_, hd⟩
  have hrsq : sin z * cos phi * (sin z * cos phi) + sin z * sin phi * (sin z * sin phi) = sin z ^ 2 := by
    have := sin_sq_add_cos_sq phi
    linear_combination sin z ^ 2 * this
  have hr : √(sin z ^ 2) = sin z := sqrt_sq hs
  have hone : cos z * cos z + sin z ^ 2 = 1 := by have := sin_sq_add_cos_sq z; linarith
  have ht : sin z ^ 2 / (cos z * cos z) = t ^ 2 := by
    show _ = tan z ^ 2
    rw [tan_eq_sin_div_cos]; field_simp
  have hinv : 1 / (cos z * cos z) = 1 + t ^ 2 := by
    have := inv_cos_sq hcpos.ne'
    rw [← sq]; exact this
  set wt := (a + b * t ^ 2) / (1 + (a + 3 * b * t ^ 2) * (1 + t ^ 2)) with hwt
  have hdw : wt * t = d := by
    show _ = (a * t + b * t ^ 3) / (1 + (a + 3 * b * t ^ 2) * (1 + t ^ 2))
    rw [hwt]; ring
  have htc : t * cos z = sin z := tan_mul_cos hcpos.ne'
  have e1 : b * sin z ^ 2 / (cos z * cos z) = b * t ^ 2 := by rw [mul_div_assoc, ht]
  have e2 : (a + 3 * (b * t ^ 2)) * 1 / (cos z * cos z) = (a + 3 * b * t ^ 2) * (1 + t ^ 2) := by
    rw [mul_div_assoc, hinv]; ring
  have e3 : wt * sin z / cos z = d := by rw [← hdw, mul_div_assoc, ← tan_eq_sin_div_cos]
  have hmax : max (cos z) 0.05 = cos z := max_eq_left hc
  have hsa : √(1 + d ^ 2) * sin (z - arctan d) = sin z * (1 - wt) := by
    rw [sin_sub, cos_arctan, sin_arctan]
    have hp : (0 : ℝ) < √(1 + d ^ 2) := sqrt_pos.2 (by positivity)
    field_simp
    rw [← htc, ← hdw]; ring
  have hca : √(1 + d ^ 2) * cos (z - arctan d) = cos z + d * sin z := by
    rw [cos_sub, cos_arctan, sin_arctan]
    have hp : (0 : ℝ) < √(1 + d ^ 2) := sqrt_pos.2 (by positivity)
    field_simp
  have hleft : palRefv (zenithDir phi z) a b = ![sin z * cos phi * ((1 - d * d / 2) * (1 - wt)), sin z * sin phi * ((1 - d * d / 2) * (1 - wt)), (1 - d * d / 2) * (cos z + d * sin z) + (cos z - cos z)] := by
    have hwt' : (a + b * t ^ 2) / (1 + (a + 3 * b * t ^ 2) * (1 + t ^ 2)) = wt := rfl
    unfold palRefv zenithDir
    simp only [Matrix.cons_val_zero, Matrix.cons_val_one, Matrix.cons_val]
    rw [hmax, hrsq, hr, hone, e1, e2, hwt', e3]
  rw [hleft]
  unfold zenithDir
  funext i
  fin_cases i
  · show sin z * cos phi * ((1 - d * d / 2) * (1 - wt)) = (1 - d ^ 2 / 2) * √(1 + d ^ 2) * (sin (z - arctan d) * cos phi)
    linear_combination -(1 - d ^ 2 / 2) * cos phi * hsa
  · show sin z * sin phi * ((1 - d * d / 2) * (1 - wt)) = (1 - d ^ 2 / 2) * √(1 + d ^ 2) * (sin (z - arctan d) * sin phi)
    linear_combination -(1 - d ^ 2 / 2) * sin phi * hsa
  · show (1 - d * d / 2) * (cos z + d * sin z) + (cos z - cos z) = (1 - d ^ 2 / 2) * √(1 + d ^ 2) * cos (z - arctan d)
    linear_combination -(1 - d ^ 2 / 2) * hca

/-- **C54** palRefv never changes the azimuth: the horizontal part of the result is a positive multiple of the horizontal part of the argument, for every vector whose
horizontal part is not longer than 1 (whatever its vertical component), and a vertical vector is not refracted. -/
theorem C54_refv_azimuth (v : Fin 3 → ℝ) (a b : ℝ) (h : RealisticConstants a b) (hv : v 0 ^ 2 + v 1 ^ 2 ≤ 1) :
    ∃ f > 0, palRefv v a b 0 = f * v 0 ∧ palRefv v a b 1 = f * v 1 := by
  unfold palRefv
  have hz : (0.05 : ℝ) ≤ max (v 2) 0.05 := le_max_right _ _
  set z := max (v 2) 0.05 with hzdef
  clear_value z
  have hz' : (0 : ℝ) < z := by norm_num at *; linarith
  have hr0 : 0 ≤ v 0 * v 0 + v 1 * v 1 := add_nonneg (mul_self_nonneg _) (mul_self_nonneg _)
  set rsq := v 0 * v 0 + v 1 * v 1 with hrsq
  have hr1 : rsq ≤ 1 := by rw [hrsq]; nlinarith
  clear_value rsq
  set q := rsq / (z * z) with hq
  have hq0 : 0 ≤ q := by positivity
  have hq1 : q ≤ 400 := by
    rw [hq, div_le_iff₀ (by positivity)]
    norm_num at *
    nlinarith
  have ew : b * rsq / (z * z) = b * q := by rw [hq]; ring
  have eD : ∀ k, k * (z * z + rsq) / (z * z) = k * (1 + q) := by intro k; rw [hq]; field_simp
  rw [ew, eD]
  set wt := (a + b * q) / (1 + (a + 3 * (b * q)) * (1 + q)) with hwt
  have hb := abs_le.1 h.b_abs
  have ha := h.a_nonneg
  have ha2 := h.a_le
  have hbq1 : b * q ≤ 4e-4 := by norm_num at *; nlinarith [hb.2]
  have hbq2 : -4e-4 ≤ b * q := by norm_num at *; nlinarith [hb.1]
  have hD : 0.5 ≤ 1 + (a + 3 * (b * q)) * (1 + q) := by norm_num at *; nlinarith
  have hDp : 0 < 1 + (a + 3 * (b * q)) * (1 + q) := by linarith [show (0 : ℝ) < 0.5 by norm_num]
  have hw1 : |wt| ≤ 0.0016 := by
    rw [hwt, abs_div, abs_of_pos hDp, div_le_iff₀ hDp, abs_le]
    constructor <;> norm_num at * <;> nlinarith
  have hsr : √rsq / z ≤ 20 := by
    rw [div_le_iff₀ hz']
    have h1 : √rsq ≤ 1 := sqrt_le_one.2 hr1
    have h2 : (1 : ℝ) ≤ 20 * z := by
      have := mul_le_mul_of_nonneg_left hz (show (0 : ℝ) ≤ 20 by norm_num)
      norm_num at this
      linarith
    exact h1.trans h2
  have hsr0 : 0 ≤ √rsq / z := by positivity
  set d := wt * √rsq / z with hd
  have hd1 : |d| ≤ 0.04 := by
    rw [hd, mul_div_assoc, abs_mul, abs_of_nonneg hsr0]
    calc |wt| * (√rsq / z) ≤ 0.0016 * 20 := mul_le_mul hw1 hsr hsr0 (by norm_num)
      _ ≤ 0.04 := by norm_num
  refine ⟨(1 - d * d / 2) * (1 - wt), ?_, ?_, ?_⟩
  · have h1 := abs_le.1 hd1
    have h2 := abs_le.1 hw1
    apply mul_pos
    · norm_num at *; nlinarith
    · norm_num at *; linarith
  · show v 0 * _ = _
    ring
  · show v 1 * _ = _
    ring

/-- **C54** Below elevation 2.9 degrees (z component under 0.05) palRefv applies the displacement that belongs to z = 0.05 and the same horizontal part. -/
theorem C54_refv_low (x y z a b : ℝ) (h : z ≤ 0.05) : palRefv ![x, y, z] a b = palRefv ![x, y, 0.05] a b + ![0, 0, z - 0.05] := by
  unfold palRefv
  simp only [Matrix.cons_val_zero, Matrix.cons_val_one, Matrix.cons_val, max_self]
  rw [max_eq_right h]
  funext i
  fin_cases i <;> simp

/-- **C54** With both constants zero palRefv does nothing. -/
theorem C54_refv_no_atmosphere (v : Fin 3 → ℝ) : palRefv v 0 0 = v := by
  unfold palRefv
  funext i
  fin_cases i <;> simp

/-- The vector routine keeps lengths to the fourth power of the refraction. -/
theorem C54_refv_length (d : ℝ) (hd : |d| ≤ 1) : |((1 - d ^ 2 / 2) * √(1 + d ^ 2)) ^ 2 - 1| ≤ d ^ 4 := by
  have h1 : d ^ 2 ≤ 1 := by rw [← sq_abs]; exact pow_le_one₀ (abs_nonneg _) hd
  rw [mul_pow, sq_sqrt (by positivity), show (1 - d ^ 2 / 2) ^ 2 * (1 + d ^ 2) - 1 = -(d ^ 4 * (3 / 4 - d ^ 2 / 4)) by ring, abs_neg, abs_mul, abs_of_nonneg (by positivity)]
  have : |3 / 4 - d ^ 2 / 4| ≤ 1 := by rw [abs_le]; constructor <;> nlinarith [sq_nonneg d]
  calc d ^ 4 * |3 / 4 - d ^ 2 / 4| ≤ d ^ 4 * 1 := mul_le_mul_of_nonneg_left this (by positivity)
    _ = d ^ 4 := mul_one _

/-- A star at zenith distance 45 degrees meets the hypotheses of the palRefv theorems. -/
example : (0 : ℝ) ≤ π / 4 ∧ π / 4 ≤ π ∧ 0.05 ≤ cos (π / 4) := by
  have := pi_pos
  refine ⟨by linarith, by linarith, ?_⟩
  rw [cos_pi_div_four]
  have : (1 : ℝ) ≤ √2 := by rw [show (1 : ℝ) = √1 by simp]; exact sqrt_le_sqrt (by norm_num)
  norm_num
  linarith

end Pal.Props
