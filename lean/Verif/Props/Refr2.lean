import Verif.Props.Refr
import Mathlib.Analysis.SpecificLimits.Normed
import Mathlib.Analysis.SpecialFunctions.Complex.Arctan

/-!
# Properties C50, C55, C80: refraction constants, dispersion, and divisions by zero in palRefro
-/

namespace Pal.Props
open Pal Pal.Spec Real

/-! ## C50 -/

/-- **C50** palRefco always delivers constants A, B, and A tan z + B tan³ z with tan z = 1 and tan z = 4 equals the rigorous refraction at the two sample
zenith distances. -/
theorem C50_refco (hm tdk pmb rh wl phi tlr eps : ℝ) :
    ∃ r1 r4 a b, palRefro 0.7853981633974483 hm tdk pmb rh wl phi tlr eps = some r1 ∧ palRefro 1.325817663668033 hm tdk pmb rh wl phi tlr eps = some r4 ∧
      palRefco hm tdk pmb rh wl phi tlr eps = some (a, b) ∧ a * 1 + b * 1 ^ 3 = r1 ∧ a * 4 + b * 4 ^ 3 = r4 := by
  obtain ⟨r1, h1⟩ := C52_refro_terminates 0.7853981633974483 hm tdk pmb rh wl phi tlr eps
  obtain ⟨r4, h4⟩ := C52_refro_terminates 1.325817663668033 hm tdk pmb rh wl phi tlr eps
  refine ⟨r1, r4, (64 * r1 - r4) / 60, (r4 - 4 * r1) / 60, h1, h4, ?_, by ring, by ring⟩
  unfold palRefco
  rw [h1, h4]

theorem arctan_quarter : |arctan (1 / 4) - 0.24497866312686415417| < 1e-18 := by
  have hs := Real.hasSum_arctan (x := 1 / 4) (by rw [Real.norm_eq_abs, abs_of_pos] <;> norm_num)
  have ht := hs.tendsto_sum_nat
  have hanti : Antitone (fun n : ℕ => (1 / 4 : ℝ) ^ (2 * n + 1) / ((2 * n + 1 : ℕ) : ℝ)) := by
    apply antitone_nat_of_succ_le
    intro n
    apply div_le_div₀ (by positivity) _ (by positivity) (by push_cast; linarith)
    exact pow_le_pow_of_le_one (by norm_num) (by norm_num) (by omega)
  have ht' : Filter.Tendsto (fun n => ∑ i ∈ Finset.range n, (-1 : ℝ) ^ i * ((1 / 4 : ℝ) ^ (2 * i + 1) / ((2 * i + 1 : ℕ) : ℝ))) Filter.atTop (nhds (arctan (1 / 4))) := by
    refine ht.congr fun n => Finset.sum_congr rfl fun i _ => ?_
    rw [mul_div_assoc]
  have lo := hanti.alternating_series_le_tendsto ht' 7
  have hi := hanti.tendsto_le_alternating_series ht' 7
  simp only [Finset.sum_range_succ, Finset.sum_range_zero] at lo hi
  rw [abs_lt]
  constructor
  · norm_num at lo ⊢
    linarith
  · norm_num at hi ⊢
    linarith

/-- **C50** The sample zenith distances are arctan 1 and arctan 4 to better than 1e-15 radian. -/
theorem C50_sample_points : |(0.7853981633974483 : ℝ) - arctan 1| < 1e-15 ∧ |(1.325817663668033 : ℝ) - arctan 4| < 1e-15 := by
  have h4 : arctan 4 = π / 2 - arctan (1 / 4) := by
    have := Real.arctan_inv_of_pos (x := 4) (by norm_num)
    rw [show (1 / 4 : ℝ) = (4 : ℝ)⁻¹ by norm_num, this]; ring
  have hq := abs_lt.1 arctan_quarter
  have p1 := pi_gt_d20
  have p2 := pi_lt_d20
  rw [Real.arctan_one, h4]
  refine ⟨abs_lt.2 ⟨?_, ?_⟩, abs_lt.2 ⟨?_, ?_⟩⟩ <;> norm_num at * <;> linarith [hq.1, hq.2]

/-! ## C55: palAtmdsp -/

/-- **C55** (radio) If either wavelength exceeds 100 micrometres the coefficients are returned unchanged. -/
theorem C55_radio (tdk pmb rh wl1 a1 b1 wl2 : ℝ) (h : 100 < wl1 ∨ 100 < wl2) : palAtmdsp tdk pmb rh wl1 a1 b1 wl2 = (a1, b1) := by
  unfold palAtmdsp
  rw [if_pos h]

/-- **C55** (same wavelength) Going to the same wavelength changes nothing. -/
theorem C55_same (tdk pmb rh wl a1 b1 : ℝ) : palAtmdsp tdk pmb rh wl a1 b1 wl = (a1, b1) := by
  unfold palAtmdsp
  split_ifs with h1
  · rfl
  · dsimp only
    split_ifs with h2 h3
    · rw [div_self h2]; simp
    · rw [div_self h2]; simp
    · rfl

/-- **C55** (no air) Without pressure and humidity the coefficients are unchanged. -/
theorem C55_vacuum (tdk pmb rh wl1 a1 b1 wl2 : ℝ) (hp : pmb ≤ 0) (hr : rh ≤ 0) : palAtmdsp tdk pmb rh wl1 a1 b1 wl2 = (a1, b1) := by
  have h0 : min (max pmb 0) (10000 : ℝ) = 0 := by rw [max_eq_right hp]; exact min_eq_left (by norm_num)
  have h1 : min (max rh 0) (1 : ℝ) = 0 := by rw [max_eq_right hr]; exact min_eq_left (by norm_num)
  have hdn : atmdspDn tdk pmb rh wl1 = 0 := by unfold atmdspDn; simp [h0, h1]
  unfold palAtmdsp
  split_ifs with h1
  · rfl
  · simp [hdn]

/-- The refractivity of moist air: pressure p, water vapour pressure e, temperature t (IAG 1999 in the form quoted by palAtmdsp). -/
noncomputable def moistRefractivity (p e t wl : ℝ) : ℝ :=
  ((77.5317e-6 + 0.43909e-6 / wl ^ 2 + 0.00367e-6 / wl ^ 4) * p - 11.2684e-6 * e) / t

/-- **C55** (scaling) For optical wavelengths of at least 0.1 micrometre and meteorological values in range, A scales with the refractivity of moist air, and B with an
extra factor 1 + n₁(n₁−n₂)/(2(n₁−A)). -/
theorem C55_scaling (tdk pmb rh wl1 a1 b1 wl2 : ℝ) (ht : 100 ≤ tdk) (ht' : tdk ≤ 500) (hp : 0 ≤ pmb) (hp' : pmb ≤ 10000) (hr : 0 ≤ rh) (hr' : rh ≤ 1)
    (hw1 : 0.1 ≤ wl1) (hw1' : wl1 ≤ 100) (hw2 : 0.1 ≤ wl2) (hw2' : wl2 ≤ 100) :
    let e := rh * (10 : ℝ) ^ (-8.7115 + 0.03477 * tdk)
    let n1 := moistRefractivity pmb e tdk wl1
    let n2 := moistRefractivity pmb e tdk wl2
    n1 ≠ 0 → (palAtmdsp tdk pmb rh wl1 a1 b1 wl2).1 * n1 = a1 * n2 ∧
      (n1 ≠ a1 → (palAtmdsp tdk pmb rh wl1 a1 b1 wl2).2 * n1 * (2 * (n1 - a1)) = b1 * n2 * (2 * (n1 - a1) + n1 * (n1 - n2))) := by
  dsimp only
  have hdn : ∀ wl, 0.1 ≤ wl → atmdspDn tdk pmb rh wl = moistRefractivity pmb (rh * (10 : ℝ) ^ (-8.7115 + 0.03477 * tdk)) tdk wl := by
    intro wl hwl
    unfold atmdspDn moistRefractivity
    dsimp only
    rw [max_eq_left ht, min_eq_left ht', max_eq_left hp, min_eq_left hp', max_eq_left hr, min_eq_left hr', max_eq_left hwl]
    have hw0 : wl ≠ 0 := by intro h; rw [h] at hwl; norm_num at hwl
    have ht0 : tdk ≠ 0 := by linarith
    field_simp
    ring
  rw [← hdn wl1 hw1, ← hdn wl2 hw2]
  intro hn
  unfold palAtmdsp
  rw [if_neg (by rintro (h | h) <;> linarith)]
  dsimp only
  rw [if_pos hn]
  refine ⟨by field_simp, fun hne => ?_⟩
  rw [if_pos hne]
  have : atmdspDn tdk pmb rh wl1 - a1 ≠ 0 := sub_ne_zero.2 hne
  field_simp

example : let e := (0.5 : ℝ) * (10 : ℝ) ^ (-8.7115 + 0.03477 * 280 : ℝ)
    moistRefractivity 1000 e 280 0.5 ≠ 0 := by
  dsimp only
  have h : (10 : ℝ) ^ (-8.7115 + 0.03477 * 280 : ℝ) ≤ (10 : ℝ) ^ (2 : ℝ) := rpow_le_rpow_of_exponent_le (by norm_num) (by norm_num)
  rw [show ((2 : ℝ)) = ((2 : ℕ) : ℝ) by norm_num, rpow_natCast] at h
  norm_num at h
  unfold moistRefractivity
  apply ne_of_gt
  apply div_pos _ (by norm_num)
  norm_num at h ⊢
  linarith

theorem atmdspDn_anti (tdk pmb rh : ℝ) {w w' : ℝ} (h : w ≤ w') : atmdspDn tdk pmb rh w' ≤ atmdspDn tdk pmb rh w := by
  unfold atmdspDn
  dsimp only
  have ht : 0 < min (max tdk 100) (500 : ℝ) := lt_min (lt_max_of_lt_right (by norm_num)) (by norm_num)
  have hp : 0 ≤ min (max pmb 0) (10000 : ℝ) := le_min (le_max_right _ _) (by norm_num)
  have hm : max w 0.1 ≤ max w' 0.1 := max_le_max_right _ h
  have h0 : (0 : ℝ) < max w 0.1 := lt_max_of_lt_right (by norm_num)
  have hsq : max w 0.1 * max w 0.1 ≤ max w' 0.1 * max w' 0.1 := mul_self_le_mul_self h0.le hm
  have h00 : 0 < max w 0.1 * max w 0.1 := mul_pos h0 h0
  generalize max w 0.1 * max w 0.1 = s at *
  generalize max w' 0.1 * max w' 0.1 = s' at *
  have h1 : 0.00367e-6 / s' ≤ 0.00367e-6 / s := div_le_div_of_nonneg_left (by norm_num) h00 hsq
  have h2 : (0.43909e-6 + 0.00367e-6 / s') / s' ≤ (0.43909e-6 + 0.00367e-6 / s) / s := by
    apply div_le_div₀ _ _ h00 hsq
    · positivity
    · linarith
  gcongr

/-- **C55** (sense) The bluer the light, the larger the coefficient A: if the air refracts at the reference wavelength at all, going to a shorter wavelength does not
decrease a non-negative A. -/
theorem C55_bluer_is_larger (tdk pmb rh wl1 a1 b1 wl2 : ℝ) (hn : 0 < atmdspDn tdk pmb rh wl1) (ha : 0 ≤ a1) (hw : wl2 ≤ wl1) :
    a1 ≤ (palAtmdsp tdk pmb rh wl1 a1 b1 wl2).1 := by
  unfold palAtmdsp
  split_ifs with h1
  · exact le_refl _
  · dsimp only
    rw [if_pos hn.ne']
    have := atmdspDn_anti tdk pmb rh hw
    have h2 : 1 ≤ atmdspDn tdk pmb rh wl2 / atmdspDn tdk pmb rh wl1 := (one_le_div hn).2 this
    nlinarith

/-- **C55** (dry air satisfies the hypotheses) Dry air with positive pressure has positive refractivity at every wavelength. -/
theorem dry_dn_pos (tdk pmb rh wl : ℝ) (hp : 0 < pmb) (hr : rh ≤ 0) : 0 < atmdspDn tdk pmb rh wl := by
  have h1 : min (max rh 0) (1 : ℝ) = 0 := by rw [max_eq_right hr]; exact min_eq_left (by norm_num)
  have hp' : 0 < min (max pmb 0) (10000 : ℝ) := lt_min (lt_max_of_lt_left hp) (by norm_num)
  have ht : 0 < min (max tdk 100) (500 : ℝ) := lt_min (lt_max_of_lt_right (by norm_num)) (by norm_num)
  have h0 : (0 : ℝ) < max wl 0.1 := lt_max_of_lt_right (by norm_num)
  unfold atmdspDn
  dsimp only
  rw [h1, zero_mul, mul_zero, sub_zero]
  positivity

example : (0 : ℝ) < atmdspDn 280 700 0 0.4 := dry_dn_pos _ _ _ _ (by norm_num) le_rfl

/-- **C55** (transitivity) Going from one optical wavelength to another through a third gives the same A as going directly. -/
theorem C55_transitive (tdk pmb rh wl1 a1 b1 wl2 wl3 : ℝ) (h1 : wl1 ≤ 100) (h2 : wl2 ≤ 100) (h3 : wl3 ≤ 100)
    (hn1 : atmdspDn tdk pmb rh wl1 ≠ 0) (hn2 : atmdspDn tdk pmb rh wl2 ≠ 0) :
    (palAtmdsp tdk pmb rh wl2 (palAtmdsp tdk pmb rh wl1 a1 b1 wl2).1 (palAtmdsp tdk pmb rh wl1 a1 b1 wl2).2 wl3).1 = (palAtmdsp tdk pmb rh wl1 a1 b1 wl3).1 := by
  have e : ∀ w w' a b, w ≤ 100 → w' ≤ 100 → atmdspDn tdk pmb rh w ≠ 0 → (palAtmdsp tdk pmb rh w a b w').1 = a * (atmdspDn tdk pmb rh w' / atmdspDn tdk pmb rh w) := by
    intro w w' a b hw hw' hn
    unfold palAtmdsp
    rw [if_neg (by rintro (h | h) <;> linarith)]
    dsimp only
    rw [if_pos hn]
  rw [e wl2 wl3 _ _ h2 h3 hn2, e wl1 wl2 _ _ h1 h2 hn1, e wl1 wl3 _ _ h1 h3 hn1]
  field_simp

/-- **C55** (agreement with palRefro) For dry air the refractivity used by palAtmdsp agrees with the refractivity at the observer of palRefro's optical model
atmosphere to 3 parts in 10⁴. -/
theorem C55_agrees_with_refro (hmok tdk pmb wl phi alpha : ℝ) (ht : 100 ≤ tdk) (ht' : tdk ≤ 320) (hp : 0 ≤ pmb) (hp' : pmb ≤ 10000) (hw : 0.1 ≤ wl) (hw' : wl < 100) :
    let n := (pal1Atmt (refroAtm hmok tdk pmb 0 wl phi alpha) (6378120 + hmok)).2.1 - 1
    |atmdspDn tdk pmb 0 wl - n| ≤ 3e-4 * n := by
  dsimp only
  have hpw : refroPwo tdk pmb 0 = 0 := by unfold refroPwo; split_ifs <;> simp
  have hob := (C53_observer hmok tdk pmb 0 wl phi alpha ht ht').2.1 hw'
  rw [hob, hpw, mul_zero, sub_zero]
  unfold atmdspDn refroA
  dsimp only
  rw [if_pos hw', max_eq_left ht, min_eq_left (by linarith : tdk ≤ 500), max_eq_left hp, min_eq_left hp', max_self, min_eq_left (zero_le_one), zero_mul, mul_zero, sub_zero, max_eq_left hw]
  have ht0 : 0 < tdk := by linarith
  have hw0 : 0 < wl := by norm_num at hw; linarith
  have hs : (0.01 : ℝ) ≤ wl * wl := by nlinarith
  have hs0 : 0 < wl * wl := by positivity
  set x := (wl * wl)⁻¹ with hx
  have hx0 : 0 < x := inv_pos.2 hs0
  have e1 : (77.5317e-6 + (0.43909e-6 + 0.00367e-6 / (wl * wl)) / (wl * wl) : ℝ) = 77.5317e-6 + (0.43909e-6 + 0.00367e-6 * x) * x := by rw [hx]; ring
  have e2 : ((287.6155 + (1.62887 + 0.01360 / (wl * wl)) / (wl * wl)) * 273.15e-6 / 1013.25 : ℝ) = (287.6155 + (1.62887 + 0.01360 * x) * x) * 273.15e-6 / 1013.25 := by rw [hx]; ring
  have hx1 : x ≤ 100 := by
    rw [hx, inv_le_comm₀ hs0 (by norm_num)]; linarith
  rw [e1, e2]
  have hq : 0 ≤ pmb / tdk := by positivity
  rw [mul_div_assoc, mul_div_assoc _ pmb, ← sub_mul, abs_mul, abs_of_nonneg hq, ← mul_assoc]
  apply mul_le_mul_of_nonneg_right _ hq
  have hxx : 0 ≤ x * (100 - x) := mul_nonneg hx0.le (by linarith)
  rw [abs_le]
  constructor <;> norm_num <;> nlinarith

/-! ## C80: divisions by zero inside palRefro -/

/-- **C80** (negation) The safe bounds of palRefro do not exclude a division by zero: for ordinary temperature and a low pressure there is a relative humidity
strictly between 0 and 1 for which the denominator of the water vapour pressure vanishes. -/
theorem C80_vapour_denominator_vanishes : ∃ rh, 0 < rh ∧ rh < 1 ∧ refroPwoDen 300 1 rh = 0 := by
  have hps : 1 < refroPsat 300 1 := by
    unfold refroPsat
    dsimp only
    have h1 : (1 : ℝ) < (10 : ℝ) ^ ((0.7859 + 0.03477 * (300 - 273.15)) / (1 + 0.00412 * (300 - 273.15)) : ℝ) :=
      one_lt_rpow (by norm_num) (by norm_num)
    have h2 : (1 : ℝ) ≤ 1 + 1 * (4.5e-6 + 6.0e-10 * (300 - 273.15) * (300 - 273.15)) := by norm_num
    nlinarith
  have h0 : 0 < refroPsat 300 1 := by linarith
  refine ⟨1 - 1 / refroPsat 300 1, ?_, ?_, ?_⟩
  · have : 1 / refroPsat 300 1 < 1 := (div_lt_one h0).2 hps
    linarith
  · have : 0 < 1 / refroPsat 300 1 := by positivity
    linarith
  · unfold refroPwoDen
    field_simp
    ring

/-- **C80** (negation) Nor do they exclude a lapse rate for which the exponents of the dry and the wet air coincide: for every height in range and every latitude
there is such a lapse rate within the limits 0.001 and 0.01 K/m, and w = .../(18.36 - gamma) divides by zero. -/
theorem C80_exponents_coincide (hm phi : ℝ) (h1 : -1000 ≤ hm) (h2 : hm ≤ 80000) :
    ∃ tlr, 0.001 ≤ tlr ∧ tlr ≤ 0.01 ∧ 18.36 - refroGamal hm phi / tlr = 0 := by
  have hc := cos_le_one (phi + phi)
  have hc' := neg_one_le_cos (phi + phi)
  have hg : 0.02 ≤ refroGamal hm phi ∧ refroGamal hm phi ≤ 0.04 := by
    unfold refroGamal
    dsimp only
    constructor
    · rw [le_div_iff₀ (by norm_num)]; norm_num; linarith
    · rw [div_le_iff₀ (by norm_num)]; norm_num; linarith
  refine ⟨refroGamal hm phi / 18.36, ?_, ?_, ?_⟩
  · rw [le_div_iff₀ (by norm_num)]; norm_num; norm_num at hg; linarith [hg.1]
  · rw [div_le_iff₀ (by norm_num)]; norm_num; norm_num at hg; linarith [hg.2]
  · have : refroGamal hm phi ≠ 0 := by
      have := hg.1; intro h; rw [h] at this; norm_num at this
    rw [div_div_cancel₀ this, sub_self]

example : (-1000 : ℝ) ≤ 4200 ∧ (4200 : ℝ) ≤ 80000 := by norm_num

/-- **C80** (what does hold) When the saturation pressure is below the ambient pressure the vapour pressure has a positive denominator and is between 0 and the saturated
value, and the temperature-dependent denominator of the saturation pressure is positive in the whole accepted range. -/
theorem C80_denominators_partial (tdkok pmbok rhok : ℝ) (h1 : 100 ≤ tdkok) (hp : 0 < pmbok) (hr : 0 ≤ rhok) (hr' : rhok ≤ 1)
    (hs : refroPsat tdkok pmbok < pmbok) :
    0 < 1 + 0.00412 * (tdkok - 273.15) ∧ 0 < refroPwoDen tdkok pmbok rhok ∧ 0 ≤ refroPwo tdkok pmbok rhok ∧
      refroPwo tdkok pmbok rhok ≤ refroPsat tdkok pmbok := by
  have h0 : 0 < 1 + 0.00412 * (tdkok - 273.15) := by norm_num; linarith
  have hps : 0 < refroPsat tdkok pmbok := by
    unfold refroPsat
    dsimp only
    apply mul_pos (rpow_pos_of_pos (by norm_num) _)
    have : 0 ≤ 6.0e-10 * (tdkok - 273.15) * (tdkok - 273.15) := by nlinarith [mul_self_nonneg (tdkok - 273.15)]
    nlinarith
  have hq : refroPsat tdkok pmbok / pmbok < 1 := (div_lt_one hp).2 hs
  have hq0 : 0 < refroPsat tdkok pmbok / pmbok := by positivity
  have hd : 0 < refroPwoDen tdkok pmbok rhok := by
    unfold refroPwoDen
    rw [mul_div_assoc]
    nlinarith
  refine ⟨h0, hd, ?_, ?_⟩
  · unfold refroPwo
    rw [if_pos hp]
    positivity
  · unfold refroPwo
    rw [if_pos hp, div_le_iff₀ hd]
    unfold refroPwoDen
    rw [mul_div_assoc, mul_comm rhok]
    apply mul_le_mul_of_nonneg_left _ hps.le
    nlinarith

end Pal.Props
