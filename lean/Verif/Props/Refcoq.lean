import Verif.Model.Refcoq
import Verif.Model.Refr
import Verif.Spec.Refcoq

/-!
# Quick refraction constants: property C95
-/

namespace Pal.Props
open Real Pal Pal.Spec

/-- Temperature, pressure and humidity within the limits of palRefcoq and air in which water does not boil. -/
structure Ordinary (tdk pmb rh : ℝ) : Prop where
  t1 : 123.15 ≤ tdk
  t2 : tdk ≤ 473.15
  p1 : 0 < pmb
  p2 : pmb ≤ 10000
  r1 : 0 ≤ rh
  r2 : rh ≤ 1
  cold : saturation tdk pmb < pmb

theorem saturation_pos {T p : ℝ} (hp : 0 ≤ p) : 0 < saturation T p := by
  unfold saturation
  have : 0 ≤ p * (4.5 / 10 ^ 6 + 6 / 10 ^ 10 * (T - 273.15) ^ 2) := mul_nonneg hp (by positivity)
  exact mul_pos (rpow_pos_of_pos (by norm_num) _) (by linarith)

theorem ps_eq (T p : ℝ) : refcoPs (T - 273.15) p = saturation T p := by
  unfold refcoPs saturation
  congr 1
  ring

theorem vapour_pos {T p r : ℝ} (h : Ordinary T p r) : 0 < p - (1 - r) * saturation T p := by
  have hs := saturation_pos (T := T) h.p1.le
  have := mul_le_mul_of_nonneg_right (sub_le_self 1 h.r1) hs.le
  linarith [h.cold]

theorem clamp_id {a b x : ℝ} (h1 : a ≤ x) (h2 : x ≤ b) : min (max x a) b = x := by rw [max_eq_left h1, min_eq_left h2]

/-- **C95** (published formulae, light) Within its limits palRefcoq gives, for light, Green's constants for the published refractivity of moist air. -/
theorem C95_light {tdk pmb rh wl : ℝ} (h : Ordinary tdk pmb rh) (hw1 : 0.1 ≤ wl) (hw2 : wl ≤ 100) :
    palRefcoq tdk pmb rh wl = some (greenA (refractivityLight tdk pmb (vapour tdk pmb rh) wl) (4.4474 / 10 ^ 6 * tdk),
      greenB (refractivityLight tdk pmb (vapour tdk pmb rh) wl) (4.4474 / 10 ^ 6 * tdk)) := by
  have hv := vapour_pos h
  have hT := h.t1
  have hp := h.p1
  unfold palRefcoq eraRefco
  dsimp only
  rw [clamp_id (x := tdk - 273.15) (by linarith) (by linarith [h.t2]), clamp_id hp.le h.p2, clamp_id h.r1 h.r2, clamp_id hw1 (by linarith), if_pos hp, ps_eq]
  have e : 1 - (1 - rh) * saturation tdk pmb / pmb = (pmb - (1 - rh) * saturation tdk pmb) / pmb := by field_simp
  rw [e, if_neg (div_pos hv hp).ne']
  have e2 : rh * saturation tdk pmb / ((pmb - (1 - rh) * saturation tdk pmb) / pmb) = vapour tdk pmb rh := by
    unfold vapour
    have := hv.ne'
    field_simp
  rw [e2]
  unfold refcoAB greenA greenB refractivityLight dryLight
  dsimp only
  rw [if_pos hw2, if_neg (not_not.2 hw2)]
  have hw : wl ≠ 0 := by linarith
  have : tdk ≠ 0 := by linarith
  have e3 : (77.53484e-6 + (4.39108e-7 + 3.666e-9 / (wl * wl)) / (wl * wl) : ℝ) = (77.53484 + 0.439108 / wl ^ 2 + 0.003666 / wl ^ 4) / 10 ^ 6 := by
    field_simp; norm_num; ring
  have e4 : tdk - 273.15 + 273.15 = tdk := by ring
  rw [e3, e4]
  generalize (77.53484 + 0.439108 / wl ^ 2 + 0.003666 / wl ^ 4) / 10 ^ 6 = K
  rw [Option.some_inj, Prod.mk.injEq]
  constructor <;> ring

/-- **C95** (published formulae, radio) The same for radio waves, for which the height of the homogeneous atmosphere is adjusted for water vapour and the wavelength does not matter. -/
theorem C95_radio {tdk pmb rh wl : ℝ} (h : Ordinary tdk pmb rh) (hw : 100 < wl) :
    palRefcoq tdk pmb rh wl = some (greenA (refractivityRadio tdk pmb (vapour tdk pmb rh)) (4.4474 / 10 ^ 6 * tdk * (1 - 0.0074 * vapour tdk pmb rh)),
      greenB (refractivityRadio tdk pmb (vapour tdk pmb rh)) (4.4474 / 10 ^ 6 * tdk * (1 - 0.0074 * vapour tdk pmb rh))) := by
  have hv := vapour_pos h
  have hT := h.t1
  have hp := h.p1
  unfold palRefcoq eraRefco
  dsimp only
  rw [clamp_id (x := tdk - 273.15) (by linarith) (by linarith [h.t2]), clamp_id hp.le h.p2, clamp_id h.r1 h.r2, if_pos hp, ps_eq]
  have e : 1 - (1 - rh) * saturation tdk pmb / pmb = (pmb - (1 - rh) * saturation tdk pmb) / pmb := by field_simp
  rw [e, if_neg (div_pos hv hp).ne']
  have e2 : rh * saturation tdk pmb / ((pmb - (1 - rh) * saturation tdk pmb) / pmb) = vapour tdk pmb rh := by
    unfold vapour
    have := hv.ne'
    field_simp
  rw [e2]
  unfold refcoAB greenA greenB refractivityRadio
  dsimp only
  rw [if_neg (not_le.2 hw), if_pos (not_le.2 hw)]
  have e4 : tdk - 273.15 + 273.15 = tdk := by ring
  have : tdk ≠ 0 := by linarith
  rw [e4]
  generalize vapour tdk pmb rh = pw
  have e5 : (77.6890e-6 * pmb - (6.3938e-6 - 0.375463 / tdk) * pw) / tdk = 77.6890 / 10 ^ 6 * pmb / tdk - 6.3938 / 10 ^ 6 * pw / tdk + 0.375463 * pw / tdk ^ 2 := by
    field_simp; ring
  rw [e5]
  generalize 77.6890 / 10 ^ 6 * pmb / tdk - 6.3938 / 10 ^ 6 * pw / tdk + 0.375463 * pw / tdk ^ 2 = K
  rw [Option.some_inj, Prod.mk.injEq]
  constructor <;> ring

/-- **C95** (limits) Arguments out of range are silently replaced by the nearest limit: temperatures 123.15 to 473.15 K, pressures 0 to 10000 mbar, humidities 0 to 1, wavelengths from 0.1 micrometre. -/
theorem C95_limits (tdk pmb rh wl : ℝ) :
    palRefcoq tdk pmb rh wl = palRefcoq (min (max tdk 123.15) 473.15) (min (max pmb 0) 10000) (min (max rh 0) 1) (max wl 0.1) := by
  have c : ∀ {a b : ℝ} (x : ℝ), a ≤ b → min (max (min (max x a) b) a) b = min (max x a) b := by
    intro a b x h
    rw [max_eq_left (le_min (le_max_right _ _) h), min_eq_left (min_le_right _ _)]
  have h1 : min (max (min (max tdk 123.15) 473.15 - 273.15) (-150)) 200 = min (max (tdk - 273.15) (-150)) 200 := by
    have a : min (max tdk 123.15) 473.15 - 273.15 = min (max (tdk - 273.15) (-150)) 200 := by
      rcases le_total tdk 123.15 with h | h
      · rw [max_eq_right h, max_eq_right (by linarith), min_eq_left (by norm_num), min_eq_left (by norm_num)]; norm_num
      · rw [max_eq_left h, max_eq_left (by linarith)]
        rcases le_total tdk 473.15 with h' | h'
        · rw [min_eq_left h', min_eq_left (by linarith)]
        · rw [min_eq_right h', min_eq_right (by linarith)]; norm_num
    rw [a, c _ (by norm_num)]
  have h2 : (max wl 0.1 ≤ 100) = (wl ≤ 100) := by
    rw [max_le_iff]; simp; intro; norm_num
  unfold palRefcoq eraRefco
  dsimp only
  rw [h1, c pmb (by norm_num), c rh (by norm_num), max_eq_left (le_max_right wl 0.1)]
  simp only [h2]

/-- **C95** (no air) Without air there is no refraction. -/
theorem C95_vacuum (tdk pmb rh wl : ℝ) (h : pmb ≤ 0) : palRefcoq tdk pmb rh wl = some (0, 0) := by
  unfold palRefcoq eraRefco
  dsimp only
  have : min (max pmb 0) 10000 = (0 : ℝ) := by rw [max_eq_right h, min_eq_left (by norm_num)]
  rw [this, if_neg (lt_irrefl _)]
  unfold refcoAB
  dsimp only
  split_ifs <;> simp

/-- **C95** (limits insufficient) The limits do not exclude division by zero: half-saturated air at 250.5 K and half a millibar. -/
theorem C95_division_by_zero : ∃ tdk pmb, 250 < tdk ∧ tdk < 251 ∧ 0.5 < pmb ∧ pmb < 0.51 ∧ ∀ wl, palRefcoq tdk pmb 0.5 wl = none := by
  obtain ⟨t, ht⟩ : ∃ t : ℝ, t = -0.7859 / 0.03477 := ⟨_, rfl⟩
  obtain ⟨c, hc⟩ : ∃ c : ℝ, c = 4.5e-6 + 6e-10 * t * t := ⟨_, rfl⟩
  have hc1 : 0 < c := by rw [hc, ht]; norm_num
  have hc2 : c < 0.01 := by rw [hc, ht]; norm_num
  have h2c : (2 - c) ≠ 0 := by linarith
  refine ⟨t + 273.15, 1 / (2 - c), by rw [ht]; norm_num, by rw [ht]; norm_num, ?_, ?_, fun wl => ?_⟩
  · rw [lt_div_iff₀ (by linarith)]; linarith
  · rw [div_lt_iff₀ (by linarith)]; linarith
  · have hp : 0 < 1 / (2 - c) := by apply div_pos one_pos; linarith
    have hp2 : 1 / (2 - c) ≤ 10000 := by rw [div_le_iff₀ (by linarith)]; linarith
    unfold palRefcoq eraRefco
    dsimp only
    rw [show t + 273.15 - 273.15 = t by ring, clamp_id (x := t) (by rw [ht]; norm_num) (by rw [ht]; norm_num), clamp_id hp.le hp2, clamp_id (x := 0.5) (by norm_num) (by norm_num), if_pos hp, if_pos]
    unfold refcoPs
    have e : 0.7859 + 0.03477 * t = 0 := by rw [ht]; norm_num
    rw [e, zero_div, rpow_zero, one_mul, ← hc]
    field_simp
    ring

theorem vapour_bounds {T p r : ℝ} (h : Ordinary T p r) : 0 ≤ vapour T p r ∧ vapour T p r ≤ saturation T p := by
  have hv := vapour_pos h
  have hs := saturation_pos (T := T) h.p1.le
  unfold vapour
  refine ⟨div_nonneg (mul_nonneg (mul_nonneg h.r1 h.p1.le) hs.le) hv.le, ?_⟩
  rw [div_le_iff₀ hv]
  have : 0 ≤ (1 - r) * (p - saturation T p) := mul_nonneg (by linarith [h.r2]) (by linarith [h.cold])
  nlinarith

theorem vapour_mono {T p r r' : ℝ} (h : Ordinary T p r) (h' : Ordinary T p r') (hr : r < r') : vapour T p r < vapour T p r' := by
  have hv := vapour_pos h
  have hv' := vapour_pos h'
  have hs := saturation_pos (T := T) h.p1.le
  unfold vapour
  rw [div_lt_div_iff₀ hv hv']
  have : 0 < (r' - r) * (p * saturation T p * (p - saturation T p)) := mul_pos (by linarith) (mul_pos (mul_pos h.p1 hs) (by linarith [h.cold]))
  nlinarith

theorem dryLight_gt {wl : ℝ} : 77.5 / 10 ^ 6 < dryLight wl := by
  unfold dryLight
  have : 0 ≤ 0.439108 / wl ^ 2 + 0.003666 / wl ^ 4 := by positivity
  rw [div_lt_div_iff_of_pos_right (by norm_num)]
  linarith

/-- **C95** (sign) For light A is positive; in natural conditions (up to 1200 mbar, at least 200 K, wavelength at least 0.3 micrometres) B is negative. -/
theorem C95_sign {tdk pmb rh wl : ℝ} (h : Ordinary tdk pmb rh) (hw1 : 0.1 ≤ wl) (hw2 : wl ≤ 100) :
    ∃ a b, palRefcoq tdk pmb rh wl = some (a, b) ∧ 0 < a ∧ (pmb ≤ 1200 → 200 ≤ tdk → 0.3 ≤ wl → b < 0) := by
  refine ⟨_, _, C95_light h hw1 hw2, ?_, ?_⟩ <;>
  · have hb := vapour_bounds h
    have hd := dryLight_gt (wl := wl)
    have hT : 0 < tdk := by linarith [h.t1]
    have hg : 0 < refractivityLight tdk pmb (vapour tdk pmb rh) wl := by
      unfold refractivityLight
      refine div_pos ?_ hT
      have h1 := mul_lt_mul_of_pos_right hd h.p1
      have h2 : vapour tdk pmb rh < pmb := lt_of_le_of_lt hb.2 h.cold
      have h3 := h.p1
      norm_num at h1 ⊢
      linarith
    first
    | (unfold greenA
       refine mul_pos hg ?_
       have := h.t2
       norm_num; linarith)
    | (intro hp ht hw
       unfold greenB
       refine neg_neg_of_pos (mul_pos hg ?_)
       have hg2 : refractivityLight tdk pmb (vapour tdk pmb rh) wl ≤ 83 / 10 ^ 6 * 1200 / 200 := by
         unfold refractivityLight
         have hk : dryLight wl ≤ 83 / 10 ^ 6 := by
           unfold dryLight
           rw [div_le_div_iff_of_pos_right (by norm_num)]
           have a1 : 0.439108 / wl ^ 2 ≤ 0.439108 / 0.3 ^ 2 := div_le_div_of_nonneg_left (by norm_num) (by norm_num) (pow_le_pow_left₀ (by norm_num) hw 2)
           have a2 : 0.003666 / wl ^ 4 ≤ 0.003666 / 0.3 ^ 4 := div_le_div_of_nonneg_left (by norm_num) (by norm_num) (pow_le_pow_left₀ (by norm_num) hw 4)
           norm_num at a1 a2 ⊢
           linarith
         refine div_le_div₀ (by norm_num) ?_ (by norm_num) ht
         have := mul_le_mul hk hp h.p1.le (by norm_num : (0:ℝ) ≤ 83 / 10 ^ 6)
         have : 0 ≤ 11.2684 / 10 ^ 6 * vapour tdk pmb rh := mul_nonneg (by norm_num) hb.1
         linarith
       norm_num at hg2 ⊢
       linarith)

/-- **C95** (humidity) Water vapour makes light bend less and radio waves bend more. -/
theorem C95_humidity {tdk pmb rh rh' : ℝ} (h : Ordinary tdk pmb rh) (h' : Ordinary tdk pmb rh') (hr : rh < rh') {wl wr : ℝ} (hw1 : 0.1 ≤ wl) (hw2 : wl ≤ 100) (hr1 : 100 < wr) :
    ∃ a b a' b' c d c' d', palRefcoq tdk pmb rh wl = some (a, b) ∧ palRefcoq tdk pmb rh' wl = some (a', b') ∧ a' < a ∧
      palRefcoq tdk pmb rh wr = some (c, d) ∧ palRefcoq tdk pmb rh' wr = some (c', d') ∧ c < c' := by
  refine ⟨_, _, _, _, _, _, _, _, C95_light h hw1 hw2, C95_light h' hw1 hw2, ?_, C95_radio h hr1, C95_radio h' hr1, ?_⟩
  · have hm := vapour_mono h h' hr
    have hT : 0 < tdk := by linarith [h.t1]
    unfold greenA refractivityLight
    have hT2 := h.t2
    refine mul_lt_mul_of_pos_right ?_ (by norm_num; linarith)
    refine div_lt_div_of_pos_right ?_ hT
    norm_num
    linarith
  · have hm := vapour_mono h h' hr
    have hb := vapour_bounds h
    have hT : 0 < tdk := by linarith [h.t1]
    have hT2 := h.t2
    have hp := h.p1
    have hc := h.cold
    unfold greenA refractivityRadio
    generalize vapour tdk pmb rh = x at *
    generalize vapour tdk pmb rh' = y at *
    have hk : 6.3938 / 10 ^ 6 / tdk < 0.375463 / tdk ^ 2 := by
      rw [div_lt_div_iff₀ hT (by positivity)]
      have : tdk * tdk ≤ 473.15 * tdk := mul_le_mul_of_nonneg_right hT2 hT.le
      norm_num
      nlinarith
    have hg : 0 < 77.6890 / 10 ^ 6 * pmb / tdk := div_pos (mul_pos (by norm_num) hp) hT
    have e : ∀ z, 77.6890 / 10 ^ 6 * pmb / tdk - 6.3938 / 10 ^ 6 * z / tdk + 0.375463 * z / tdk ^ 2 = 77.6890 / 10 ^ 6 * pmb / tdk + (0.375463 / tdk ^ 2 - 6.3938 / 10 ^ 6 / tdk) * z := by
      intro z; ring
    rw [e, e]
    have k0 : 0 < 0.375463 / tdk ^ 2 - 6.3938 / 10 ^ 6 / tdk := by linarith
    generalize 0.375463 / tdk ^ 2 - 6.3938 / 10 ^ 6 / tdk = k at *
    generalize 77.6890 / 10 ^ 6 * pmb / tdk = G at *
    have b0 : 0 ≤ 4.4474 / 10 ^ 6 * tdk := by positivity
    have b1 : 4.4474 / 10 ^ 6 * tdk < 1 := by norm_num; linarith
    generalize 4.4474 / 10 ^ 6 * tdk = B at *
    have h1 : G + k * x < G + k * y := by have := mul_lt_mul_of_pos_left hm k0; linarith
    have h0 : 0 < G + k * x := by have := mul_nonneg k0.le hb.1; linarith
    have h2 : 1 - B * (1 - 0.0074 * x) ≤ 1 - B * (1 - 0.0074 * y) := by have := mul_le_mul_of_nonneg_left hm.le b0; linarith
    have h3 : 0 < 1 - B * (1 - 0.0074 * x) := by have := mul_nonneg b0 hb.1; linarith
    calc (G + k * x) * (1 - B * (1 - 0.0074 * x)) < (G + k * y) * (1 - B * (1 - 0.0074 * x)) := mul_lt_mul_of_pos_right h1 h3
      _ ≤ _ := mul_le_mul_of_nonneg_left h2 (by linarith)

theorem dryLight_anti {wl wl' : ℝ} (h0 : 0 < wl) (h : wl < wl') : dryLight wl' < dryLight wl := by
  unfold dryLight
  rw [div_lt_div_iff_of_pos_right (by norm_num)]
  have a1 : 0.439108 / wl' ^ 2 < 0.439108 / wl ^ 2 := div_lt_div_of_pos_left (by norm_num) (by positivity) (pow_lt_pow_left₀ h h0.le (by norm_num))
  have a2 : 0.003666 / wl' ^ 4 < 0.003666 / wl ^ 4 := div_lt_div_of_pos_left (by norm_num) (by positivity) (pow_lt_pow_left₀ h h0.le (by norm_num))
  linarith

/-- **C95** (wavelength) Blue light bends more than red; radio waves of all wavelengths bend alike. -/
theorem C95_wavelength {tdk pmb rh wl wl' : ℝ} (h : Ordinary tdk pmb rh) (hw1 : 0.1 ≤ wl) (hw : wl < wl') (hw2 : wl' ≤ 100) :
    ∃ a b a' b', palRefcoq tdk pmb rh wl = some (a, b) ∧ palRefcoq tdk pmb rh wl' = some (a', b') ∧ a' < a := by
  refine ⟨_, _, _, _, C95_light h hw1 (by linarith), C95_light h (by linarith) hw2, ?_⟩
  have hT : 0 < tdk := by linarith [h.t1]
  have hT2 := h.t2
  unfold greenA refractivityLight
  refine mul_lt_mul_of_pos_right (div_lt_div_of_pos_right ?_ hT) (by norm_num; linarith)
  have := mul_lt_mul_of_pos_right (dryLight_anti (by linarith) hw) h.p1
  linarith

/-- The constants palAtmdsp uses for dry air are within 0.0003 of those of palRefcoq. -/
theorem dry_close {wl : ℝ} (h : 0.1 ≤ wl) : |(77.5317e-6 + (0.43909e-6 + 0.00367e-6 / (wl * wl)) / (wl * wl)) - dryLight wl| ≤ 3e-4 * dryLight wl := by
  unfold dryLight
  obtain ⟨q, hq⟩ : ∃ q, q = 1 / (wl * wl) := ⟨_, rfl⟩
  have hw : 0 < wl := by linarith
  have hq0 : 0 ≤ q := by rw [hq]; positivity
  have hq1 : q ≤ 100 := by rw [hq, div_le_iff₀ (by positivity)]; nlinarith
  have e1 : (77.5317e-6 + (0.43909e-6 + 0.00367e-6 / (wl * wl)) / (wl * wl) : ℝ) = 77.5317e-6 + (0.43909e-6 + 0.00367e-6 * q) * q := by rw [hq]; ring
  have e2 : (77.53484 + 0.439108 / wl ^ 2 + 0.003666 / wl ^ 4) / 10 ^ 6 = (77.53484 + 0.439108 * q + 0.003666 * q ^ 2) / 10 ^ 6 := by
    rw [hq]; field_simp
  rw [e1, e2, abs_le]
  constructor <;> norm_num <;> nlinarith [mul_nonneg hq0 (sub_nonneg.2 hq1)]

/-- **C95** (agreement) In dry air, the constant A which palAtmdsp derives for a second wavelength from palRefcoq's A for the first agrees with palRefcoq's own to 7 parts in 10 000. -/
theorem C95_atmdsp {tdk pmb wl1 wl2 : ℝ} (h : Ordinary tdk pmb 0) (h1 : 0.1 ≤ wl1) (h1' : wl1 ≤ 100) (h2 : 0.1 ≤ wl2) (h2' : wl2 ≤ 100) :
    ∃ a1 b1 a2 b2, palRefcoq tdk pmb 0 wl1 = some (a1, b1) ∧ palRefcoq tdk pmb 0 wl2 = some (a2, b2) ∧ |(palAtmdsp tdk pmb 0 wl1 a1 b1 wl2).1 - a2| ≤ 7e-4 * a2 := by
  refine ⟨_, _, _, _, C95_light h h1 h1', C95_light h h2 h2', ?_⟩
  have hT : 0 < tdk := by linarith [h.t1]
  have hT2 := h.t2
  have hv : vapour tdk pmb 0 = 0 := by unfold vapour; simp
  rw [hv]
  have c1 := dry_close h1
  have c2 := dry_close h2
  have hdn : ∀ wl, 0.1 ≤ wl → atmdspDn tdk pmb 0 wl = (77.5317e-6 + (0.43909e-6 + 0.00367e-6 / (wl * wl)) / (wl * wl)) * pmb / tdk := by
    intro wl hw
    unfold atmdspDn
    dsimp only
    rw [clamp_id (x := tdk) (by linarith [h.t1]) (by linarith), clamp_id h.p1.le h.p2, clamp_id (x := 0) le_rfl (by norm_num), max_eq_left hw]
    ring
  unfold palAtmdsp
  dsimp only
  rw [if_neg (by push Not; exact ⟨h1', h2'⟩), hdn wl1 h1, hdn wl2 h2]
  have d1 := dryLight_gt (wl := wl1)
  have d2 := dryLight_gt (wl := wl2)
  unfold greenA refractivityLight
  generalize (77.5317e-6 + (0.43909e-6 + 0.00367e-6 / (wl1 * wl1)) / (wl1 * wl1) : ℝ) = k1 at *
  generalize (77.5317e-6 + (0.43909e-6 + 0.00367e-6 / (wl2 * wl2)) / (wl2 * wl2) : ℝ) = k2 at *
  generalize dryLight wl1 = K1 at *
  generalize dryLight wl2 = K2 at *
  have K1p : 0 < K1 := lt_trans (by norm_num) d1
  have K2p : 0 < K2 := lt_trans (by norm_num) d2
  rw [abs_le] at c1 c2
  have k1p : (1 - 3e-4) * K1 ≤ k1 := by linarith
  have k1p' : 0 < k1 := lt_of_lt_of_le (mul_pos (by norm_num) K1p) k1p
  have hp := h.p1
  rw [if_pos (div_pos (mul_pos k1p' hp) hT).ne']
  have hB : 0 < 1 - 4.4474 / 10 ^ 6 * tdk := by norm_num; linarith
  have e : (K1 * pmb - 11.2684 / 10 ^ 6 * 0) / tdk * (1 - 4.4474 / 10 ^ 6 * tdk) * (k2 * pmb / tdk / (k1 * pmb / tdk)) - (K2 * pmb - 11.2684 / 10 ^ 6 * 0) / tdk * (1 - 4.4474 / 10 ^ 6 * tdk) =
      ((1 - 4.4474 / 10 ^ 6 * tdk) * pmb / tdk) * ((K1 * k2 - K2 * k1) / k1) := by
    generalize 1 - 4.4474 / 10 ^ 6 * tdk = B
    field_simp
    ring
  have e' : 7e-4 * ((K2 * pmb - 11.2684 / 10 ^ 6 * 0) / tdk * (1 - 4.4474 / 10 ^ 6 * tdk)) = ((1 - 4.4474 / 10 ^ 6 * tdk) * pmb / tdk) * (7e-4 * K2) := by ring
  dsimp only
  rw [e, e']
  have hs : 0 < (1 - 4.4474 / 10 ^ 6 * tdk) * pmb / tdk := div_pos (mul_pos hB hp) hT
  rw [abs_mul, abs_of_pos hs]
  refine mul_le_mul_of_nonneg_left ?_ hs.le
  rw [abs_div, abs_of_pos k1p', div_le_iff₀ k1p', abs_le]
  have m1 := mul_le_mul_of_nonneg_left k1p K2p.le
  have mm := mul_pos K1p K2p
  have n1 := mul_le_mul_of_nonneg_left c2.1 K1p.le
  have n2 := mul_le_mul_of_nonneg_left c2.2 K1p.le
  have n3 := mul_le_mul_of_nonneg_left c1.1 K2p.le
  have n4 := mul_le_mul_of_nonneg_left c1.2 K2p.le
  constructor <;> norm_num at * <;> nlinarith

/-- Ten degrees Celsius, 800 mbar, humidity 0.9 and dry air meet the hypotheses. -/
theorem ordinary_example {r : ℝ} (h0 : 0 ≤ r) (h1 : r ≤ 1) : Ordinary 283.15 800 r := by
  refine ⟨by norm_num, by norm_num, by norm_num, by norm_num, h0, h1, ?_⟩
  unfold saturation
  have : (10 : ℝ) ^ ((0.7859 + 0.03477 * ((283.15 : ℝ) - 273.15)) / (1 + 0.00412 * (283.15 - 273.15))) ≤ 10 ^ (2 : ℝ) :=
    rpow_le_rpow_of_exponent_le (by norm_num) (by norm_num)
  have h2 : (10 : ℝ) ^ (2 : ℝ) = 100 := by norm_num
  rw [h2] at this
  have h3 : (1 + 800 * (4.5 / 10 ^ 6 + 6 / 10 ^ 10 * ((283.15 : ℝ) - 273.15) ^ 2)) ≤ 2 := by norm_num
  calc _ ≤ (100 : ℝ) * 2 := mul_le_mul this h3 (by positivity) (by norm_num)
    _ < 800 := by norm_num

example : Ordinary 283.15 800 0.9 ∧ Ordinary 283.15 800 0 := ⟨ordinary_example (by norm_num) (by norm_num), ordinary_example le_rfl (by norm_num)⟩

end Pal.Props
