import Verif.Props.Refr
import Verif.Spec.Refcoq

/-! # C53: the troposphere of palRefro is air in hydrostatic equilibrium -/

namespace Pal.Props
open Pal Pal.Spec Real

/-- Acceleration of gravity (m/s²) at the height `h` (m) and the latitude `phi`, at the centroid of the column of air above (Saastamoinen). -/
noncomputable def airGravity (h phi : ℝ) : ℝ := 9.784 * (1 - 0.0026 * cos (2 * phi) - 0.00000028 * h)

/-- Density of moist air, from the total pressure `p`, the pressure `e` of the water vapour in it and the temperature `T`: molecular weights 28.9644 and 18.0152, gas constant
8314.32. -/
noncomputable def airDensity (p e T : ℝ) : ℝ := (28.9644 * (p - e) + 18.0152 * e) / (8314.32 * T)

/-- Refractive index minus one for light, in the form palRefro has it. -/
noncomputable def refroLight (T p e wl : ℝ) : ℝ := ((287.6155 + 1.62887 / wl ^ 2 + 0.01360 / wl ^ 4) * (273.15e-6 / 1013.25) * p - 11.2684e-6 * e) / T

/-- **C53** (hydrostatic equilibrium) The refractive index palRefro's troposphere has at the distance r from the centre of the Earth is that of air with the temperature T(r) that falls
linearly at the given lapse rate, a total pressure p(r) and a vapour pressure e(r): they start from the pressure and the vapour pressure at the observer, the vapour falls off as the power
18.36 of the temperature, and the pressure obeys the equation of hydrostatic equilibrium, dp/dr = - gravity × density. -/
theorem C53_hydrostatic (hm tdk pmb rh wl phi lapse : ℝ) (ht : 0 < tdk) (hp : 0 < pmb) (hl : lapse ≠ 0) (hx : 18.36 * lapse ≠ airGravity hm phi * 28.9644 / 8314.32)
    (T : ℝ → ℝ) (hT : T = fun r => tdk - lapse * (r - (6378120 + hm))) :
    ∃ p e : ℝ → ℝ, p (6378120 + hm) = pmb ∧ e (6378120 + hm) = vapour tdk pmb rh ∧
      (∀ r, 0 < T r → e r = vapour tdk pmb rh * (T r / tdk) ^ (18.36 : ℝ) ∧ HasDerivAt p (-(airGravity hm phi * airDensity (p r) (e r) (T r))) r) ∧
      ∀ r, 100 ≤ T r → T r ≤ 320 →
        (wl < 100 → (pal1Atmt (refroAtm hm tdk pmb rh wl phi lapse) r).2.1 - 1 = refroLight (T r) (p r) (e r) wl) ∧
        (100 ≤ wl → (pal1Atmt (refroAtm hm tdk pmb rh wl phi lapse) r).2.1 - 1 = refractivityRadio (T r) (p r) (e r)) := by
  have he : refroPwo tdk pmb rh = vapour tdk pmb rh := by
    have hs : refroPsat tdk pmb = saturation tdk pmb := by
      unfold refroPsat saturation
      dsimp only
      congr 1
      ring
    unfold refroPwo refroPwoDen vapour
    rw [if_pos hp, hs]
    have : 1 - (1 - rh) * saturation tdk pmb / pmb = (pmb - (1 - rh) * saturation tdk pmb) / pmb := by field_simp
    rw [this, div_div_eq_mul_div]
    ring
  obtain ⟨e0, he0⟩ : ∃ e0, e0 = vapour tdk pmb rh := ⟨_, rfl⟩
  obtain ⟨G, hG⟩ : ∃ G, G = refroGamal hm phi := ⟨_, rfl⟩
  have hGg : G = airGravity hm phi * 28.9644 / 8314.32 := by
    rw [hG]; unfold refroGamal airGravity; dsimp only; rw [two_mul]
  obtain ⟨γ, hγ⟩ : ∃ γ, γ = G / lapse := ⟨_, rfl⟩
  have hγl : γ * lapse = G := by rw [hγ]; field_simp
  have hden : 18.36 - γ ≠ 0 := by
    intro h
    apply hx
    rw [← hGg, ← hγl]
    linear_combination lapse * h
  obtain ⟨w, hw⟩ : ∃ w, w = e0 * (1 - 18.0152 / 28.9644) * γ / (18.36 - γ) := ⟨_, rfl⟩
  have hw' : w * (18.36 - γ) = e0 * (1 - 18.0152 / 28.9644) * γ := by rw [hw]; field_simp
  have hT0 : T (6378120 + hm) = tdk := by rw [hT]; simp
  refine ⟨fun r => (pmb + w) * (T r / tdk) ^ γ - w * (T r / tdk) ^ (18.36 : ℝ), fun r => e0 * (T r / tdk) ^ (18.36 : ℝ), ?_, ?_, ?_, ?_⟩
  · dsimp only; rw [hT0, div_self ht.ne', one_rpow, one_rpow]; ring
  · dsimp only; rw [hT0, div_self ht.ne', one_rpow, ← he0]; ring
  · intro r hr
    refine ⟨by rw [← he0], ?_⟩
    have hτ : 0 < T r / tdk := by positivity
    have dT : HasDerivAt T (-lapse) r := by
      rw [hT]
      have := (((hasDerivAt_id r).sub_const (6378120 + hm)).const_mul lapse).const_sub tdk
      simpa using this
    have dτ : HasDerivAt (fun r => T r / tdk) (-lapse / tdk) r := dT.div_const tdk
    have d1 := (dτ.rpow_const (p := γ) (Or.inl hτ.ne')).const_mul (pmb + w)
    have d2 := (dτ.rpow_const (p := (18.36 : ℝ)) (Or.inl hτ.ne')).const_mul w
    refine (d1.sub d2).congr_deriv ?_
    rw [Real.rpow_sub_one hτ.ne', Real.rpow_sub_one hτ.ne']
    dsimp only
    generalize (T r / tdk) ^ γ = A
    generalize (T r / tdk) ^ (18.36 : ℝ) = B
    unfold airDensity
    have hg : airGravity hm phi = γ * lapse * 8314.32 / 28.9644 := by rw [hγl, hGg]; ring
    rw [hg]
    have hr0 := hr.ne'
    generalize T r = t at hr0
    have e1 : (pmb + w) * (-lapse / tdk * γ * (A / (t / tdk))) - w * (-lapse / tdk * 18.36 * (B / (t / tdk))) = -(lapse / t) * (γ * (pmb + w) * A - 18.36 * w * B) := by
      field_simp
      ring
    have e2 : γ * lapse * 8314.32 / 28.9644 * ((28.9644 * ((pmb + w) * A - w * B - e0 * B) + 18.0152 * (e0 * B)) / (8314.32 * t)) =
        lapse / t * γ * ((pmb + w) * A - w * B - (1 - 18.0152 / 28.9644) * (e0 * B)) := by
      field_simp
      ring
    rw [e1, e2]
    linear_combination (lapse / t * B) * hw'
  · intro r h1 h2
    have hr : 0 < T r := by linarith
    have hτ : 0 < T r / tdk := by positivity
    have ht' : (pal1Atmt (refroAtm hm tdk pmb rh wl phi lapse) r).1 = T r := by
      have := (C53_temperature (refroAtm hm tdk pmb rh wl phi lapse) r).2.2
      rw [hT] at h1 h2 ⊢
      exact this h1 h2
    have hdn : (pal1Atmt (refroAtm hm tdk pmb rh wl phi lapse) r).2.1 - 1 =
        ((refroAtm hm tdk pmb rh wl phi lapse).c1 * (T r / tdk) ^ (γ - 2) -
          ((refroAtm hm tdk pmb rh wl phi lapse).c2 - (refroAtm hm tdk pmb rh wl phi lapse).c5 / T r) * (T r / tdk) ^ ((18.36 : ℝ) - 2)) * (T r / tdk) := by
      have et0 : (refroAtm hm tdk pmb rh wl phi lapse).t0 = tdk := rfl
      have eg : (refroAtm hm tdk pmb rh wl phi lapse).gamm2 = γ - 2 := by rw [hγ, hG]; rfl
      have ed : (refroAtm hm tdk pmb rh wl phi lapse).delm2 = 18.36 - 2 := rfl
      unfold pal1Atmt at ht' ⊢
      dsimp only at ht' ⊢
      rw [ht', et0, eg, ed]
      ring
    have e2 : ∀ x : ℝ, (T r / tdk) ^ (x - 2) = (T r / tdk) ^ x / (T r / tdk) ^ 2 := fun x => by
      rw [Real.rpow_sub hτ]; norm_num
    rw [hdn, e2, e2]
    have hc1 : (refroAtm hm tdk pmb rh wl phi lapse).c1 = refroA wl * (pmb + w) / tdk := by
      rw [hw, he0, ← he, hγ, hG]; rfl
    dsimp only
    generalize (T r / tdk) ^ γ = A
    generalize (T r / tdk) ^ (18.36 : ℝ) = B
    constructor
    · intro hwl
      have hc2 : (refroAtm hm tdk pmb rh wl phi lapse).c2 = (refroA wl * w + 11.2684e-6 * e0) / tdk := by
        rw [hw, he0, ← he, hγ, hG]; unfold refroAtm; simp only [if_pos hwl]
      have hc5 : (refroAtm hm tdk pmb rh wl phi lapse).c5 = 0 := by unfold refroAtm; simp only [if_pos hwl]
      rw [hc1, hc2, hc5]
      have ha : refroA wl = (287.6155 + 1.62887 / wl ^ 2 + 0.01360 / wl ^ 4) * (273.15e-6 / 1013.25) := by
        unfold refroA
        simp only [if_pos hwl]
        by_cases h0 : wl = 0
        · subst h0; norm_num
        · field_simp
          norm_num
          ring
      unfold refroLight
      rw [← ha]
      field_simp
      ring
    · intro hwl
      have hwl' := not_lt.2 hwl
      have ha : refroA wl = 77.6890e-6 := by unfold refroA; simp only [if_neg hwl']
      have hc2 : (refroAtm hm tdk pmb rh wl phi lapse).c2 = (refroA wl * w + 6.3938e-6 * e0) / tdk := by
        rw [hw, he0, ← he, hγ, hG]; unfold refroAtm; simp only [if_neg hwl']
      have hc5 : (refroAtm hm tdk pmb rh wl phi lapse).c5 = 375463e-6 * e0 / tdk := by
        rw [he0, ← he]; unfold refroAtm; simp only [if_neg hwl']
      rw [hc1, hc2, hc5, ha]
      unfold refractivityRadio
      field_simp
      ring

/-- The hypotheses are met for ordinary air with a lapse rate of 6.5 K per km, at sea level and any latitude. -/
example (phi : ℝ) : (0 : ℝ) < 285 ∧ (0 : ℝ) < 1013 ∧ (0.0065 : ℝ) ≠ 0 ∧ 18.36 * (0.0065 : ℝ) ≠ airGravity 0 phi * 28.9644 / 8314.32 := by
  refine ⟨by norm_num, by norm_num, by norm_num, fun h => ?_⟩
  unfold airGravity at h
  have := Real.neg_one_le_cos (2 * phi)
  norm_num at h
  linarith

/-- **C53** (the integrand is the bending of the ray) Follow a ray through a spherical atmosphere, described by its zenith distance z: r(z) is the distance from the centre of the Earth and θ(z) the
angle at the centre, so that n r sin z is constant and tan z = r dθ/dr.  The direction of the ray in space is z + θ, and the rate at which it turns with z is what palRefro integrates. -/
theorem C53_bending (atm : ℝ → ℝ × ℝ) (sk0 z D r' : ℝ) (r θ : ℝ → ℝ) (hn : HasDerivAt (fun x => (atm x).1) D (r z)) (hD : (atm (r z)).2 = r z * D)
    (hr : HasDerivAt r r' z) (hray : ∀ᶠ s in nhds z, (atm (r s)).1 * r s * sin s = sk0) (hθ : HasDerivAt θ (tan z / r z * r') z)
    (h0 : r z ≠ 0) (hc : cos z ≠ 0) (hx : (atm (r z)).1 + (atm (r z)).2 ≠ 0) :
    HasDerivAt (fun s => s + θ s) (refroNode atm sk0 z (r z)).2 z := by
  rw [C53_node atm sk0 z (r z) hray.self_of_nhds]
  refine ((hasDerivAt_id z).add hθ).congr_deriv ?_
  have d1 : HasDerivAt (fun s => (atm (r s)).1) (D * r') z := HasDerivAt.comp z hn hr
  have d2 := (d1.mul hr).mul (Real.hasDerivAt_sin z)
  have d3 : HasDerivAt (fun _ : ℝ => sk0) 0 z := hasDerivAt_const z sk0
  have he : (D * r' * r z + (atm (r z)).1 * r') * sin z + (atm (r z)).1 * r z * cos z = 0 :=
    (d2.congr_of_eventuallyEq (hray.mono fun s hs => by simpa using hs.symm)).unique d3
  rw [hD] at hx ⊢
  generalize (atm (r z)).1 = n at *
  generalize r z = ρ at *
  rw [Real.tan_eq_sin_div_cos]
  dsimp only
  field_simp
  linear_combination he

/-- The hypotheses of C53_bending are met: with the constant index 2, the straight line
r = 3/sin z, θ = -z. -/
example : ∃ (r θ : ℝ → ℝ) (r' : ℝ), HasDerivAt r r' (π / 4) ∧ HasDerivAt θ (tan (π / 4) / r (π / 4) * r') (π / 4) ∧ (∀ᶠ s in nhds (π / 4), (2 : ℝ) * r s * sin s = 6) := by
  have hs : sin (π / 4) ≠ 0 := by rw [Real.sin_pi_div_four]; positivity
  have hc : cos (π / 4) ≠ 0 := by rw [Real.cos_pi_div_four]; positivity
  have d := (hasDerivAt_const (π / 4) (3 : ℝ)).div (Real.hasDerivAt_sin (π / 4)) hs
  refine ⟨fun s => 3 / sin s, fun s => -s, _, d, ?_, ?_⟩
  · refine (hasDerivAt_id (π / 4)).neg.congr_deriv ?_
    rw [Real.tan_eq_sin_div_cos]
    field_simp
    ring
  · filter_upwards [(Real.continuous_sin.tendsto (π / 4)).eventually_ne hs] with s h
    field_simp
    norm_num

end Pal.Props
