import Verif.Lemmas.Altaz

/-!
# Property C29: palAltaz
-/

namespace Pal.Props
open Pal Pal.Spec Real Filter Topology

/-- **C29** (values) palAltaz delivers the azimuth and elevation of palDe2h and, except exactly at the zenith or nadir, the parallactic angle of palPa. -/
theorem C29_altaz_values (ha dec phi : ℝ) :
    (palAltaz ha dec phi).az = (palDe2h ha dec phi).1 ∧ (palAltaz ha dec phi).el = (palDe2h ha dec phi).2 ∧
    (cos (palAltaz ha dec phi).el ≠ 0 → (palAltaz ha dec phi).pa = palPa ha dec phi) := by
  refine ⟨?_, ?_, fun hz => ?_⟩
  · have h : ∀ x y : ℝ, √(x * x + y * y) = 0 ↔ x * x + y * y = 0 := by
      intro x y
      rw [Real.sqrt_eq_zero (add_nonneg (mul_self_nonneg _) (mul_self_nonneg _))]
    have e : -cos ha * cos dec * sin phi + sin dec * cos phi = -(cos ha * cos dec) * sin phi + sin dec * cos phi := by ring
    unfold palDe2h
    dsimp only
    rw [e]
    by_cases h0 : (-(cos ha * cos dec) * sin phi + sin dec * cos phi) * (-(cos ha * cos dec) * sin phi + sin dec * cos phi) +
        -sin ha * cos dec * (-sin ha * cos dec) = 0
    · unfold palAltaz; dsimp only; rw [if_pos h0, if_pos ((h _ _).2 h0)]
    · unfold palAltaz; dsimp only; rw [if_neg h0, if_neg (fun hh => h0 ((h _ _).1 hh))]
  · unfold palAltaz palDe2h
    simp only [neg_mul]
  · rw [altaz_cos_el] at hz
    have hpos : azC dec phi ha * azC dec phi ha + azS phi ha * azS phi ha > 0 := by
      rw [az_cs, ← azR_sq]; exact mul_self_pos.2 hz
    have e : (palAltaz ha dec phi).pa = if azC dec phi ha * azC dec phi ha + azS phi ha * azS phi ha > 0 then atan2 (azS phi ha) (azC dec phi ha) else π - ha := rfl
    rw [e, if_pos hpos]
    have e1 : sin phi * cos dec - cos phi * sin dec * cos ha = azC dec phi ha := by unfold azC; ring
    have e2 : cos phi * sin ha = azS phi ha := by unfold azS; ring
    unfold palPa
    dsimp only
    rw [e1, e2, if_neg]
    rintro ⟨h1, h2⟩
    rw [h1, h2] at hpos
    simp at hpos

/-- **C29** (at the zenith) There palAltaz and palPa differ: palAltaz returns π minus hour angle, palPa zero. -/
theorem C29_altaz_zenith_differs (phi : ℝ) : (palAltaz 0 phi phi).pa = π ∧ palPa 0 phi phi = 0 := by
  constructor
  · unfold palAltaz
    have : ¬ (cos phi * sin phi - 1 * (sin phi * cos phi)) * (cos phi * sin phi - 1 * (sin phi * cos phi)) + 0 * cos phi * (0 * cos phi) > 0 := by
      have : (cos phi * sin phi - 1 * (sin phi * cos phi)) = 0 := by ring
      rw [this]; simp
    simp only [Real.sin_zero, Real.cos_zero, if_neg this, sub_zero]
  · unfold palPa
    have : sin phi * cos phi - cos phi * sin phi * 1 = 0 := by ring
    simp only [Real.sin_zero, Real.cos_zero, mul_zero, this]
    simp [atan2_zero_pos]

/-- **C29** (rates) Wherever the object is not within 1e-15 of the zenith or nadir, the velocities are the derivatives with respect to hour angle of azimuth, elevation
and parallactic angle (for the two angles that wrap round: of their sine and cosine), and the accelerations are the derivatives of the velocities. -/
theorem C29_altaz_rates (ha dec phi : ℝ) (hz : 1 / 10 ^ 30 < cos (palAltaz ha dec phi).el ^ 2) :
    let o := palAltaz ha dec phi
    HasDerivAt (fun h => sin (palAltaz h dec phi).az) (cos o.az * o.azd) ha ∧
    HasDerivAt (fun h => cos (palAltaz h dec phi).az) (-sin o.az * o.azd) ha ∧
    HasDerivAt (fun h => (palAltaz h dec phi).el) o.eld ha ∧
    HasDerivAt (fun h => sin (palAltaz h dec phi).pa) (cos o.pa * o.pad) ha ∧
    HasDerivAt (fun h => cos (palAltaz h dec phi).pa) (-sin o.pa * o.pad) ha ∧
    HasDerivAt (fun h => (palAltaz h dec phi).azd) o.azdd ha ∧
    HasDerivAt (fun h => (palAltaz h dec phi).eld) o.eldd ha ∧
    HasDerivAt (fun h => (palAltaz h dec phi).pad) o.padd ha := by
  intro o
  rw [altaz_cos_el] at hz
  have hr0 : azR dec phi ha ≠ 0 := by
    intro h; rw [h] at hz; norm_num at hz
  have dX := azX_deriv dec phi ha
  have dY := azY_deriv dec ha
  have dZ := azZ_deriv dec phi ha
  have dC := azC_deriv dec phi ha
  have dS := azS_deriv phi ha
  have dR := azR_deriv dec phi ha hr0
  have hev : ∀ᶠ t in 𝓝 ha, 1 / 10 ^ 30 < azR dec phi t ^ 2 := by
    have hc : ContinuousAt (fun t => azR dec phi t ^ 2) ha := (dR.continuousAt).pow 2
    exact hc.eventually (lt_mem_nhds hz)
  have hne : ∀ t, 1 / 10 ^ 30 < azR dec phi t ^ 2 → azR dec phi t ≠ 0 := by
    intro t h h0; rw [h0] at h; norm_num at h
  obtain ⟨q1, q2, q3, q4, q5, q6⟩ := altaz_rates ha dec phi hz.le
  obtain ⟨a1, a2⟩ := altaz_az ha dec phi hr0
  obtain ⟨p1, p2⟩ := altaz_pa ha dec phi hr0
  -- relations between the components
  have s1 := sin_sq_add_cos_sq ha
  have s2 := sin_sq_add_cos_sq dec
  have s3 := sin_sq_add_cos_sq phi
  have rX : sin ha * cos dec * sin phi = -azY dec ha * sin phi := by unfold azY; ring
  have rY : -cos ha * cos dec = azX dec phi ha * sin phi - azZ dec phi ha * cos phi := by
    unfold azX azZ; linear_combination (cos ha * cos dec) * s3
  have rZ : -(sin ha * cos dec * cos phi) = azY dec ha * cos phi := by unfold azY; ring
  rw [rX] at dX
  rw [rY] at dY
  rw [rZ] at dZ dR
  have hR2 : azR dec phi ha * azR dec phi ha = 1 - azZ dec phi ha * azZ dec phi ha := by
    rw [azR_sq]; linear_combination az_sq dec phi ha
  have hX2 : azX dec phi ha * azX dec phi ha + azY dec ha * azY dec ha = azR dec phi ha * azR dec phi ha := (azR_sq _ _ _).symm
  have rS : cos ha * cos phi * (azR dec phi ha * azR dec phi ha) + azS phi ha * (azZ dec phi ha * azY dec ha * cos phi) = -azC dec phi ha * azX dec phi ha * cos phi := by
    exact az_rS dec phi ha
  have rC : sin ha * (sin dec * cos phi) * (azR dec phi ha * azR dec phi ha) + azC dec phi ha * (azZ dec phi ha * azY dec ha * cos phi) = azS phi ha * azX dec phi ha * cos phi := by
    exact az_rC dec phi ha
  refine ⟨?_, ?_, ?_, ?_, ?_, ?_, ?_, ?_⟩
  · have hf : (fun h => sin (palAltaz h dec phi).az) =ᶠ[𝓝 ha] fun t => azY dec t / azR dec phi t := by
      filter_upwards [hev] with t ht
      rw [eq_div_iff (hne t ht), mul_comm]; exact (altaz_az t dec phi (hne t ht)).2
    refine HasDerivAt.congr_of_eventuallyEq ((dY.div dR hr0).congr_deriv ?_) hf
    have hc : cos o.az = azX dec phi ha / azR dec phi ha := by rw [eq_div_iff hr0, mul_comm]; exact a1
    rw [hc, show o.azd = _ from q2]
    generalize azX dec phi ha = X at *
    generalize azY dec ha = Y at *
    generalize azZ dec phi ha = Z at *
    generalize azR dec phi ha = R at *
    field_simp
    linear_combination (Z * cos phi) * hX2
  · have hf : (fun h => cos (palAltaz h dec phi).az) =ᶠ[𝓝 ha] fun t => azX dec phi t / azR dec phi t := by
      filter_upwards [hev] with t ht
      rw [eq_div_iff (hne t ht), mul_comm]; exact (altaz_az t dec phi (hne t ht)).1
    refine HasDerivAt.congr_of_eventuallyEq ((dX.div dR hr0).congr_deriv ?_) hf
    have hc : sin o.az = azY dec ha / azR dec phi ha := by rw [eq_div_iff hr0, mul_comm]; exact a2
    rw [hc, show o.azd = _ from q2]
    generalize azX dec phi ha = X at *
    generalize azY dec ha = Y at *
    generalize azZ dec phi ha = Z at *
    generalize azR dec phi ha = R at *
    field_simp
    ring
  · have hf : (fun h => (palAltaz h dec phi).el) = fun t => arcsin (azZ dec phi t) := by
      funext t
      rw [← altaz_sin_el t dec phi]
      have := abs_le.1 (abs_atan2_le (y := azZ dec phi t) (x := azR dec phi t) (Real.sqrt_nonneg _))
      rw [Real.arcsin_sin]
      · exact this.1
      · exact this.2
    rw [hf]
    have hRpos : 0 < azR dec phi ha := lt_of_le_of_ne (Real.sqrt_nonneg _) (Ne.symm hr0)
    have hlt : azZ dec phi ha * azZ dec phi ha < 1 := by nlinarith
    have h1 : azZ dec phi ha ≠ -1 := by intro h; rw [h] at hlt; norm_num at hlt
    have h2 : azZ dec phi ha ≠ 1 := by intro h; rw [h] at hlt; norm_num at hlt
    have := (Real.hasDerivAt_arcsin h1 h2).comp ha dZ
    refine this.congr_deriv ?_
    rw [show o.eld = _ from q3]
    have : √(1 - azZ dec phi ha ^ 2) = azR dec phi ha := by
      rw [sq, ← hR2, Real.sqrt_mul_self hRpos.le]
    rw [this]; field_simp
  · have hf : (fun h => sin (palAltaz h dec phi).pa) =ᶠ[𝓝 ha] fun t => azS phi t / azR dec phi t := by
      filter_upwards [hev] with t ht
      rw [eq_div_iff (hne t ht), mul_comm]; exact (altaz_pa t dec phi (hne t ht)).2
    refine HasDerivAt.congr_of_eventuallyEq ((dS.div dR hr0).congr_deriv ?_) hf
    have hc : cos o.pa = azC dec phi ha / azR dec phi ha := by rw [eq_div_iff hr0, mul_comm]; exact p1
    rw [hc, show o.pad = _ from q1]
    clear_value o
    clear hf a1 a2 p1 p2 q1 q2 q3 q4 q5 q6 dX dY dZ dC dS dR hev hne hc
    generalize azX dec phi ha = X at *
    generalize azY dec ha = Y at *
    generalize azZ dec phi ha = Z at *
    generalize azR dec phi ha = R at *
    generalize azS phi ha = S at *
    generalize azC dec phi ha = C at *
    field_simp
    linear_combination rS
  · have hf : (fun h => cos (palAltaz h dec phi).pa) =ᶠ[𝓝 ha] fun t => azC dec phi t / azR dec phi t := by
      filter_upwards [hev] with t ht
      rw [eq_div_iff (hne t ht), mul_comm]; exact (altaz_pa t dec phi (hne t ht)).1
    refine HasDerivAt.congr_of_eventuallyEq ((dC.div dR hr0).congr_deriv ?_) hf
    have hc : sin o.pa = azS phi ha / azR dec phi ha := by rw [eq_div_iff hr0, mul_comm]; exact p2
    rw [hc, show o.pad = _ from q1]
    clear_value o
    clear hf a1 a2 p1 p2 q1 q2 q3 q4 q5 q6 dX dY dZ dC dS dR hev hne hc
    generalize azX dec phi ha = X at *
    generalize azY dec ha = Y at *
    generalize azZ dec phi ha = Z at *
    generalize azR dec phi ha = R at *
    generalize azS phi ha = S at *
    generalize azC dec phi ha = C at *
    field_simp
    linear_combination rC
  · have hf : (fun h => (palAltaz h dec phi).azd) =ᶠ[𝓝 ha] fun t => sin phi + azZ dec phi t * (-azX dec phi t * cos phi / azR dec phi t ^ 2) := by
      filter_upwards [hev] with t ht
      exact (altaz_rates t dec phi ht.le).2.1
    have hd := (dZ.mul (((dX.neg).mul_const (cos phi)).div (dR.pow 2) (pow_ne_zero 2 hr0))).const_add (sin phi)
    refine HasDerivAt.congr_of_eventuallyEq (hd.congr_deriv ?_) hf
    rw [show o.azdd = _ from q4]
    simp only [Pi.pow_apply, Pi.neg_apply, Pi.div_apply]
    clear_value o
    clear hf hd a1 a2 p1 p2 q1 q2 q3 q4 q5 q6 dX dY dZ dC dS dR hev hne
    generalize azX dec phi ha = X at *
    generalize azY dec ha = Y at *
    generalize azZ dec phi ha = Z at *
    generalize azR dec phi ha = R at *
    have hsp : R ^ 2 = 1 - Z * Z := by rw [sq, hR2]
    push_cast
    field_simp
    linear_combination (-2 * Y * cos phi ^ 2 * X) * hR2
  · have hf : (fun h => (palAltaz h dec phi).eld) =ᶠ[𝓝 ha] fun t => cos phi * azY dec t / azR dec phi t := by
      filter_upwards [hev] with t ht
      exact (altaz_rates t dec phi ht.le).2.2.1
    have hd := (dY.const_mul (cos phi)).div dR hr0
    refine HasDerivAt.congr_of_eventuallyEq (hd.congr_deriv ?_) hf
    rw [show o.eldd = _ from q5]
    clear_value o
    clear hf hd a1 a2 p1 p2 q1 q2 q3 q4 q5 q6 dX dY dZ dC dS dR hev hne
    generalize azX dec phi ha = X at *
    generalize azY dec ha = Y at *
    generalize azZ dec phi ha = Z at *
    generalize azR dec phi ha = R at *
    field_simp
    linear_combination (Z * cos phi ^ 2) * hX2
  · have hf : (fun h => (palAltaz h dec phi).pad) =ᶠ[𝓝 ha] fun t => -azX dec phi t * cos phi / azR dec phi t ^ 2 := by
      filter_upwards [hev] with t ht
      exact (altaz_rates t dec phi ht.le).1
    have hd := ((dX.neg).mul_const (cos phi)).div (dR.pow 2) (pow_ne_zero 2 hr0)
    refine HasDerivAt.congr_of_eventuallyEq (hd.congr_deriv ?_) hf
    rw [show o.padd = _ from q6]
    simp only [Pi.pow_apply, Pi.neg_apply, Pi.div_apply]
    clear_value o
    clear hf hd a1 a2 p1 p2 q1 q2 q3 q4 q5 q6 dX dY dZ dC dS dR hev hne
    generalize azX dec phi ha = X at *
    generalize azY dec ha = Y at *
    generalize azZ dec phi ha = Z at *
    generalize azR dec phi ha = R at *
    push_cast
    field_simp
    ring

/-- The hypothesis holds e.g. for a star on the equator seen from the pole: it stays on the horizon. -/
example (ha : ℝ) : 1 / 10 ^ 30 < cos (palAltaz ha 0 (π / 2)).el ^ 2 := by
  rw [altaz_cos_el, sq, azR_sq]
  simp [azX, azY]
  have := sin_sq_add_cos_sq ha
  rw [show cos ha * cos ha + sin ha * sin ha = 1 by linear_combination this]
  norm_num

end Pal.Props
