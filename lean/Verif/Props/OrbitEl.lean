import Verif.Props.Orbit

/-!
# Conversion from conventional elements: palEl2ue and palPlanel (C58, C82, C83, C84)
-/

namespace Pal.Props
open Real Pal.Spec Pal.Orbit

/-- Acceptable elements, according to the documentation of palEl2ue: form 1 to 3, eccentricity from 0 to 10 and below 1 unless the form is 3, positive distance,
positive daily motion in form 1. -/
def GoodElements (jform : ℤ) (aorq e dm : ℝ) : Prop :=
  1 ≤ jform ∧ jform ≤ 3 ∧ 0 ≤ e ∧ e ≤ 10 ∧ (e < 1 ∨ jform = 3) ∧ 0 < aorq ∧ (jform = 1 → 0 < dm)

theorem std_pos {jform : ℤ} {epoch anode perih aorq e aorl dm : ℝ} (h : GoodElements jform aorq e dm) :
    0 < (elStd jform epoch anode perih aorq e aorl dm).2.2.1 ∧ 0 < (elStd jform epoch anode perih aorq e aorl dm).2.2.2 := by
  obtain ⟨h1, h2, h3, h4, h5, h6, h7⟩ := h
  unfold elStd
  split
  · rename_i hj
    have h8 := h7 hj
    have h9 : e < 1 := by rcases h5 with h | h; exact h; omega
    have hg := gcon_pos
    refine ⟨mul_pos h6 (by linarith), ?_⟩
    simp only
    positivity
  · split
    · rename_i hj
      have h9 : e < 1 := by rcases h5 with h | h; exact h; omega
      exact ⟨mul_pos h6 (by linarith), one_pos⟩
    · exact ⟨h6, one_pos⟩

/-- The distance computed from the perihelion elements is positive. -/
theorem perihelion_R_pos {date pht argph q cm orbinc anode e : ℝ} (hq : 0 < q) (hcm : 0 < cm) (he : 0 ≤ e) (ψ : ℝ) :
    0 < ueR (elPerihelion date pht argph q cm orbinc anode e) (ueFun (elPerihelion date pht argph q cm orbinc anode e).alpha ψ) := by
  have ha : (elPerihelion date pht argph q cm orbinc anode e).alpha = cm * (e - 1) / q := rfl
  have hR : ∀ S, ueR (elPerihelion date pht argph q cm orbinc anode e) S = q * S.s0 + 0 * S.s1 + cm * S.s2 := fun S => rfl
  rw [hR, ha]
  obtain ⟨h2, κ, δ, hκ, hδ, hkd, -, -, e2, e3⟩ := ueFun_spec (cm * (e - 1) / q) ψ
  generalize ueFun (cm * (e - 1) / q) ψ = S at *
  have hw : 0 ≤ cm * S.s2 := mul_nonneg hcm.le h2
  have e2' : q * S.s0 = q + (e - 1) * (1 - κ) * (cm * S.s2) := by
    rw [e2]; field_simp
  have hk := abs_le.mp hκ
  have hk1 : κ < 1 := by linarith [hk.2, (by norm_num : (15 : ℝ) / 10 ^ 15 < 1)]
  rw [e2']
  by_cases he1 : 1 ≤ e
  · have : 0 ≤ (e - 1) * (1 - κ) * (cm * S.s2) := mul_nonneg (mul_nonneg (by linarith) (by linarith)) hw
    linarith
  · push Not at he1
    rcases hkd with rfl | rfl
    · have : 0 ≤ e * (cm * S.s2) := mul_nonneg he hw
      nlinarith [this]
    · have hs0 : -1 ≤ S.s0 := by
        rcases lt_or_eq_of_le h2 with hp | hp
        · by_contra hc
          push Not at hc
          have : S.s2 * (1 + S.s0) < 0 := mul_neg_of_pos_of_neg hp (by linarith)
          nlinarith [sq_nonneg S.s1]
        · rw [← hp] at e2; rw [e2]; norm_num
      set W := (1 - e) * (cm * S.s2) with hW
      have hW0 : 0 ≤ W := mul_nonneg (by linarith) hw
      have hWb : W * (1 - κ) ≤ 2 * q := by nlinarith [mul_le_mul_of_nonneg_left hs0 hq.le]
      have hk2 : (1 : ℝ) / 2 ≤ 1 - κ := by linarith [hk.2, (by norm_num : (15 : ℝ) / 10 ^ 15 ≤ 1 / 2)]
      have hW4 : W ≤ 4 * q := by nlinarith
      have h5 : -(κ * W) ≤ 15 / 10 ^ 15 * (4 * q) := by
        have : -κ * W ≤ 15 / 10 ^ 15 * W := mul_le_mul_of_nonneg_right (by linarith) hW0
        have h6 : (15 : ℝ) / 10 ^ 15 * W ≤ 15 / 10 ^ 15 * (4 * q) := mul_le_mul_of_nonneg_left hW4 (by norm_num)
        linarith
      have h7 : 0 ≤ e * (cm * S.s2) := mul_nonneg he hw
      have h8 : q + (e - 1) * (1 - κ) * (cm * S.s2) + 0 * S.s1 + cm * S.s2 = q + e * (cm * S.s2) + κ * W := by rw [hW]; ring
      rw [h8]
      have h9 : (15 : ℝ) / 10 ^ 15 * (4 * q) < q := by
        have : (15 : ℝ) / 10 ^ 15 * 4 < 1 := by norm_num
        nlinarith
      linarith

/-- C58: palEl2ue reports an illegal form (-1), an illegal eccentricity (-2), an illegal distance (-3), an illegal daily motion (-4), in this order of priority,
and leaves the elements u alone in these cases. -/
theorem C58_validation (date : ℝ) (jform : ℤ) (epoch orbinc anode perih aorq e aorl dm : ℝ) (u : Univ) :
    ((jform < 1 ∨ 3 < jform) → palEl2ue date jform epoch orbinc anode perih aorq e aorl dm u = some (u, -1)) ∧
    ((1 ≤ jform ∧ jform ≤ 3) → (e < 0 ∨ 10 < e ∨ (1 ≤ e ∧ jform ≠ 3)) → palEl2ue date jform epoch orbinc anode perih aorq e aorl dm u = some (u, -2)) ∧
    ((1 ≤ jform ∧ jform ≤ 3) → (0 ≤ e ∧ e ≤ 10 ∧ (e < 1 ∨ jform = 3)) → aorq ≤ 0 → palEl2ue date jform epoch orbinc anode perih aorq e aorl dm u = some (u, -3)) ∧
    (jform = 1 → (0 ≤ e ∧ e < 1) → 0 < aorq → dm ≤ 0 → palEl2ue date jform epoch orbinc anode perih aorq e aorl dm u = some (u, -4)) := by
  refine ⟨fun h => ?_, fun h h2 => ?_, fun h h2 h3 => ?_, fun h h2 h3 h4 => ?_⟩
  · unfold palEl2ue; rw [if_pos h]
  · unfold palEl2ue; rw [if_neg (by omega), if_pos (by exact h2)]
  · unfold palEl2ue
    rw [if_neg (by omega), if_neg, if_pos h3]
    rintro (h5 | h5 | ⟨h5, h6⟩)
    · linarith [h2.1]
    · linarith [h2.2.1]
    · rcases h2.2.2 with h7 | h7
      · linarith
      · exact h6 h7
  · unfold palEl2ue
    rw [if_neg (by omega), if_neg, if_neg (not_le.mpr h3), if_pos ⟨h, h4⟩]
    rintro (h5 | h5 | ⟨h5, h6⟩) <;> linarith [h2.1, h2.2]

/-- What palEl2ue does with acceptable elements. -/
theorem el2ue_good {date : ℝ} {jform : ℤ} {epoch orbinc anode perih aorq e aorl dm : ℝ} (u : Univ) (h : GoodElements jform aorq e dm) :
    palEl2ue date jform epoch orbinc anode perih aorq e aorl dm u =
      match palUe2pv date (elPerihelion date (elStd jform epoch anode perih aorq e aorl dm).1 (elStd jform epoch anode perih aorq e aorl dm).2.1
        (elStd jform epoch anode perih aorq e aorl dm).2.2.1 (elStd jform epoch anode perih aorq e aorl dm).2.2.2 orbinc anode e) ⟨fun _ => 0, fun _ => 0⟩ with
      | none => none
      | some (_, pv, j) =>
        if j ≠ 0 then some (u, -5)
        else
          if (palPv2ue pv date ((elStd jform epoch anode perih aorq e aorl dm).2.2.2 - 1) u).2 ≠ 0 then
            some ((palPv2ue pv date ((elStd jform epoch anode perih aorq e aorl dm).2.2.2 - 1) u).1, -5)
          else some ((palPv2ue pv date ((elStd jform epoch anode perih aorq e aorl dm).2.2.2 - 1) u).1, 0) := by
  obtain ⟨h1, h2, h3, h4, h5, h6, h7⟩ := h
  unfold palEl2ue
  rw [if_neg (by omega), if_neg, if_neg (not_le.mpr h6), if_neg]
  · rfl
  · rintro ⟨a, b⟩; linarith [h7 a]
  · rintro (a | a | ⟨a, b⟩)
    · linarith
    · linarith
    · rcases h5 with h | h
      · linarith
      · exact b h

/-- The cases of palPv2ue. -/
theorem pv2ue_fail {pv : PV} {date pmass : ℝ} {u : Univ} (h : (palPv2ue pv date pmass u).2 ≠ 0) : (palPv2ue pv date pmass u).1 = u := by
  unfold palPv2ue at h ⊢
  split
  · rfl
  rename_i h1
  rw [if_neg h1] at h
  dsimp only at h ⊢
  split
  · rfl
  rename_i h2
  rw [if_neg h2] at h
  split
  · rfl
  rename_i h3
  rw [if_neg h3] at h
  exact absurd rfl h

/-- palUe2pv never divides by zero for perihelion elements. -/
theorem ue2pv_perihelion {date pht argph q cm orbinc anode e : ℝ} (hq : 0 < q) (hcm : 0 < cm) (he : 0 ≤ e) (d : ℝ) (pv : PV) :
    palUe2pv d (elPerihelion date pht argph q cm orbinc anode e) pv ≠ none := by
  intro h
  unfold palUe2pv at h
  rw [if_neg (show ¬ (elPerihelion date pht argph q cm orbinc anode e).r0 = 0 from ne_of_gt hq)] at h
  dsimp only at h
  split at h
  · cases h
  rename_i hd
  obtain ⟨ψ, rfl, rfl⟩ := loop_done hd
  rw [if_neg (ne_of_gt (perihelion_R_pos hq hcm he ψ))] at h
  cases h

/-- C58: for acceptable elements palEl2ue always comes to a result without dividing by zero; the status is 0 or -5, and with -5 the elements u are left alone. -/
theorem C58_good_elements (date : ℝ) (jform : ℤ) (epoch orbinc anode perih aorq e aorl dm : ℝ) (u : Univ) (h : GoodElements jform aorq e dm) :
    ∃ u' j, palEl2ue date jform epoch orbinc anode perih aorq e aorl dm u = some (u', j) ∧ (j = 0 ∨ j = -5) ∧ (j ≠ 0 → u' = u) := by
  obtain ⟨hq, hcm⟩ := std_pos (epoch := epoch) (anode := anode) (perih := perih) (aorl := aorl) h
  rw [el2ue_good u h]
  have hn := ue2pv_perihelion (date := date) (pht := (elStd jform epoch anode perih aorq e aorl dm).1) (argph := (elStd jform epoch anode perih aorq e aorl dm).2.1)
    (orbinc := orbinc) (anode := anode) hq hcm h.2.2.1 date ⟨fun _ => 0, fun _ => 0⟩
  split
  · rename_i h0; exact absurd h0 hn
  · split
    · exact ⟨u, -5, rfl, Or.inr rfl, fun _ => rfl⟩
    · split
      · rename_i h1
        exact ⟨_, -5, rfl, Or.inr rfl, fun _ => pv2ue_fail h1⟩
      · exact ⟨_, 0, rfl, Or.inl rfl, fun h => absurd rfl h⟩

/-- C58: major-planet elements whose daily motion is below the one of a massless planet at that distance are always rejected with -5: the combined mass they imply
would be less than the mass of the Sun. -/
theorem C58_slow_planet (date epoch orbinc anode perih aorq e aorl dm : ℝ) (u : Univ) (h : GoodElements 1 aorq e dm) (hdm : dm ^ 2 * aorq ^ 3 < gcon ^ 2) :
    palEl2ue date 1 epoch orbinc anode perih aorq e aorl dm u = some (u, -5) := by
  obtain ⟨u', j, hr, -, hu⟩ := C58_good_elements date 1 epoch orbinc anode perih aorq e aorl dm u h
  have hj : j = -5 := by
    rw [el2ue_good u h] at hr
    have hcm : (elStd 1 epoch anode perih aorq e aorl dm).2.2.2 - 1 < 0 := by
      simp only [elStd, if_true]
      have hg := gcon_pos
      have : dm / gcon * (dm / gcon) * aorq * aorq * aorq = dm ^ 2 * aorq ^ 3 / gcon ^ 2 := by field_simp
      rw [this, sub_neg, div_lt_one (by positivity)]
      exact hdm
    split at hr
    · cases hr
    · split at hr
      · simp only [Option.some.injEq, Prod.mk.injEq] at hr; exact hr.2.symm
      · rw [(C61_status _ _ _ _).1 hcm] at hr
        simp only [ne_eq] at hr
        simp at hr
        exact hr.2.symm
  rw [hr, hu (by rw [hj]; norm_num), hj]

/-- Non-vacuity: acceptable elements of each form, and a planet that is too slow. -/
example : GoodElements 1 1 0.1 gcon ∧ GoodElements 2 1 0.1 0 ∧ GoodElements 3 1 1.5 0 := by
  have := gcon_pos
  refine ⟨⟨by norm_num, by norm_num, by norm_num, by norm_num, Or.inl (by norm_num), by norm_num, fun _ => this⟩,
    ⟨by norm_num, by norm_num, by norm_num, by norm_num, Or.inl (by norm_num), by norm_num, fun h => absurd h (by norm_num)⟩,
    ⟨by norm_num, by norm_num, by norm_num, by norm_num, Or.inr rfl, by norm_num, fun h => absurd h (by norm_num)⟩⟩
example : GoodElements 1 1 0.1 (gcon / 2) ∧ (gcon / 2) ^ 2 * 1 ^ 3 < gcon ^ 2 := by
  have := gcon_pos
  refine ⟨⟨by norm_num, by norm_num, by norm_num, by norm_num, Or.inl (by norm_num), by norm_num, fun _ => by positivity⟩, ?_⟩
  nlinarith

/-- The model's rotation is the rotation of the specification. -/
theorem orbitToEqu_eq (argph inc node x y : ℝ) : orbitToEqu argph inc node x y = fromOrbit obSE obCE argph inc node x y := by
  unfold orbitToEqu fromOrbit tilt axisX axisZ
  funext i
  fin_cases i <;> simp [Matrix.mul_apply, Fin.sum_univ_three, Matrix.mulVec, dotProduct, Matrix.vecHead, Matrix.vecTail] <;> ring

theorem cross_perihelion (argph inc node x y : ℝ) :
    cross (fromOrbit obSE obCE argph inc node x 0) (fromOrbit obSE obCE argph inc node 0 y) = (x * y) • orbitNormal obSE obCE inc node := by
  rw [← orbitToEqu_eq, ← orbitToEqu_eq]
  unfold orbitToEqu orbitNormal cross
  have h1 := sin_sq_add_cos_sq argph
  have h3 := sin_sq_add_cos_sq node
  funext i
  fin_cases i <;> simp
  · linear_combination ((obCE ^ 2 + obSE ^ 2) * x * y * sin inc * sin node) * h1
  · linear_combination (-obCE * x * y * sin inc * cos node) * h1 - (obSE * x * y * cos inc) * ((sin argph ^ 2 + cos argph ^ 2) * h3 + h1)
  · linear_combination (-obSE * x * y * sin inc * cos node) * h1 + (obCE * x * y * cos inc) * ((sin argph ^ 2 + cos argph ^ 2) * h3 + h1)

/-- What a successful palEl2ue has done. -/
theorem el2ue_ok {date : ℝ} {jform : ℤ} {epoch orbinc anode perih aorq e aorl dm : ℝ} {u u' : Univ} (h : GoodElements jform aorq e dm)
    (hr : palEl2ue date jform epoch orbinc anode perih aorq e aorl dm u = some (u', 0)) :
    ∃ ul' pv, palUe2pv date (elPerihelion date (elStd jform epoch anode perih aorq e aorl dm).1 (elStd jform epoch anode perih aorq e aorl dm).2.1
        (elStd jform epoch anode perih aorq e aorl dm).2.2.1 (elStd jform epoch anode perih aorq e aorl dm).2.2.2 orbinc anode e) ⟨fun _ => 0, fun _ => 0⟩ =
          some (ul', pv, 0) ∧
      palPv2ue pv date ((elStd jform epoch anode perih aorq e aorl dm).2.2.2 - 1) u = (u', 0) := by
  rw [el2ue_good u h] at hr
  split at hr
  · cases hr
  rename_i ul' pv j hue
  split at hr
  · simp at hr
  rename_i hj
  push Not at hj
  subst hj
  split at hr
  · simp at hr
  rename_i hj
  push Not at hj
  refine ⟨ul', pv, hue, ?_⟩
  simp only [Option.some.injEq, Prod.mk.injEq, and_true] at hr
  exact Prod.ext hr hj

/-- Status 0 means that the elements were acceptable. -/
theorem el2ue_zero_good {date : ℝ} {jform : ℤ} {epoch orbinc anode perih aorq e aorl dm : ℝ} {u u' : Univ}
    (hr : palEl2ue date jform epoch orbinc anode perih aorq e aorl dm u = some (u', 0)) : GoodElements jform aorq e dm := by
  unfold palEl2ue at hr
  split at hr
  · simp at hr
  rename_i h1
  split at hr
  · simp at hr
  rename_i h2
  split at hr
  · simp at hr
  rename_i h3
  split at hr
  · simp at hr
  rename_i h4
  push Not at h1 h2 h3 h4
  refine ⟨by omega, by omega, h2.1, h2.2.1, ?_, h3, h4⟩
  by_cases h : e < 1
  · exact Or.inl h
  · exact Or.inr (h2.2.2 (not_lt.mp h))


/-- The standard form of the elements, as the documentation of palEl2ue describes the three forms: time of perihelion, argument of perihelion, perihelion distance and
combined mass. -/
noncomputable def standardForm (jform : ℤ) (epoch anode perih aorq e aorl dm : ℝ) : ℝ × ℝ × ℝ × ℝ :=
  if jform = 1 then (epoch - (aorl - perih) / dm, perih - anode, aorq * (1 - e), dm ^ 2 * aorq ^ 3 / gcon ^ 2)
  else if jform = 2 then (epoch - aorl / (gcon / √(aorq ^ 3)), perih, aorq * (1 - e), 1)
  else (epoch, perih, aorq, 1)

theorem elStd_eq (jform : ℤ) (epoch anode perih aorq e aorl dm : ℝ) :
    elStd jform epoch anode perih aorq e aorl dm = standardForm jform epoch anode perih aorq e aorl dm := by
  have hg : gcon ≠ 0 := ne_of_gt gcon_pos
  unfold elStd standardForm
  split
  · refine Prod.ext rfl (Prod.ext rfl (Prod.ext rfl ?_))
    simp only; field_simp
  · split
    · refine Prod.ext ?_ rfl
      simp only
      rw [show aorq * aorq * aorq = aorq ^ 3 by ring, div_div_eq_mul_div]
    · rfl

/-- C82: whatever the date, the reference state that palEl2ue delivers lies in the plane given by the inclination and the node: its angular momentum is along the
normal of that plane.  Its size is √(µ q (1+e)) up to the relative errors of the prediction (see C60; ψ is the anomaly, R the distance and ρ the residual of Kepler's
equation in the last pass). -/
theorem C82_orbit_plane (date : ℝ) (jform : ℤ) (epoch orbinc anode perih aorq e aorl dm : ℝ) (u u' : Univ)
    (h : palEl2ue date jform epoch orbinc anode perih aorq e aorl dm u = some (u', 0)) (pht argph q mu : ℝ)
    (hs : standardForm jform epoch anode perih aorq e aorl dm = (pht, argph, q, mu)) :
    u'.cm = mu ∧ u'.t0 = date ∧ ∃ ψ δ : ℝ, |δ| ≤ 11 / 10 ^ 15 ∧ (7 / 10 < |mu * (e - 1) / q * ψ ^ 2| → δ = 0) ∧ ∃ S R ρ, S = ueFun (mu * (e - 1) / q) ψ ∧
      R = q * S.s0 + mu * S.s2 ∧ 0 < R ∧ ρ = q * S.s1 + mu * S.s3 - (date - pht) * gcon ∧
      cross u'.p0 u'.v0 = ((1 + mu * (δ * ψ ^ 2 / R - S.s1 * ρ / (q * R))) * √(mu * q * (1 + e))) • orbitNormal obSE obCE orbinc anode := by
  have hg := el2ue_zero_good h
  obtain ⟨ul', pv, hue, hpv⟩ := el2ue_ok hg h
  obtain ⟨hq, hcm⟩ := std_pos (epoch := epoch) (anode := anode) (perih := perih) (aorl := aorl) hg
  rw [elStd_eq, hs] at hue hpv hq hcm
  simp only at hue hpv hq hcm
  obtain ⟨-, ht, hm, hp, hv⟩ := C61_elements _ _ _ _ _ hpv
  refine ⟨by rw [hm]; ring, ht, ?_⟩
  obtain ⟨ψ, ψ', -, hr0, hR, hpp, hvv⟩ := ue2pv_ok hue
  have hRp := perihelion_R_pos (date := date) (pht := pht) (argph := argph) (orbinc := orbinc) (anode := anode) hq hcm hg.2.2.1 ψ
  obtain ⟨-, κ, δ, -, hδ, -, -, hd0, -, e3⟩ := ueFun_spec (mu * (e - 1) / q) ψ
  have hul : elPerihelion date pht argph q mu orbinc anode e = { elPerihelion date pht argph q mu orbinc anode e with
    cm := mu, alpha := mu * (e - 1) / q, t0 := pht, p0 := fromOrbit obSE obCE argph orbinc anode q 0,
    v0 := fromOrbit obSE obCE argph orbinc anode 0 (√(mu * (e - 1) / q + 2 * mu / q)), r0 := q, sigma := 0 } := by
    rw [← orbitToEqu_eq, ← orbitToEqu_eq]; rfl
  rw [hul] at hpp hvv hRp
  simp only at hpp hvv hRp
  set S := ueFun (mu * (e - 1) / q) ψ with hS
  have hRR : ∀ a t p v t' ps, ueR { cm := mu, alpha := a, t0 := t, p0 := p, v0 := v, r0 := q, sigma := 0, t := t', psi := ps } S = q * S.s0 + mu * S.s2 := by
    intros; simp [ueR]
  rw [hRR] at hvv hRp
  refine ⟨ψ, δ, hδ, hd0, S, q * S.s0 + mu * S.s2, q * S.s1 + mu * S.s3 - (date - pht) * gcon, rfl, rfl, hRp, rfl, ?_⟩
  rw [hp, hv, hpp, hvv]
  have hv' : (fun i => cd2s * (fromOrbit obSE obCE argph orbinc anode q 0 i * (-mu * S.s1 / (q * (q * S.s0 + mu * S.s2))) +
      fromOrbit obSE obCE argph orbinc anode 0 (√(mu * (e - 1) / q + 2 * mu / q)) i * (1 - mu * S.s2 / (q * S.s0 + mu * S.s2))) / cd2s) =
      fun i => fromOrbit obSE obCE argph orbinc anode q 0 i * (-mu * S.s1 / (q * (q * S.s0 + mu * S.s2))) +
      fromOrbit obSE obCE argph orbinc anode 0 (√(mu * (e - 1) / q + 2 * mu / q)) i * (1 - mu * S.s2 / (q * S.s0 + mu * S.s2)) := by
    funext i; rw [mul_div_assoc, mul_div_cancel₀]; exact cd2s_ne
  rw [hv', comb_cross, cross_perihelion, smul_smul]
  refine congrArg (· • orbitNormal obSE obCE orbinc anode) ?_
  have hsq : q * √(mu * (e - 1) / q + 2 * mu / q) = √(mu * q * (1 + e)) := by
    rw [← Real.sqrt_sq hq.le, ← Real.sqrt_mul (sq_nonneg q), Real.sqrt_sq hq.le]
    congr 1; field_simp; ring
  rw [hsq]
  refine congrArg (· * √(mu * q * (1 + e))) ?_
  have hG : (date - pht) * gcon - mu * S.s3 = q * S.s1 + 0 * S.s2 - (q * S.s1 + mu * S.s3 - (date - pht) * gcon) := by ring
  rw [hG, h_scalar (s0 := S.s0) (σ := 0) (ne_of_gt hq) (ne_of_gt hRp) (by ring), e3]
  ring

/-- C83: at the time of perihelion palEl2ue delivers exactly the perihelion state: distance q in the direction given by the argument of perihelion, the inclination
and the node, speed √(µ(1+e)/q) at right angles to it.  (A combined mass below 1, q below 0.001 AU or a speed below 0.001 AU per canonical day are rejected.) -/
theorem C83_perihelion (date : ℝ) (jform : ℤ) (epoch orbinc anode perih aorq e aorl dm : ℝ) (u : Univ) (h : GoodElements jform aorq e dm) (argph q mu : ℝ)
    (hs : standardForm jform epoch anode perih aorq e aorl dm = (date, argph, q, mu)) (hm : 1 ≤ mu)
    (hq1 : 1 / 10 ^ 3 ≤ len (fromOrbit obSE obCE argph orbinc anode q 0)) (hv1 : 1 / 10 ^ 3 ≤ len (fromOrbit obSE obCE argph orbinc anode 0 (√(mu * (1 + e) / q)))) :
    ∃ u', palEl2ue date jform epoch orbinc anode perih aorq e aorl dm u = some (u', 0) ∧ u'.t0 = date ∧ u'.cm = mu ∧
      u'.p0 = fromOrbit obSE obCE argph orbinc anode q 0 ∧ u'.v0 = fromOrbit obSE obCE argph orbinc anode 0 (√(mu * (1 + e) / q)) := by
  obtain ⟨hq, hcm⟩ := std_pos (epoch := epoch) (anode := anode) (perih := perih) (aorl := aorl) h
  rw [el2ue_good u h]
  rw [elStd_eq, hs] at hq hcm ⊢
  simp only at hq hcm ⊢
  set ul := elPerihelion date date argph q mu orbinc anode e with hul
  have hpsi : ul.psi = 0 := by
    simp only [hul, elPerihelion, sub_self, zero_mul, mul_zero, zero_div, zero_add]
    have h2q : 0 ≤ 2 * q := by linarith
    have h3 : √(8 * q * q * q) = √(2 * q) ^ 3 := by
      rw [show 8 * q * q * q = (2 * q) ^ 2 * (2 * q) by ring, Real.sqrt_mul (sq_nonneg _), Real.sqrt_sq h2q]
      have := Real.sq_sqrt h2q
      linear_combination (-√(2 * q)) * this
    have h4 : (√(2 * q) ^ 3) ^ ((1 : ℝ) / 3) = √(2 * q) := by
      rw [show (1 : ℝ) / 3 = ((3 : ℕ) : ℝ)⁻¹ by norm_num]
      exact Real.pow_rpow_inv_natCast (Real.sqrt_nonneg _) (by norm_num)
    have h5 : 0 < √(2 * q) := Real.sqrt_pos.mpr (by linarith)
    rw [h3, h4, Real.div_sqrt, sub_self, mul_zero]
  have hphs : √(mu * (e - 1) / q + 2 * mu / q) = √(mu * (1 + e) / q) := by congr 1; field_simp; ring
  have hp0 : ul.p0 = fromOrbit obSE obCE argph orbinc anode q 0 := by rw [hul, ← orbitToEqu_eq]; rfl
  have hv0 : ul.v0 = fromOrbit obSE obCE argph orbinc anode 0 (√(mu * (1 + e) / q)) := by rw [hul, ← orbitToEqu_eq, ← hphs]; rfl
  rw [C60_at_epoch date ul _ (ne_of_gt hq) rfl rfl hpsi]
  simp only [ne_eq, not_true_eq_false, if_false]
  have hst : (palPv2ue { p := ul.p0, v := fun i => cd2s * ul.v0 i } date (mu - 1) u).2 = 0 := by
    refine (C61_status _ _ _ _).2.2.2 (by linarith) (by simpa only [hp0] using hq1) ?_
    simp only [mul_div_cancel_left₀ _ cd2s_ne, hv0]
    exact hv1
  obtain ⟨-, ht, hm', hp, hv⟩ := C61_elements _ _ _ _ _ (Prod.ext rfl hst : palPv2ue { p := ul.p0, v := fun i => cd2s * ul.v0 i } date (mu - 1) u =
    ((palPv2ue { p := ul.p0, v := fun i => cd2s * ul.v0 i } date (mu - 1) u).1, 0))
  refine ⟨_, by rw [if_neg (by rw [hst]; norm_num)], ht, by rw [hm']; ring, by rw [hp, hp0], ?_⟩
  rw [hv, ← hv0]
  funext i
  simp only
  rw [mul_div_cancel_left₀ _ cd2s_ne]

/-- Non-vacuity of C83: an orbit in the plane of the ecliptic with its perihelion in the direction of the equinox. -/
example (u : Univ) : ∃ u', palEl2ue 50000 3 50000 0 0 0 2 1.5 0 0 u = some (u', 0) := by
  have h1 : (1 : ℝ) / 10 ^ 3 ≤ len (fromOrbit obSE obCE 0 0 0 2 0) := by
    rw [← orbitToEqu_eq]
    simp [orbitToEqu, len, Fin.sum_univ_three]
    norm_num
  have h2 : (1 : ℝ) / 10 ^ 3 ≤ len (fromOrbit obSE obCE 0 0 0 0 (√(1 * (1 + 1.5) / 2))) := by
    rw [← orbitToEqu_eq]
    simp only [orbitToEqu, len, Fin.sum_univ_three]
    refine Real.le_sqrt_of_sq_le ?_
    have h := Real.sq_sqrt (show (0 : ℝ) ≤ 1 * (1 + 1.5) / 2 by norm_num)
    simp only [sin_zero, cos_zero, mul_zero, mul_one, zero_add, Matrix.cons_val, sub_self, zero_mul]
    rw [sub_zero, add_zero, mul_pow, mul_pow, h, obSE, obCE]
    norm_num
  obtain ⟨u', h, -⟩ := C83_perihelion 50000 3 50000 0 0 0 2 1.5 0 0 u
    ⟨by norm_num, by norm_num, by norm_num, by norm_num, Or.inr rfl, by norm_num, fun h => absurd h (by norm_num)⟩ 0 2 1 (by simp [standardForm]) (le_refl _) h1 h2
  exact ⟨u', h⟩

/-- palEl2ue always comes to a result. -/
theorem C58_total (date : ℝ) (jform : ℤ) (epoch orbinc anode perih aorq e aorl dm : ℝ) (u : Univ) :
    ∃ u' j, palEl2ue date jform epoch orbinc anode perih aorq e aorl dm u = some (u', j) ∧ (j ≠ 0 → u' = u) := by
  by_cases h : GoodElements jform aorq e dm
  · obtain ⟨u', j, h1, -, h2⟩ := C58_good_elements date jform epoch orbinc anode perih aorq e aorl dm u h
    exact ⟨u', j, h1, h2⟩
  · unfold palEl2ue
    split
    · exact ⟨u, -1, rfl, fun _ => rfl⟩
    rename_i h1
    split
    · exact ⟨u, -2, rfl, fun _ => rfl⟩
    rename_i h2
    split
    · exact ⟨u, -3, rfl, fun _ => rfl⟩
    rename_i h3
    split
    · exact ⟨u, -4, rfl, fun _ => rfl⟩
    rename_i h4
    exfalso
    apply h
    push Not at h1 h2 h3 h4
    refine ⟨by omega, by omega, h2.1, h2.2.1, ?_, h3, h4⟩
    by_cases h : e < 1
    · exact Or.inl h
    · exact Or.inr (h2.2.2 (not_lt.mp h))

/-- C84: palPlanel succeeds exactly when palEl2ue does and then delivers exactly the reference state of its elements; otherwise it passes on the status of palEl2ue
and leaves pv alone. -/
theorem C84_planel (date : ℝ) (jform : ℤ) (epoch orbinc anode perih aorq e aorl dm : ℝ) (u : Univ) (pv : PV) :
    ∃ u' j, palEl2ue date jform epoch orbinc anode perih aorq e aorl dm u = some (u', j) ∧
      palPlanel date jform epoch orbinc anode perih aorq e aorl dm u pv =
        some (if j = 0 then { p := u'.p0, v := fun i => cd2s * u'.v0 i } else pv, j) := by
  obtain ⟨u', j, h, -⟩ := C58_total date jform epoch orbinc anode perih aorq e aorl dm u
  refine ⟨u', j, h, ?_⟩
  unfold palPlanel
  rw [h]
  dsimp only
  by_cases hj : j = 0
  · subst hj
    obtain ⟨_, pv', -, hpv⟩ := el2ue_ok (el2ue_zero_good h) h
    have hrt := C61_round_trip _ pv _ _ _ _ hpv
    obtain ⟨-, -, -, hp, hv⟩ := C61_elements _ _ _ _ _ hpv
    rw [if_pos rfl, hrt, if_pos rfl, hp, hv]
    have : (fun i => cd2s * (pv'.v i / cd2s)) = pv'.v := by funext i; field_simp [cd2s_ne]
    simp [this]
  · rw [if_neg hj, if_neg hj]

end Pal.Props
