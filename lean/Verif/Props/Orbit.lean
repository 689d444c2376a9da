import Verif.Lemmas.Orbit
import Verif.Spec.Orbit

/-!
# Two-body prediction: palUe2pv and palPv2ue (C59, C60, C61)
-/

namespace Pal.Props
open Real Pal.Spec Pal.Orbit

/-- The iteration of palUe2pv with an explicit budget of passes: `none` when the budget is exhausted. -/
noncomputable def ueBudget (u : Univ) (dt : ℝ) : ℕ → ℕ → ℝ → ℝ → ℝ → Option UeEnd
  | 0, _, _, _, _ => none
  | budget + 1, nit, psi, plast, flast =>
    let s := ueFun u.alpha psi
    let ff := ueFF u dt s
    let r := ueR u s
    let flast := if nit = 1 then ff else flast
    if ¬ ff * flast < 0 ∧ r = 0 then some (.fail (-1))
    else
      let w := if ff * flast < 0 then ff * (plast - psi) / (flast - ff) else ff / r
      if nit > 25 then some (.fail (-2))
      else if |w| ≥ s.tol then ueBudget u dt budget (nit + 1) (psi - w) psi ff
      else some (.done (psi - w) s r)

private theorem budget_aux (u : Univ) (dt : ℝ) : ∀ (n nit : ℕ) (psi plast flast : ℝ), nit + n = 27 → 1 ≤ n →
    ueBudget u dt n nit psi plast flast = some (ueLoop u dt nit psi plast flast) := by
  intro n
  induction n with
  | zero => intro _ _ _ _ _ h; omega
  | succ n ih =>
    intro nit psi plast flast hn _
    rw [ueLoop, ueBudget]
    dsimp only
    generalize (if nit = 1 then ueFF u dt (ueFun u.alpha psi) else flast) = fl
    generalize (if ueFF u dt (ueFun u.alpha psi) * fl < 0 then ueFF u dt (ueFun u.alpha psi) * (plast - psi) / (fl - ueFF u dt (ueFun u.alpha psi))
      else ueFF u dt (ueFun u.alpha psi) / ueR u (ueFun u.alpha psi)) = w
    split
    · rfl
    split
    · rfl
    split
    · refine ih _ _ _ _ (by omega) (by omega)
    · rfl

/-- C59: the iteration for the universal eccentric anomaly makes at most 26 passes, whatever the element set, the date and the starting value; so palUe2pv always
terminates. -/
theorem C59_terminates (u : Univ) (dt psi : ℝ) : ueBudget u dt 26 1 psi 0 0 = some (ueLoop u dt 1 psi 0 0) :=
  budget_aux u dt 26 1 psi 0 0 (by norm_num) (by norm_num)

/-- C59: whatever the arguments, palUe2pv reports 0, -1 or -2; if it reports a failure, the element set and the state vector are exactly what they were; if it
succeeds, the only parts of the element set that change are the last two (date and anomaly of the last prediction), and the date becomes the date asked for. -/
theorem C59_effects (date : ℝ) (u u' : Univ) (pv pv' : PV) (j : ℤ) (h : palUe2pv date u pv = some (u', pv', j)) :
    (j = 0 ∨ j = -1 ∨ j = -2) ∧ (j ≠ 0 → u' = u ∧ pv' = pv) ∧ (j = 0 → ∃ ψ, u' = { u with t := date, psi := ψ }) := by
  by_cases hj : j = 0
  · subst hj
    obtain ⟨ψ, ψ', hu, -⟩ := ue2pv_ok h
    exact ⟨Or.inl rfl, fun h => absurd rfl h, fun _ => ⟨ψ', hu⟩⟩
  · unfold palUe2pv at h
    split at h
    · cases h
    dsimp only at h
    split at h
    · rename_i j' hj'
      have h2 := loop_fail hj'
      simp only [Option.some.injEq, Prod.mk.injEq] at h
      obtain ⟨rfl, rfl, rfl⟩ := h
      exact ⟨Or.inr h2, fun _ => ⟨rfl, rfl⟩, fun h => absurd h hj⟩
    · split at h
      · cases h
      simp only [Option.some.injEq, Prod.mk.injEq] at h
      exact absurd h.2.2.symm hj

/-- The redundant parts of an element set agree with the reference state: distance, radial velocity times distance, energy. -/
structure Consistent (u : Univ) : Prop where
  r0 : u.r0 = len u.p0
  pos : 0 < u.r0
  sigma : u.sigma = dot u.p0 u.v0
  alpha : u.alpha = energy u.cm u.p0 u.v0

/-- Every element set delivered by palPv2ue is consistent and refers to the date given. -/
theorem C61_elements (pv : PV) (date pmass : ℝ) (u u' : Univ) (h : palPv2ue pv date pmass u = (u', 0)) :
    Consistent u' ∧ u'.t0 = date ∧ u'.cm = 1 + pmass ∧ u'.p0 = pv.p ∧ u'.v0 = (fun i => pv.v i / cd2s) := by
  unfold palPv2ue at h
  split at h
  · cases h
  dsimp only at h
  split at h
  · cases h
  rename_i h1
  split at h
  · cases h
  simp only [Prod.mk.injEq, and_true] at h
  subst h
  refine ⟨⟨?_, ?_, ?_, ?_⟩, rfl, rfl, ?_, ?_⟩
  · simp [len, Fin.sum_univ_three, pow_two]
  · simp only; linarith [not_lt.mp h1, (by norm_num : (0 : ℝ) < 1 / 10 ^ 3)]
  · simp [dot, Fin.sum_univ_three]
  · simp [energy, dot, len, Fin.sum_univ_three, pow_two]
  · funext i; fin_cases i <;> rfl
  · funext i; fin_cases i <;> rfl

/-- C61: palPv2ue reports a negative mass (-1), a distance below 0.001 AU (-2), a speed below 0.001 AU per canonical day (-3), in this order, and then leaves the
element set alone; every other state vector is accepted. -/
theorem C61_status (pv : PV) (date pmass : ℝ) (u : Univ) :
    (pmass < 0 → palPv2ue pv date pmass u = (u, -1)) ∧
    (0 ≤ pmass → len pv.p < 1 / 10 ^ 3 → palPv2ue pv date pmass u = (u, -2)) ∧
    (0 ≤ pmass → 1 / 10 ^ 3 ≤ len pv.p → len (fun i => pv.v i / cd2s) < 1 / 10 ^ 3 → palPv2ue pv date pmass u = (u, -3)) ∧
    (0 ≤ pmass → 1 / 10 ^ 3 ≤ len pv.p → 1 / 10 ^ 3 ≤ len (fun i => pv.v i / cd2s) → (palPv2ue pv date pmass u).2 = 0) := by
  have hp : len pv.p = √(pv.p 0 * pv.p 0 + pv.p 1 * pv.p 1 + pv.p 2 * pv.p 2) := by simp [len, Fin.sum_univ_three, pow_two]
  have hv : len (fun i => pv.v i / cd2s) = √(pv.v 0 / cd2s * (pv.v 0 / cd2s) + pv.v 1 / cd2s * (pv.v 1 / cd2s) + pv.v 2 / cd2s * (pv.v 2 / cd2s)) := by
    simp only [len, Fin.sum_univ_three, pow_two]
  rw [hp, hv]
  refine ⟨fun h => ?_, fun h h2 => ?_, fun h h2 h3 => ?_, fun h h2 h3 => ?_⟩
  · unfold palPv2ue; rw [if_pos h]
  · unfold palPv2ue; rw [if_neg (not_lt.mpr h)]; dsimp only; rw [if_pos h2]
  · unfold palPv2ue; rw [if_neg (not_lt.mpr h)]; dsimp only; rw [if_neg (not_lt.mpr h2), if_pos h3]
  · unfold palPv2ue; rw [if_neg (not_lt.mpr h)]; dsimp only; rw [if_neg (not_lt.mpr h2), if_neg (not_lt.mpr h3)]

theorem halve_zero (a : ℝ) : ueFun a 0 = { s0 := 1, s1 := 0, s2 := 0, s3 := 0, tol := 1 / 10 ^ 13 } := by
  unfold ueFun
  obtain ⟨k, hk, -, hz, -⟩ := halve_spec 0 0 (0 * 0) (a * (0 * 0))
  have : k = 0 := hz (by norm_num)
  subst this
  rw [hk]
  simp [ueUndo, ueSeries]

/-- C60: at the reference epoch a fresh element set (no prediction made yet) gives exactly the reference state, and is left as it is. -/
theorem C60_at_epoch (date : ℝ) (u : Univ) (pv0 : PV) (h0 : u.r0 ≠ 0) (ht0 : u.t0 = date) (ht : u.t = date) (hpsi : u.psi = 0) :
    palUe2pv date u pv0 = some (u, { p := u.p0, v := fun i => cd2s * u.v0 i }, 0) := by
  unfold palUe2pv
  rw [if_neg h0]
  dsimp only
  rw [ht, hpsi, ht0, sub_self, zero_mul, zero_div, add_zero]
  have hl : ueLoop u 0 1 0 0 0 = .done 0 (ueFun u.alpha 0) u.r0 := by
    rw [ueLoop]
    dsimp only
    rw [halve_zero]
    simp [ueFF, ueR, h0]
  rw [hl]
  dsimp only
  rw [halve_zero, if_neg h0]
  refine congrArg some (Prod.ext ?_ (Prod.ext ?_ rfl))
  · cases u
    simp only at ht hpsi ht0
    subst ht; subst hpsi; subst ht0
    rfl
  · simp

/-- C61: the elements of any accepted state, evaluated at the same date, give back exactly the position and velocity they were made from. -/
theorem C61_round_trip (pv pv0 : PV) (date pmass : ℝ) (u u' : Univ) (h : palPv2ue pv date pmass u = (u', 0)) :
    palUe2pv date u' pv0 = some (u', pv, 0) := by
  obtain ⟨hc, ht, -, hp, hv⟩ := C61_elements pv date pmass u u' h
  have hu : u'.t = date ∧ u'.psi = 0 := by
    unfold palPv2ue at h
    split at h
    · cases h
    dsimp only at h
    split at h
    · cases h
    split at h
    · cases h
    simp only [Prod.mk.injEq, and_true] at h
    subst h
    exact ⟨rfl, rfl⟩
  rw [C60_at_epoch date u' pv0 (ne_of_gt hc.pos) ht hu.1 hu.2, hp, hv]
  cases pv with
  | mk p v =>
    have : (fun i => cd2s * (v i / cd2s)) = v := by funext i; field_simp [cd2s_ne]
    simp only [this]

theorem comb_cross (p v : Fin 3 → ℝ) (f g fd gd : ℝ) :
    cross (fun i => p i * f + v i * g) (fun i => p i * fd + v i * gd) = (f * gd - g * fd) • cross p v := by
  funext i; fin_cases i <;> simp [cross] <;> ring

theorem comb_dot (p v : Fin 3 → ℝ) (f g : ℝ) :
    dot (fun i => p i * f + v i * g) (fun i => p i * f + v i * g) = f ^ 2 * dot p p + 2 * f * g * dot p v + g ^ 2 * dot v v := by
  simp only [dot, Fin.sum_univ_three]; ring

theorem cross_sq (p v : Fin 3 → ℝ) : dot (cross p v) (cross p v) = dot p p * dot v v - dot p v ^ 2 := by
  simp [dot, cross, Fin.sum_univ_three]; ring

theorem h_scalar {cm r0 σ R s0 s1 s2 ρ : ℝ} (h0 : r0 ≠ 0) (hR : R ≠ 0) (hRd : R = r0 * s0 + σ * s1 + cm * s2) :
    (1 - cm * s2 / r0) * (1 - cm * s2 / R) - (r0 * s1 + σ * s2 - ρ) * (-cm * s1 / (r0 * R)) =
      1 + cm * ((s1 ^ 2 - s2 * (1 + s0)) / R - s1 * ρ / (r0 * R)) := by
  field_simp
  linear_combination (-cm * s2) * hRd

private theorem e_scalar {cm a r0 σ R s0 s1 s2 κ d : ℝ} (h0 : r0 ≠ 0) (hR : R ≠ 0) (hRd : R = r0 * s0 + σ * s1 + cm * s2)
    (e2 : s0 = 1 + a * (1 - κ) * s2) (e3 : s1 ^ 2 = s2 * (1 + s0) + d) :
    (-cm * s1 / (r0 * R)) ^ 2 * r0 ^ 2 + 2 * (-cm * s1 / (r0 * R)) * (1 - cm * s2 / R) * σ + (1 - cm * s2 / R) ^ 2 * (a + 2 * cm / r0) - 2 * cm / R =
      a * (1 - κ * (1 - (1 - cm * s2 / R) ^ 2)) + cm ^ 2 * d / R ^ 2 := by
  have hd : d = s1 ^ 2 - s2 * (1 + s0) := by linarith
  field_simp
  subst hRd; subst hd; subst e2
  ring

private theorem r_scalar {cm a r0 σ R s0 s1 s2 κ d : ℝ} (h0 : r0 ≠ 0) (hRd : R = r0 * s0 + σ * s1 + cm * s2)
    (e2 : s0 = 1 + a * (1 - κ) * s2) (e3 : s1 ^ 2 = s2 * (1 + s0) + d) (hz : κ * d = 0) :
    (1 - cm * s2 / r0) ^ 2 * r0 ^ 2 + 2 * (1 - cm * s2 / r0) * (r0 * s1 + σ * s2) * σ + (r0 * s1 + σ * s2) ^ 2 * (a + 2 * cm / r0) =
      R ^ 2 + a * κ * (r0 * s1 + σ * s2) ^ 2 + d * (r0 ^ 2 * (a + 2 * cm / r0) - σ ^ 2) := by
  have hd : d = s1 ^ 2 - s2 * (1 + s0) := by linarith
  field_simp
  subst hRd; subst hd; subst e2
  linear_combination (-a * r0 ^ 3) * hz

/-- C60: the state that palUe2pv delivers for a consistent element set, compared with the reference state.  S0 … S3 are the universal functions the code has computed
at the anomaly ψ of its last pass, R and ρ its values of the distance and of the residual of Kepler's equation there.  The angular momentum has exactly the old
direction, and its size, the energy and the distance are those of the reference orbit up to κ and δ, which are below 1.5e-14, and terms that vanish with ρ. -/
theorem C60_conservation (date : ℝ) (u u' : Univ) (pv pv' : PV) (hc : Consistent u) (h : palUe2pv date u pv = some (u', pv', 0)) :
    ∃ ψ κ δ : ℝ, |κ| ≤ 15 / 10 ^ 15 ∧ |δ| ≤ 11 / 10 ^ 15 ∧ (|u.alpha * ψ ^ 2| ≤ 7 / 10 → κ = 0) ∧ (7 / 10 < |u.alpha * ψ ^ 2| → δ = 0) ∧
      ∀ S R ρ v, S = ueFun u.alpha ψ → R = u.r0 * S.s0 + u.sigma * S.s1 + u.cm * S.s2 →
        ρ = u.r0 * S.s1 + u.sigma * S.s2 + u.cm * S.s3 - (date - u.t0) * gcon → v = (fun i => pv'.v i / cd2s) →
        R ≠ 0 ∧
        cross pv'.p v = (1 + u.cm * (δ * ψ ^ 2 / R - S.s1 * ρ / (u.r0 * R))) • cross u.p0 u.v0 ∧
        dot v v - 2 * u.cm / R = u.alpha * (1 - κ * (1 - (1 - u.cm * S.s2 / R) ^ 2)) + u.cm ^ 2 * δ * ψ ^ 2 / R ^ 2 ∧
        (ρ = 0 → dot pv'.p pv'.p = R ^ 2 + u.alpha * κ * ((date - u.t0) * gcon - u.cm * S.s3) ^ 2 +
          δ * ψ ^ 2 * dot (cross u.p0 u.v0) (cross u.p0 u.v0)) := by
  obtain ⟨ψ, ψ', -, hr0, hR, hp, hv⟩ := ue2pv_ok h
  obtain ⟨-, κ, δ, hκ, hδ, hkd, hk0, hd0, e2, e3⟩ := ueFun_spec u.alpha ψ
  refine ⟨ψ, κ, δ, hκ, hδ, hk0, hd0, ?_⟩
  intro S R ρ v hS hRd hρ hvd
  have hRR : R = ueR u (ueFun u.alpha ψ) := by rw [hRd, hS, ueR]
  rw [← hRR] at hR hv
  rw [← hS] at e2 e3 hp hv
  have hvv : v = fun i => u.p0 i * (-u.cm * S.s1 / (u.r0 * R)) + u.v0 i * (1 - u.cm * S.s2 / R) := by
    rw [hvd, hv]; funext i; field_simp [cd2s_ne]
  have hr0sq : u.r0 ^ 2 = dot u.p0 u.p0 := by
    rw [hc.r0, len, Real.sq_sqrt (Finset.sum_nonneg fun i _ => sq_nonneg _)]
    simp [dot, pow_two]
  have hv0 : dot u.v0 u.v0 = u.alpha + 2 * u.cm / u.r0 := by
    rw [hc.alpha, energy, ← hc.r0]; ring
  have hsg := hc.sigma
  have hG : (date - u.t0) * gcon - u.cm * S.s3 = u.r0 * S.s1 + u.sigma * S.s2 - ρ := by rw [hρ]; ring
  refine ⟨hR, ?_, ?_, ?_⟩
  · rw [hp, hvv, comb_cross]
    refine congrArg (· • cross u.p0 u.v0) ?_
    rw [hG, show (1 - u.cm * S.s2 / u.r0) * (1 - u.cm * S.s2 / R) - (u.r0 * S.s1 + u.sigma * S.s2 - ρ) * (-u.cm * S.s1 / (u.r0 * R)) =
      1 + u.cm * ((S.s1 ^ 2 - S.s2 * (1 + S.s0)) / R - S.s1 * ρ / (u.r0 * R)) from h_scalar hr0 hR hRd, e3]
    ring
  · rw [hvv, comb_dot, ← hr0sq, ← hsg, hv0]
    rw [mul_assoc (u.cm ^ 2)]
    exact e_scalar hr0 hR hRd e2 e3
  · intro hz
    rw [hp, comb_dot, ← hr0sq, ← hsg, hv0, hG, hz, sub_zero]
    rw [cross_sq, ← hr0sq, ← hsg, hv0]
    exact r_scalar hr0 hRd e2 e3 (by rcases hkd with h | h <;> rw [h] <;> ring)

theorem ueFun_small {a psi : ℝ} (h : |a * (psi * psi)| ≤ 7 / 10) : ueFun a psi = ueSeries a psi (psi * psi) (a * (psi * psi)) := by
  unfold ueFun
  obtain ⟨k, hk, -, hz, -⟩ := halve_spec 0 psi (psi * psi) (a * (psi * psi))
  have : k = 0 := hz h
  subst this
  rw [hk]
  simp [ueUndo]

/-- A circular orbit of radius 1 about the Sun. -/
noncomputable def circle : Univ :=
  { cm := 1, alpha := -1, t0 := 0, p0 := ![1, 0, 0], v0 := ![0, 1, 0], r0 := 1, sigma := 0, t := 0, psi := 0 }

theorem circle_consistent : Consistent circle := by
  refine ⟨?_, ?_, ?_, ?_⟩ <;> simp [circle, len, dot, energy, Fin.sum_univ_three]
  norm_num

/-- Non-vacuity of C60: the circular orbit is predicted successfully half a canonical day (29 days) after its epoch. -/
theorem circle_runs (pv : PV) : ∃ u' pv', palUe2pv (1 / 2 / gcon) circle pv = some (u', pv', 0) := by
  have hg : gcon ≠ 0 := ne_of_gt gcon_pos
  have e : (circle.psi + (1 / 2 / gcon - circle.t) * gcon / circle.r0) = 1 / 2 := by simp [circle]; field_simp
  have e2 : (1 / 2 / gcon - circle.t0) * gcon = 1 / 2 := by simp [circle]; field_simp
  have hs : ueFun circle.alpha (1 / 2) = ueSeries (-1) (1 / 2) (1 / 2 * (1 / 2)) (-1 * (1 / 2 * (1 / 2))) := by
    apply ueFun_small
    simp only [circle]
    rw [abs_le]; norm_num
  have hff : ueFF circle (1 / 2) (ueFun circle.alpha (1 / 2)) = 0 := by
    rw [hs]; simp only [ueFF, ueSeries, circle]; norm_num
  have hr : ueR circle (ueFun circle.alpha (1 / 2)) = 1 := by
    rw [hs]; simp only [ueR, ueSeries, circle]; norm_num
  have ht : ¬ |(0 : ℝ)| ≥ (ueFun circle.alpha (1 / 2)).tol := by rw [hs]; simp [ueSeries]
  unfold palUe2pv
  rw [if_neg (by simp [circle]), e, e2]
  have hl : ueLoop circle (1 / 2) 1 (1 / 2) 0 0 = .done (1 / 2) (ueFun circle.alpha (1 / 2)) 1 := by
    rw [ueLoop]
    dsimp only
    rw [hff, hr, if_neg (by norm_num), if_neg (by norm_num), if_neg (by simpa using ht)]
    simp
  dsimp only
  rw [hl]
  simp

/-- C59: both failures do occur: a body falling straight into the Sun gives -1, and there are element sets for which the iteration does not converge. -/
theorem C59_failures_occur (pv : PV) :
    (∃ (u : Univ) (date : ℝ), Consistent u ∧ 0 < u.cm ∧ palUe2pv date u pv = some (u, pv, -1)) ∧
    (∃ (u : Univ) (date : ℝ), palUe2pv date u pv = some (u, pv, -2)) := by
  have hg : gcon ≠ 0 := ne_of_gt gcon_pos
  have hsq : (√2 : ℝ) * √2 = 2 := Real.mul_self_sqrt (by norm_num)
  have hfun : ∀ x : ℝ, ueFun 0 x = { s0 := 1, s1 := x, s2 := x * x / 2, s3 := x * (x * x) / 6, tol := 1 / 10 ^ 13 } := by
    intro x
    rw [ueFun_small (by simp; norm_num)]
    simp [ueSeries]
  constructor
  · refine ⟨{ cm := 1, alpha := 0, t0 := 0, p0 := ![1, 0, 0], v0 := ![-√2, 0, 0], r0 := 1, sigma := -√2, t := 0, psi := 0 }, √2 / gcon, ?_, one_pos, ?_⟩
    · refine ⟨?_, ?_, ?_, ?_⟩ <;> simp [len, dot, energy, Fin.sum_univ_three]
    · unfold palUe2pv
      simp only [one_ne_zero, if_false]
      have e : (0 : ℝ) + (√2 / gcon - 0) * gcon / 1 = √2 := by field_simp; ring
      have e2 : (√2 / gcon - 0) * gcon = √2 := by field_simp; ring
      rw [e, e2, ueLoop]
      have hR : (1 : ℝ) * 1 + -√2 * √2 + 1 * (√2 * √2 / 2) = 0 := by rw [neg_mul, hsq]; norm_num
      simp only [hfun, ueFF, ueR, if_true, hR, and_true]
      rw [if_pos (not_lt.mpr (mul_self_nonneg _))]
  · set u : Univ := { cm := 0, alpha := 0, t0 := 0, p0 := ![1, 0, 0], v0 := ![0, 0, 0], r0 := 1, sigma := 2, t := -13 / 4 / gcon, psi := 1 / 2 } with hu
    have key : ∀ (n nit : ℕ) (x plast : ℝ), 27 - nit ≤ n → 1 ≤ nit → (x = 1 / 2 ∨ x = -3 / 2) →
        ∀ flast, (flast = 4 ∨ nit = 1) → ueLoop u (-13 / 4) nit x plast flast = .fail (-2) := by
      intro n
      induction n with
      | zero =>
        intro nit x plast hn h1 hx flast hf
        have hff : ueFF u (-13 / 4) (ueFun u.alpha x) = 4 := by
          show ueFF u (-13 / 4) (ueFun 0 x) = 4
          rw [hfun, ueFF]; rcases hx with rfl | rfl <;> norm_num [hu]
        have hr : ueR u (ueFun u.alpha x) ≠ 0 := by
          show ueR u (ueFun 0 x) ≠ 0
          rw [hfun, ueR]; rcases hx with rfl | rfl <;> norm_num [hu]
        have hfl : (if nit = 1 then (4 : ℝ) else flast) = 4 := by rcases hf with rfl | rfl <;> simp
        rw [ueLoop]
        dsimp only
        rw [hff, hfl, if_neg (by tauto), if_pos (by omega)]
      | succ n ih =>
        intro nit x plast hn h1 hx flast hf
        have hff : ueFF u (-13 / 4) (ueFun u.alpha x) = 4 := by
          show ueFF u (-13 / 4) (ueFun 0 x) = 4
          rw [hfun, ueFF]; rcases hx with rfl | rfl <;> norm_num [hu]
        have hr : (x = 1 / 2 ∧ ueR u (ueFun u.alpha x) = 2) ∨ (x = -3 / 2 ∧ ueR u (ueFun u.alpha x) = -2) := by
          have : ueR u (ueFun u.alpha x) = 1 + 2 * x := by
            show ueR u (ueFun 0 x) = _
            rw [hfun, ueR]; simp [hu]
          rw [this]
          rcases hx with rfl | rfl <;> norm_num
        have htol : (ueFun u.alpha x).tol = 1 / 10 ^ 13 := by
          show (ueFun 0 x).tol = _
          rw [hfun]
        have hfl : (if nit = 1 then (4 : ℝ) else flast) = 4 := by rcases hf with rfl | rfl <;> simp
        rw [ueLoop]
        dsimp only
        rw [hff, hfl, htol]
        by_cases h26 : nit > 25
        · rcases hr with ⟨rfl, hr⟩ | ⟨rfl, hr⟩ <;> rw [hr, if_neg (by norm_num), if_pos h26]
        · rcases hr with ⟨rfl, hr⟩ | ⟨rfl, hr⟩
          · rw [hr, if_neg (by norm_num), if_neg h26]
            simp only [show ¬ ((4 : ℝ) * 4 < 0) by norm_num, if_false]
            rw [if_pos (show |(4 : ℝ) / 2| ≥ 1 / 10 ^ 13 by norm_num [abs_of_pos])]
            exact ih _ _ _ (by omega) (by omega) (Or.inr (by norm_num)) _ (Or.inl rfl)
          · rw [hr, if_neg (by norm_num), if_neg h26]
            simp only [show ¬ ((4 : ℝ) * 4 < 0) by norm_num, if_false]
            rw [if_pos (show |(4 : ℝ) / -2| ≥ 1 / 10 ^ 13 by rw [abs_div, abs_neg]; norm_num)]
            exact ih _ _ _ (by omega) (by omega) (Or.inl (by norm_num)) _ (Or.inl rfl)
    refine ⟨u, -13 / 4 / gcon, ?_⟩
    unfold palUe2pv
    have h0 : ¬ u.r0 = 0 := by simp [hu]
    have e : u.psi + (-13 / 4 / gcon - u.t) * gcon / u.r0 = 1 / 2 := by simp [hu]
    have e2 : (-13 / 4 / gcon - u.t0) * gcon = -13 / 4 := by simp [hu]; field_simp
    rw [if_neg h0, e, e2]
    dsimp only
    rw [key _ 1 _ 0 (le_refl _) (le_refl _) (Or.inl rfl) 0 (Or.inr rfl)]

/-- Non-vacuity of C61: a body on a circular orbit at 1 AU is accepted. -/
example (u : Univ) : (palPv2ue { p := ![1, 0, 0], v := ![0, cd2s, 0] } 51544 0 u).2 = 0 := by
  refine (C61_status _ _ _ _).2.2.2 (le_refl _) ?_ ?_
  · simp [len, Fin.sum_univ_three]; norm_num
  · simp [len, Fin.sum_univ_three, div_self cd2s_ne]; norm_num

end Pal.Props
