import Verif.Props.OrbitEl
import Verif.Props.Prec
import Verif.Lemmas.Map

/-!
# C66, C67, C68: topocentric places of bodies, palPlantu, palPlante, palPlanet and palRdplan
-/

namespace Pal.Props
open Real Pal.Spec Pal.Orbit

/-- The place (right ascension, declination, distance) of a body at P moving with velocity V (AU/s) as seen from the origin: the distance is the geometric one, the
direction that in which the body was a light time ago. -/
def IsPlace (P V : Fin 3 → ℝ) (ra dec r : ℝ) : Prop :=
  r = len P ∧ P - (499.004782 * r) • V = len (P - (499.004782 * r) • V) • dir ra dec ∧ ra ∈ Set.Ico 0 (2 * π) ∧ |dec| ≤ π / 2

theorem place_spec (p v : Vec3) : IsPlace p v (eraAnp (eraC2s (fun i => p i - palCR * √(p 0 * p 0 + p 1 * p 1 + p 2 * p 2) * v i)).1)
    (eraC2s (fun i => p i - palCR * √(p 0 * p 0 + p 1 * p 1 + p 2 * p 2) * v i)).2 (√(p 0 * p 0 + p 1 * p 1 + p 2 * p 2)) := by
  have hl : √(p 0 * p 0 + p 1 * p 1 + p 2 * p 2) = len p := by rw [len_eq, dot_eq]
  rw [hl]
  have hq : (fun i => p i - palCR * len p * v i) = p - (499.004782 * len p) • v := by funext i; simp [palCR]
  rw [hq]
  have hs := eraC2s_spec (p - (499.004782 * len p) • v)
  rw [pm_len] at hs
  refine ⟨rfl, ?_, (eraAnp_spec _).1, (eraC2s_range _).2⟩
  conv_lhs => rw [← hs]
  funext i
  simp only [Pi.smul_apply, smul_eq_mul]
  have : dir (eraAnp (eraC2s (p - (499.004782 * len p) • v)).1) (eraC2s (p - (499.004782 * len p) • v)).2 =
      dir (eraC2s (p - (499.004782 * len p) • v)).1 (eraC2s (p - (499.004782 * len p) • v)).2 := by
    unfold dir; rw [sin_eraAnp, cos_eraAnp]
  rw [this]

/-- Topocentric position and velocity, true equator and equinox of date, of a body with heliocentric J2000 position and velocity pv (AU, AU/s): Earth subtracted,
precession and nutation applied, observer subtracted. -/
noncomputable def topo (M : Matrix (Fin 3) (Fin 3) ℝ) (earth obs : PV) (pv : PV) : PV :=
  { p := M.mulVec (pv.p - earth.p) - obs.p, v := M.mulVec (pv.v - earth.v) - obs.v }

/-- The Earth (AU, AU/s) and the observer that palPlantu uses. -/
noncomputable def earthAt (epv00 : ℝ → ℝ → Epv) (date : ℝ) : PV := { p := (palEpv epv00 date).ph, v := fun i => (palEpv epv00 date).vh i / 86400 }
noncomputable def observerAt (gst : ℝ → ℝ) (date elong phi : ℝ) : PV :=
  { p := (palPvobs phi 0 (gst date + elong)).1, v := (palPvobs phi 0 (gst date + elong)).2 }

theorem plantu_eq (T : Theory) (epv00 : ℝ → ℝ → Epv) (gst : ℝ → ℝ) (date elong phi : ℝ) (u u' : Univ) (junk pv : PV) (j : ℤ)
    (h : palUe2pv date u junk = some (u', pv, j)) :
    ∃ ra dec r, palPlantu T epv00 gst date elong phi u junk = some (ra, dec, r, j) ∧
      IsPlace (topo (palPrenut T 2000 date) (earthAt epv00 date) (observerAt gst date elong phi) pv).p
        (topo (palPrenut T 2000 date) (earthAt epv00 date) (observerAt gst date elong phi) pv).v ra dec r := by
  unfold palPlantu
  rw [h]
  refine ⟨_, _, _, rfl, ?_⟩
  simp only [eraRxp_eq]
  exact place_spec (topo (palPrenut T 2000 date) (earthAt epv00 date) (observerAt gst date elong phi) pv).p
    (topo (palPrenut T 2000 date) (earthAt epv00 date) (observerAt gst date elong phi) pv).v

/-- C66: as long as palUe2pv can predict the position, palPlantu gives the place of the body at the predicted position, whatever its uninitialised array holds. -/
theorem C66_plantu_partial (T : Theory) (epv00 : ℝ → ℝ → Epv) (gst : ℝ → ℝ) (date elong phi : ℝ) (u u' : Univ) (pv0 pv : PV)
    (h : palUe2pv date u pv0 = some (u', pv, 0)) :
    ∃ ra dec r, (∀ junk, palPlantu T epv00 gst date elong phi u junk = some (ra, dec, r, 0)) ∧
      IsPlace (topo (palPrenut T 2000 date) (earthAt epv00 date) (observerAt gst date elong phi) pv).p
        (topo (palPrenut T 2000 date) (earthAt epv00 date) (observerAt gst date elong phi) pv).v ra dec r := by
  have hj : ∀ junk, palUe2pv date u junk = some (u', pv, 0) := by
    intro junk
    unfold palUe2pv at h ⊢
    by_cases h0 : u.r0 = 0
    · rw [if_pos h0] at h; cases h
    rw [if_neg h0] at h ⊢
    dsimp only at h ⊢
    cases ho : ueLoop u ((date - u.t0) * gcon) 1 (u.psi + (date - u.t) * gcon / u.r0) 0 0 with
    | fail j =>
      rw [ho] at h
      simp only [Option.some.injEq, Prod.mk.injEq] at h
      rcases loop_fail ho with hj | hj <;> omega
    | done psi s r => rw [ho] at h; exact h
  obtain ⟨ra, dec, r, h1, h2⟩ := plantu_eq T epv00 gst date elong phi u u' pv0 pv 0 h
  refine ⟨ra, dec, r, fun junk => ?_, h2⟩
  rw [← h1]
  unfold palPlantu
  rw [hj junk, h]

example (T : Theory) (epv00 : ℝ → ℝ → Epv) (gst : ℝ → ℝ) (elong phi : ℝ) :
    ∃ ra dec r, ∀ junk, palPlantu T epv00 gst 51544 elong phi (palPv2ue { p := ![1, 0, 0], v := ![0, cd2s, 0] } 51544 0 circle).1 junk = some (ra, dec, r, 0) := by
  have h : (palPv2ue { p := ![1, 0, 0], v := ![0, cd2s, 0] } 51544 0 circle).2 = 0 := by
    unfold palPv2ue; simp [cd2s_ne]; norm_num
  obtain ⟨ra, dec, r, h1, -⟩ := C66_plantu_partial T epv00 gst 51544 elong phi _ _ ⟨fun _ => 0, fun _ => 0⟩ _
    (C61_round_trip _ ⟨fun _ => 0, fun _ => 0⟩ 51544 0 circle _ (Prod.ext rfl h))
  exact ⟨ra, dec, r, h1⟩

/-- C66 is false of the code when palUe2pv fails: there is an element set and a date for which palPlantu reports -1 and, depending only on what an uninitialised
array holds, can report any distance at all. -/
theorem C66_plantu_refuted (T : Theory) (hT : ∀ a b, IsRotation (T.pnm06a a b)) (epv00 : ℝ → ℝ → Epv) (gst : ℝ → ℝ) (elong phi : ℝ) :
    ∃ (u : Univ) (date : ℝ), ∀ d : ℝ, 0 ≤ d → ∃ (junk : PV) (ra dec : ℝ), palPlantu T epv00 gst date elong phi u junk = some (ra, dec, d, -1) := by
  have hu : ∃ (u : Univ) (date : ℝ), ∀ pv, palUe2pv date u pv = some (u, pv, -1) := by
    obtain ⟨⟨u, date, -, -, h⟩, -⟩ := C59_failures_occur ⟨fun _ => 0, fun _ => 0⟩
    refine ⟨u, date, fun pv => ?_⟩
    unfold palUe2pv at h ⊢
    by_cases h0 : u.r0 = 0
    · rw [if_pos h0] at h; cases h
    rw [if_neg h0] at h ⊢
    dsimp only at h ⊢
    cases ho : ueLoop u ((date - u.t0) * gcon) 1 (u.psi + (date - u.t) * gcon / u.r0) 0 0 with
    | fail j =>
      rw [ho] at h
      simp only [Option.some.injEq, Prod.mk.injEq] at h
      rw [h.2.2]
    | done psi s r =>
      rw [ho] at h
      dsimp only at h
      split at h
      · cases h
      · simp only [Option.some.injEq, Prod.mk.injEq] at h; omega
  obtain ⟨u, date, h⟩ := hu
  refine ⟨u, date, fun d hd => ?_⟩
  have hM : IsRotation (palPrenut T 2000 date) := (C43_rotations T hT 2000 date).2.2
  obtain ⟨M, hMM⟩ : ∃ M, M = palPrenut T 2000 date := ⟨_, rfl⟩
  rw [← hMM] at hM
  obtain ⟨ra, dec, r, h1, h2⟩ := plantu_eq T epv00 gst date elong phi u u
    { p := (earthAt epv00 date).p + M.transpose.mulVec ((observerAt gst date elong phi).p + ![d, 0, 0]), v := fun _ => 0 } _ _ (h _)
  have hr := h2.1
  rw [← hMM] at hr
  unfold topo at hr
  dsimp only at hr
  rw [add_sub_cancel_left, Matrix.mulVec_mulVec, hM.1, Matrix.one_mulVec, add_sub_cancel_left] at hr
  have hd' : r = d := by rw [hr]; simp [len, Fin.sum_univ_three, Real.sqrt_sq hd]
  rw [hd'] at h1
  exact ⟨_, ra, dec, h1⟩

/-- C66: palPlante does not have this defect: whatever the arguments and whatever uninitialised memory holds, its status is that of palEl2ue; if this is zero, the place
is that of the body at the state that palPlanel predicts; otherwise the results are left alone. -/
theorem C66_plante (T : Theory) (epv00 : ℝ → ℝ → Epv) (gst : ℝ → ℝ) (date elong phi : ℝ) (jform : ℤ) (epoch orbinc anode perih aorq e aorl dm : ℝ)
    (u0 : Univ) (pv0 : PV) :
    ∃ u' j pv, palEl2ue date jform epoch orbinc anode perih aorq e aorl dm u0 = some (u', j) ∧
      palPlanel date jform epoch orbinc anode perih aorq e aorl dm u0 pv0 = some (pv, j) ∧
      (j ≠ 0 → ∀ junk old, palPlante T epv00 gst date elong phi jform epoch orbinc anode perih aorq e aorl dm u0 junk old = some (old.1, old.2.1, old.2.2, j)) ∧
      (j = 0 → ∃ ra dec r, (∀ junk old, palPlante T epv00 gst date elong phi jform epoch orbinc anode perih aorq e aorl dm u0 junk old = some (ra, dec, r, 0)) ∧
        IsPlace (topo (palPrenut T 2000 date) (earthAt epv00 date) (observerAt gst date elong phi) pv).p
          (topo (palPrenut T 2000 date) (earthAt epv00 date) (observerAt gst date elong phi) pv).v ra dec r) := by
  obtain ⟨u', j, h1, h2⟩ := C84_planel date jform epoch orbinc anode perih aorq e aorl dm u0 pv0
  refine ⟨u', j, _, h1, h2, fun hj junk old => ?_, fun hj => ?_⟩
  · unfold palPlante; rw [h1]; dsimp only; rw [if_neg hj]
  · subst hj
    obtain ⟨_, pv', -, hpv⟩ := el2ue_ok (el2ue_zero_good h1) h1
    have hrt := C61_round_trip _ pv0 _ _ _ _ hpv
    obtain ⟨-, -, -, hp, hv⟩ := C61_elements _ _ _ _ _ hpv
    have hv' : (fun i => cd2s * u'.v0 i) = pv'.v := by rw [hv]; funext i; field_simp [cd2s_ne]
    obtain ⟨ra, dec, r, h3, h4⟩ := C66_plantu_partial T epv00 gst date elong phi _ _ _ _ hrt
    refine ⟨ra, dec, r, fun junk old => ?_, ?_⟩
    · unfold palPlante; rw [h1]; dsimp only; rw [if_pos rfl]; exact h3 junk
    · rw [if_pos rfl, hp, hv']; exact h4

/-- C67: palPlanet passes on the position of the ephemeris, divides the velocity by 86400, and its status is that of the ephemeris with 2 replaced by -2. -/
theorem C67_planet (plan94 : ℝ → ℝ → ℤ → PV × ℤ) (date : ℝ) (np : ℤ) (pv : PV) (j : ℤ) (h : plan94 2400000.5 date np = (pv, j)) :
    palPlanet plan94 date np = ({ p := pv.p, v := fun i => pv.v i / 86400 }, if j = 2 then -2 else j) := by
  unfold palPlanet
  rw [show rMJD0 = 2400000.5 from rfl, h]; rfl

/-- Radii (km) of the bodies 0 to 8, in the order Sun, Mercury, Venus, Moon, Mars, Jupiter, Saturn, Uranus, Neptune. -/
noncomputable def bodyRadius : Fin 9 → ℝ := ![696000, 2439.7, 6051.9, 1738, 3397, 71492, 60268, 25559, 24764]

/-- Geocentric position and velocity (true equator and equinox of date) of body n: the Moon (3) from palDmoon and the nutation matrix N, the others as heliocentric
planet minus Earth, the Earth being the Earth-Moon barycentre corrected for the Moon; the Sun (0) is minus the Earth. -/
noncomputable def geoBody (M N : Matrix (Fin 3) (Fin 3) ℝ) (planet : ℤ → PV) (moon : PV) (n : Fin 9) : PV :=
  let m : PV := { p := N.mulVec moon.p, v := N.mulVec moon.v }
  let earth : PV := { p := M.mulVec (planet 3).p - (0.012150581 : ℝ) • m.p, v := M.mulVec (planet 3).v - (0.012150581 : ℝ) • m.v }
  if n = 3 then m
  else if n = 0 then { p := -earth.p, v := -earth.v }
  else { p := M.mulVec (planet n).p - earth.p, v := M.mulVec (planet n).v - earth.v }

/-- C68: palRdplan treats every number outside 0..8 as the Sun. -/
theorem C68_sun (T : Theory) (plan94 : ℝ → ℝ → ℤ → PV × ℤ) (dmoon : ℝ → PV) (gst : ℝ → ℝ) (date : ℝ) (np : ℤ) (elong phi : ℝ) (h : np < 0 ∨ 8 < np) :
    palRdplan T plan94 dmoon gst date np elong phi = palRdplan T plan94 dmoon gst date 0 elong phi := by
  unfold palRdplan
  have h' : np < 0 ∨ np > 8 := h
  rw [if_pos h', if_neg (show ¬ ((0 : ℤ) < 0 ∨ (0 : ℤ) > 8) by omega)]

/-- C68: for the bodies 0..8 palRdplan gives the topocentric place of the body, and the angle its diameter subtends, between 0 and π: half of it has the sine
radius / distance.  (It fails for an observer inside the body.) -/
theorem C68_rdplan (T : Theory) (plan94 : ℝ → ℝ → ℤ → PV × ℤ) (dmoon : ℝ → PV) (gst : ℝ → ℝ) (date : ℝ) (n : Fin 9) (elong phi : ℝ) (b : PV)
    (hb : b = geoBody (palPrenut T 2000 date) (palNut T date) (fun k => (palPlanet plan94 date k).1) (dmoon date) n) (P V : Fin 3 → ℝ)
    (hP : P = b.p - (observerAt gst date elong phi).p) (hV : V = b.v - (observerAt gst date elong phi).v) :
    (len P * 149597870 < bodyRadius n → palRdplan T plan94 dmoon gst date (n : ℕ) elong phi = none) ∧
    (bodyRadius n ≤ len P * 149597870 → ∃ ra dec diam, palRdplan T plan94 dmoon gst date (n : ℕ) elong phi = some (ra, dec, diam) ∧
      IsPlace P V ra dec (len P) ∧ 0 < diam ∧ diam ≤ π ∧ sin (diam / 2) * (len P * 149597870) = bodyRadius n) := by
  have hgeo : rdplanGeo T plan94 dmoon date (n : ℕ) = b := by
    rw [hb]
    unfold rdplanGeo geoBody
    dsimp only
    simp only [eraRxp_eq]
    fin_cases n <;> rfl
  have hrad : eqrau ((n : ℕ) : ℤ) = bodyRadius n := by
    unfold eqrau bodyRadius
    fin_cases n <;> simp
  have hpos : 0 < bodyRadius n := by unfold bodyRadius; fin_cases n <;> norm_num
  have hn : ¬ (((n : ℕ) : ℤ) < 0 ∨ ((n : ℕ) : ℤ) > 8) := by have := n.2; omega
  have hl : √(P 0 * P 0 + P 1 * P 1 + P 2 * P 2) = len P := by rw [len_eq, dot_eq]
  have hp := place_spec P V
  unfold palRdplan
  dsimp only
  rw [if_neg hn, hgeo, hrad]
  have e1 : (fun i => b.p i - (palPvobs phi 0 (gst date + elong)).1 i) = P := by rw [hP]; rfl
  have e2 : (fun i => b.v i - (palPvobs phi 0 (gst date + elong)).2 i) = V := by rw [hV]; rfl
  have e3 : ∀ i, b.p i - (palPvobs phi 0 (gst date + elong)).1 i = P i := fun i => congrFun e1 i
  have e4 : ∀ i, b.v i - (palPvobs phi 0 (gst date + elong)).2 i = V i := fun i => congrFun e2 i
  simp only [e3, e4]
  rw [hl] at hp ⊢
  rw [show (1.49597870e8 : ℝ) = 149597870 by norm_num]
  constructor
  · intro h; rw [if_pos h]
  · intro h
    rw [if_neg (not_lt.2 h)]
    have hd : 0 < len P * 149597870 := lt_of_lt_of_le hpos h
    have hq : 0 < bodyRadius n / (len P * 149597870) := div_pos hpos hd
    have hq1 : bodyRadius n / (len P * 149597870) ≤ 1 := by rw [div_le_one hd]; exact h
    refine ⟨_, _, _, rfl, hp, ?_, ?_, ?_⟩
    · have := Real.arcsin_pos.2 hq; linarith
    · have := Real.arcsin_le_pi_div_two (bodyRadius n / (len P * 149597870)); linarith
    · rw [mul_div_cancel_left₀ _ (by norm_num : (2 : ℝ) ≠ 0), Real.sin_arcsin (by linarith) hq1, div_mul_cancel₀ _ (ne_of_gt hd)]

/-- Non-vacuity of C68: a Moon at 1 AU from the observer has a place and a diameter. -/
example (T : Theory) (hT : ∀ a b, IsRotation (T.pnm06a a b)) (plan94 : ℝ → ℝ → ℤ → PV × ℤ) (gst : ℝ → ℝ) (date elong phi : ℝ) :
    ∃ dmoon ra dec diam, palRdplan T plan94 dmoon gst date 3 elong phi = some (ra, dec, diam) := by
  have hN : IsRotation (palNut T date) := (C43_rotations T hT date date).2.1
  obtain ⟨N, hNN⟩ : ∃ N, N = palNut T date := ⟨_, rfl⟩
  rw [← hNN] at hN
  set dmoon : ℝ → PV := fun _ => { p := N.transpose.mulVec ((observerAt gst date elong phi).p + ![1, 0, 0]), v := fun _ => 0 } with hd
  have h := (C68_rdplan T plan94 dmoon gst date 3 elong phi _ rfl _ _ rfl rfl).2
  have hP : (geoBody (palPrenut T 2000 date) (palNut T date) (fun k => (palPlanet plan94 date k).1) (dmoon date) 3).p - (observerAt gst date elong phi).p = ![1, 0, 0] := by
    unfold geoBody
    dsimp only
    rw [if_pos rfl, ← hNN]
    simp only [hd]
    rw [Matrix.mulVec_mulVec, hN.1, Matrix.one_mulVec, add_sub_cancel_left]
  rw [hP] at h
  obtain ⟨ra, dec, diam, h1, -⟩ := h (by unfold bodyRadius; simp [len, Fin.sum_univ_three]; norm_num)
  exact ⟨dmoon, ra, dec, diam, h1⟩

end Pal.Props
