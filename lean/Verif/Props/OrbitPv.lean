import Verif.Props.OrbitEl
import Verif.Lemmas.Kepler
import Mathlib.Analysis.SpecialFunctions.Trigonometric.Bounds

/-!
# C62, C85, C86: osculating elements from a state vector, palPv2el and palUe2el
-/

namespace Pal.Props
open Real Pal.Spec Pal.Kepler Pal.Orbit

/-- Position (AU) and velocity (AU/day) of a state vector on the axes of the J2000 ecliptic. -/
noncomputable def eclPos (pv : PV) : Fin 3 → ℝ := (tilt obSE obCE).transpose.mulVec pv.p
noncomputable def eclVel (pv : PV) : Fin 3 → ℝ := (86400 : ℝ) • (tilt obSE obCE).transpose.mulVec pv.v

theorem equToEcl_eq (p : Vec3) : equToEcl p = (tilt obSE obCE).transpose.mulVec p := by
  unfold equToEcl tilt
  funext i; fin_cases i <;> simp [Matrix.mulVec, dotProduct, Fin.sum_univ_three] <;> ring

theorem eclVel_eq (pv : PV) : (fun i => spd * equToEcl pv.v i) = eclVel pv := by
  unfold eclVel; rw [← equToEcl_eq]; funext i; simp [spd]

/-- palPv2el after validation. -/
theorem pv2el_valid (pv : PV) (date pmass : ℝ) (jformr : ℤ) (el : Elems) (hm : 0 ≤ pmass) (hj : 1 ≤ jformr ∧ jformr ≤ 3)
    (hr : 1 / 10 ^ 3 ≤ len (eclPos pv)) (hv : 1 / 10 ^ 8 ≤ len (eclVel pv)) :
    palPv2el pv date pmass jformr el =
      let q := orbitQ (eclPos pv) (eclVel pv) pmass
      let jf := if q.ecc > 1 then 3 else jformr
      if jf ≠ 3 ∧ q.ar = 0 then none
      else if jf = 3 ∧ ¬ q.ecc < 1 ∧ cos (q.at_ / 2) = 0 then none
      else
        some ({ jform := jf
                epoch := if jf ≠ 3 then date else orbitTp q date
                orbinc := q.oi
                anode := eraAnp q.bigom
                perih := if jf = 1 then eraAnp (q.bigom + q.om) else eraAnp q.om
                aorq := if jf ≠ 3 then 1 / q.ar else q.h2 / (q.gmu * (q.ecc + 1))
                e := q.ecc
                aorl := if jf = 1 then eraAnp (q.bigom + q.om + (orbitMean q).1) else if jf = 2 then eraAnp (orbitMean q).1 else el.aorl
                dm := if jf = 1 then (orbitMean q).2 else el.dm }, 0) := by
  unfold palPv2el
  dsimp only
  rw [if_neg (not_lt.2 hm), if_neg (by omega), if_neg]
  · rw [equToEcl_eq, eclVel_eq]; rfl
  · have e1 := len_eq (eclPos pv)
    have e2 := len_eq (eclVel pv)
    rw [dot_eq] at e1 e2
    rw [← eclVel_eq] at e2
    unfold eclPos at e1 hr
    rw [← equToEcl_eq] at e1 hr
    rw [← e1, ← e2, eclVel_eq]
    push Not; exact ⟨hr, hv⟩

/-- C62: palPv2el checks the mass, the form, and distance and speed, in this order; a rejected call changes no element. -/
theorem C62_status (pv : PV) (date pmass : ℝ) (jformr : ℤ) (el : Elems) :
    (pmass < 0 → palPv2el pv date pmass jformr el = some (el, -1)) ∧
    (0 ≤ pmass → jformr ∉ ({1, 2, 3} : Set ℤ) → palPv2el pv date pmass jformr el = some (el, -2)) ∧
    (0 ≤ pmass → jformr ∈ ({1, 2, 3} : Set ℤ) → (len (eclPos pv) < 1 / 10 ^ 3 ∨ len (eclVel pv) < 1 / 10 ^ 8) → palPv2el pv date pmass jformr el = some (el, -3)) ∧
    (0 ≤ pmass → jformr ∈ ({1, 2, 3} : Set ℤ) → 1 / 10 ^ 3 ≤ len (eclPos pv) → 1 / 10 ^ 8 ≤ len (eclVel pv) →
      ∀ el' j, palPv2el pv date pmass jformr el = some (el', j) → j = 0) := by
  refine ⟨fun h => ?_, fun h h2 => ?_, fun h h2 h3 => ?_, fun h h2 h3 h4 el' j hj => ?_⟩
  · unfold palPv2el; rw [if_pos h]
  · unfold palPv2el; rw [if_neg (not_lt.2 h), if_pos]
    simp only [Set.mem_insert_iff, Set.mem_singleton_iff] at h2; omega
  · unfold palPv2el
    dsimp only
    simp only [Set.mem_insert_iff, Set.mem_singleton_iff] at h2
    rw [if_neg (not_lt.2 h), if_neg (by omega), if_pos]
    have e1 := len_eq (eclPos pv)
    have e2 := len_eq (eclVel pv)
    rw [dot_eq] at e1 e2
    rw [← eclVel_eq] at e2
    unfold eclPos at e1
    rw [← equToEcl_eq] at e1
    rw [← e1, ← e2, eclVel_eq, equToEcl_eq]; exact h3
  · simp only [Set.mem_insert_iff, Set.mem_singleton_iff] at h2
    rw [pv2el_valid pv date pmass jformr el h (by omega) h3 h4] at hj
    dsimp only at hj
    generalize (if (orbitQ (eclPos pv) (eclVel pv) pmass).ecc > 1 then 3 else jformr) = jf at hj
    split at hj
    · cases hj
    · split at hj
      · cases hj
      · simp only [Option.some.injEq, Prod.mk.injEq] at hj; exact hj.2.symm

theorem gmu_pos {pmass : ℝ} (hm : 0 ≤ pmass) : 0 < (1 + pmass) * gcon * gcon := by
  have : 0 < gcon := gcon_pos
  positivity

theorem h2_eq (p v : Vec3) (m : ℝ) : (orbitQ p v m).h2 = dot (cross p v) (cross p v) := by
  rw [dot_eq]; unfold orbitQ cross; simp

theorem ar_eq {p : Vec3} (v : Vec3) {m : ℝ} (hm : 0 ≤ m) (hp : 0 < dot p p) :
    (orbitQ p v m).ar = -energy ((1 + m) * gcon ^ 2) p v / ((1 + m) * gcon ^ 2) := by
  unfold energy; rw [len_eq, dot_eq, dot_eq]; unfold orbitQ
  dsimp only
  have hg0 : gcon ≠ 0 := ne_of_gt gcon_pos
  have hp0 : 1 + m ≠ 0 := by linarith
  have hs : √(p 0 * p 0 + p 1 * p 1 + p 2 * p 2) ≠ 0 := by
    rw [dot_eq] at hp; exact ne_of_gt (Real.sqrt_pos.2 hp)
  field_simp; ring

/-- The orbit of a state vector: the conic and its relation to the elements that palPv2el works out. -/
theorem orbit_conic {p : Vec3} (v : Vec3) {m : ℝ} (hm : 0 ≤ m) (hp : 0 < dot p p) (hh : cross p v ≠ 0) (mu e0 : ℝ) (hmu : mu = (1 + m) * gcon ^ 2)
    (he : e0 = eccentricity mu p v) :
    ∃ H r : ℝ, 0 ≤ e0 ∧ 0 < mu ∧ (orbitQ p v m).gmu = mu ∧ (orbitQ p v m).ecc = (if |e0 - 1| < 1 / 10 ^ 8 then 1 else e0) ∧
      e0 ^ 2 = 1 - (orbitQ p v m).ar * H ^ 2 / mu ∧ 0 < H ∧ H ^ 2 = (orbitQ p v m).h2 ∧ 0 < r ∧
      r * mu * (1 + e0 * cos (orbitQ p v m).at_) = H ^ 2 ∧
      p = fromOrbit 0 1 (orbitQ p v m).om (orbitQ p v m).oi (orbitQ p v m).bigom (r * cos (orbitQ p v m).at_) (r * sin (orbitQ p v m).at_) ∧
      v = fromOrbit 0 1 (orbitQ p v m).om (orbitQ p v m).oi (orbitQ p v m).bigom
        (-(mu / H) * sin (orbitQ p v m).at_) (mu / H * (e0 + cos (orbitQ p v m).at_)) := by
  have hp' := hp
  rw [dot_eq] at hp'
  have h2 : 0 < (orbitQ p v m).h2 := by
    rw [h2_eq]
    exact lt_of_le_of_ne (dot_self_nonneg _) (fun h => hh (dot_self_eq_zero.1 h.symm))
  have hg : (orbitQ p v m).gmu = mu := by rw [hmu, sq, ← mul_assoc]; rfl
  have hmu0 : 0 < mu := by rw [hmu, sq, ← mul_assoc]; exact gmu_pos hm
  obtain ⟨e1, H, r, he0, hecc, he2, hH, hH2, hr0, hrr, q1, q2⟩ := orbitQ_conic p v m hm hp' h2
  have hee : e1 = e0 := by
    rw [he, eccentricity, ← Real.sqrt_sq he0, he2, ar_eq v hm hp, h2_eq, hg, ← hmu]
    congr 1; field_simp; ring
  rw [hee] at he0 hecc he2 hrr q2
  rw [hg] at hrr q2 he2
  rw [← hH2] at he2
  exact ⟨H, r, he0, hmu0, hg, hecc, he2, hH, hH2, hr0, hrr, q1, q2⟩

/-- Without angular momentum the eccentricity is one. -/
theorem ecc_straight {mu : ℝ} {p v : Vec3} (h : cross p v = 0) : eccentricity mu p v = 1 := by
  unfold eccentricity; rw [h]; simp [dot]

theorem rpos {p : Vec3} (h : 1 / 10 ^ 3 ≤ len p) : 0 < dot p p := by
  rw [len_eq] at h
  exact Real.sqrt_pos.1 (lt_of_lt_of_le (by norm_num) h)

/-- C62: unless the eccentricity is within 1e-8 of one, palPv2el delivers elements, without any arithmetic exception; the eccentricity is that of the orbit; the form
is the one requested for an ellipse and form 3 for a hyperbola. -/
theorem C62_form_partial (pv : PV) (date pmass : ℝ) (jformr : ℤ) (el : Elems) (hm : 0 ≤ pmass) (hj : jformr ∈ ({1, 2, 3} : Set ℤ))
    (hr : 1 / 10 ^ 3 ≤ len (eclPos pv)) (hv : 1 / 10 ^ 8 ≤ len (eclVel pv)) (e : ℝ) (he : e = eccentricity ((1 + pmass) * gcon ^ 2) (eclPos pv) (eclVel pv))
    (hp : 1 / 10 ^ 8 ≤ |e - 1|) :
    ∃ el', palPv2el pv date pmass jformr el = some (el', 0) ∧ el'.e = e ∧ (e < 1 → el'.jform = jformr) ∧ (1 < e → el'.jform = 3) := by
  simp only [Set.mem_insert_iff, Set.mem_singleton_iff] at hj
  rw [pv2el_valid pv date pmass jformr el hm (by omega) hr hv]
  dsimp only
  have hx : cross (eclPos pv) (eclVel pv) ≠ 0 := by
    intro h; rw [ecc_straight h] at he; rw [he] at hp; norm_num at hp
  obtain ⟨H, r, he0, hmu, hgmu, hecc, he2, hH, hH2, hr0, hrr, -, -⟩ := orbit_conic (eclVel pv) hm (rpos hr) hx _ e rfl he
  generalize orbitQ (eclPos pv) (eclVel pv) pmass = q at *
  generalize (1 + pmass) * gcon ^ 2 = mu at *
  rw [if_neg (not_lt.2 hp)] at hecc
  rw [if_neg, if_neg]
  · refine ⟨_, rfl, hecc, fun h => ?_, fun h => ?_⟩
    · dsimp only; rw [if_neg (by rw [hecc]; linarith)]
    · dsimp only; rw [if_pos (by rw [hecc]; exact h)]
  · rintro ⟨-, h1, h2⟩
    have he1 : 1 < e := by
      rcases lt_trichotomy e 1 with h | h | h
      · exact absurd (hecc ▸ h) h1
      · rw [h] at hp; norm_num at hp
      · exact h
    exact (hyperbola he1 hmu hH hr0 he2 hrr).1 h2
  · rintro ⟨h1, h2⟩
    rw [h2] at he2
    have h3 : e ^ 2 = 1 := by simpa using he2
    have : e = 1 := by nlinarith
    rw [this] at hp; norm_num at hp

/-- What a successful call of palPv2el has done. -/
theorem pv2el_ok {pv : PV} {date pmass : ℝ} {jformr : ℤ} {el el' : Elems} (h : palPv2el pv date pmass jformr el = some (el', 0)) :
    0 ≤ pmass ∧ (jformr = 1 ∨ jformr = 2 ∨ jformr = 3) ∧ 1 / 10 ^ 3 ≤ len (eclPos pv) ∧ 1 / 10 ^ 8 ≤ len (eclVel pv) ∧
    ∃ (q : OrbitQ) (jf : ℤ), q = orbitQ (eclPos pv) (eclVel pv) pmass ∧ jf = (if q.ecc > 1 then 3 else jformr) ∧
      ¬ (jf ≠ 3 ∧ q.ar = 0) ∧ ¬ (jf = 3 ∧ ¬ q.ecc < 1 ∧ cos (q.at_ / 2) = 0) ∧
      el' = { jform := jf
              epoch := if jf ≠ 3 then date else orbitTp q date
              orbinc := q.oi
              anode := eraAnp q.bigom
              perih := if jf = 1 then eraAnp (q.bigom + q.om) else eraAnp q.om
              aorq := if jf ≠ 3 then 1 / q.ar else q.h2 / (q.gmu * (q.ecc + 1))
              e := q.ecc
              aorl := if jf = 1 then eraAnp (q.bigom + q.om + (orbitMean q).1) else if jf = 2 then eraAnp (orbitMean q).1 else el.aorl
              dm := if jf = 1 then (orbitMean q).2 else el.dm } := by
  obtain ⟨s1, s2, s3, -⟩ := C62_status pv date pmass jformr el
  have h1 : 0 ≤ pmass := by
    by_contra hn; rw [s1 (not_le.1 hn)] at h; simp at h
  have h2 : jformr ∈ ({1, 2, 3} : Set ℤ) := by
    by_contra hn; rw [s2 h1 hn] at h; simp at h
  have h3 : 1 / 10 ^ 3 ≤ len (eclPos pv) := by
    by_contra hn; rw [s3 h1 h2 (Or.inl (not_le.1 hn))] at h; simp at h
  have h4 : 1 / 10 ^ 8 ≤ len (eclVel pv) := by
    by_contra hn; rw [s3 h1 h2 (Or.inr (not_le.1 hn))] at h; simp at h
  simp only [Set.mem_insert_iff, Set.mem_singleton_iff] at h2
  refine ⟨h1, h2, h3, h4, _, _, rfl, rfl, ?_⟩
  rw [pv2el_valid pv date pmass jformr el h1 (by omega) h3 h4] at h
  dsimp only at h
  generalize (if (orbitQ (eclPos pv) (eclVel pv) pmass).ecc > 1 then 3 else jformr) = jf at h
  generalize orbitQ (eclPos pv) (eclVel pv) pmass = q at h
  split at h
  · cases h
  · split at h
    · cases h
    · rename_i c1 c2
      simp only [Option.some.injEq, Prod.mk.injEq, and_true] at h
      exact ⟨c1, c2, h.symm⟩

theorem ecc_of_straight {p v : Vec3} {m : ℝ} (h : cross p v = 0) : (orbitQ p v m).ecc = 1 := by
  have h2 := h2_eq p v m
  rw [h] at h2
  have h3 : (orbitQ p v m).h2 = 0 := by rw [h2]; simp [dot]
  unfold orbitQ at h3 ⊢
  dsimp only at h3 ⊢
  rw [h3]; simp

theorem anode_same (q : OrbitQ) (w i x y : ℝ) : fromOrbit 0 1 w i (eraAnp q.bigom) x y = fromOrbit 0 1 w i q.bigom x y := by
  rw [fromOrbit_ecl, fromOrbit_ecl, sin_eraAnp, cos_eraAnp]

theorem oi_range (p v : Vec3) (m : ℝ) : (orbitQ p v m).oi ∈ Set.Icc 0 π := by
  unfold orbitQ; dsimp only
  exact ⟨atan2_nonneg (Real.sqrt_nonneg _), (atan2_mem _ _).2⟩

theorem at_abs (p v : Vec3) (m : ℝ) : |(orbitQ p v m).at_| ≤ π := by
  unfold orbitQ; dsimp only
  split
  · exact abs_le.2 ⟨(atan2_mem _ _).1.le, (atan2_mem _ _).2⟩
  · simp [Real.pi_pos.le]

/-- The mean anomaly is less than half a turn either way. -/
theorem mean_le_pi {e t : ℝ} (he0 : 0 ≤ e) (he1 : e ≤ 1) (ht : |t| ≤ π) {k l : ℝ} :
    |2 * atan2 (√k * sin (t / 2)) (√l * cos (t / 2)) - e * sin (2 * atan2 (√k * sin (t / 2)) (√l * cos (t / 2)))| ≤ π := by
  have ht' := abs_le.1 ht
  have hc : 0 ≤ √l * cos (t / 2) := mul_nonneg (Real.sqrt_nonneg _) (Real.cos_nonneg_of_mem_Icc ⟨by linarith, by linarith⟩)
  have hE := abs_atan2_le (y := √k * sin (t / 2)) hc
  generalize atan2 (√k * sin (t / 2)) (√l * cos (t / 2)) = E at *
  obtain ⟨E2, h2⟩ : ∃ E2, E2 = 2 * E := ⟨_, rfl⟩
  rw [← h2]
  have hE2 : |E2| ≤ π := by rw [h2, abs_mul]; norm_num; linarith
  obtain ⟨a1, a2⟩ := abs_le.1 hE2
  rcases le_total 0 E2 with h | h
  · have s0 := Real.sin_nonneg_of_nonneg_of_le_pi h a2
    have s1 := Real.sin_le h
    rw [abs_le]; constructor <;> nlinarith
  · have s0 := Real.sin_nonpos_of_nonpos_of_neg_pi_le h a1
    have s1 := Real.sin_le (neg_nonneg.2 h)
    rw [Real.sin_neg] at s1
    rw [abs_le]; constructor <;> nlinarith

/-- C86: elements of an ellipse describe the state they were made from: in the plane given by inclination and node, with the argument of perihelion, the body is at the
mean anomaly M of the Kepler ellipse with the semi-major axis a and eccentricity, n being the mean motion of Kepler's third law; the elements of the form asked for are
those of Note 6 of palPv2el. -/
theorem C86_ellipse (pv : PV) (date pmass : ℝ) (jformr : ℤ) (el el' : Elems) (h : palPv2el pv date pmass jformr el = some (el', 0)) (he : el'.e < 1) :
    ∃ argph a n M x y xd yd : ℝ,
      eclPos pv = fromOrbit 0 1 argph el'.orbinc el'.anode x y ∧ eclVel pv = fromOrbit 0 1 argph el'.orbinc el'.anode xd yd ∧
      KeplerEllipse a el'.e n M x y xd yd ∧ 0 < a ∧ 0 ≤ n ∧ n ^ 2 * a ^ 3 = (1 + pmass) * gcon ^ 2 ∧ |M| ≤ π ∧
      el'.orbinc ∈ Set.Icc 0 π ∧ el'.anode ∈ Set.Ico 0 (2 * π) ∧ 0 ≤ el'.e ∧ el'.perih ∈ Set.Ico 0 (2 * π) ∧
      el'.jform = jformr ∧
      (jformr = 1 → el'.epoch = date ∧ SameAngle el'.perih (el'.anode + argph) ∧ el'.aorq = a ∧ SameAngle el'.aorl (el'.perih + M) ∧ el'.dm = n ∧ el'.aorl ∈ Set.Ico 0 (2 * π)) ∧
      (jformr = 2 → el'.epoch = date ∧ SameAngle el'.perih argph ∧ el'.aorq = a ∧ SameAngle el'.aorl M ∧ el'.dm = el.dm ∧ el'.aorl ∈ Set.Ico 0 (2 * π)) ∧
      (jformr = 3 → el'.epoch = date - M / n ∧ SameAngle el'.perih argph ∧ el'.aorq = a * (1 - el'.e) ∧ el'.aorl = el.aorl ∧ el'.dm = el.dm) := by
  obtain ⟨hm, hj, hr, hv, q, jf, hq, hjf, -, -, rfl⟩ := pv2el_ok h
  dsimp only at he
  have hx : cross (eclPos pv) (eclVel pv) ≠ 0 := by
    intro hx; rw [hq, ecc_of_straight hx] at he; exact lt_irrefl _ he
  obtain ⟨H, r, he0, hmu, hgmu, hecc, he2, hH, hH2, hr0, hrr, c1, c2⟩ := orbit_conic (eclVel pv) hm (rpos hr) hx _ _ rfl rfl
  have hoi := oi_range (eclPos pv) (eclVel pv) pmass
  rw [← hq] at hgmu hecc he2 hH2 hrr c1 c2 hoi
  have hee : eccentricity ((1 + pmass) * gcon ^ 2) (eclPos pv) (eclVel pv) = q.ecc := by
    split at hecc
    · rw [hecc] at he; exact absurd he (lt_irrefl _)
    · exact hecc.symm
  rw [hee] at he0 he2 hrr c2
  generalize (1 + pmass) * gcon ^ 2 = mu at *
  obtain ⟨har, hn, haq, hk⟩ := ellipse he0 he hmu hH hr0 he2 hrr
  have hjf' : jf = jformr := by rw [hjf, if_neg (by linarith)]
  have hMn : orbitMean q = (2 * atan2 (√(-(q.ecc - 1)) * sin (q.at_ / 2)) (√(q.ecc + 1) * cos (q.at_ / 2)) -
      q.ecc * sin (2 * atan2 (√(-(q.ecc - 1)) * sin (q.at_ / 2)) (√(q.ecc + 1) * cos (q.at_ / 2))), √(mu * q.ar * q.ar * q.ar)) := by
    unfold orbitMean; rw [if_pos he, hgmu]
  have hTp : orbitTp q date = date - (orbitMean q).1 / (orbitMean q).2 := by unfold orbitTp; rw [if_pos he]
  rw [show 2 * atan2 (√(-(q.ecc - 1)) * sin (q.at_ / 2)) (√(q.ecc + 1) * cos (q.at_ / 2)) -
      q.ecc * sin (2 * atan2 (√(-(q.ecc - 1)) * sin (q.at_ / 2)) (√(q.ecc + 1) * cos (q.at_ / 2))) = (orbitMean q).1 by rw [hMn]] at hk
  rw [show √(mu * q.ar * q.ar * q.ar) = (orbitMean q).2 by rw [hMn]] at hk hn
  refine ⟨q.om, 1 / q.ar, (orbitMean q).2, (orbitMean q).1, _, _, _, _, by rw [anode_same]; exact c1, by rw [anode_same]; exact c2, hk, by positivity,
    by rw [hMn]; exact Real.sqrt_nonneg _, hn, ?_, hoi, (eraAnp_spec _).1, he0, ?_, hjf', ?_, ?_, ?_⟩
  · rw [hMn]; exact mean_le_pi he0 he.le (hq ▸ at_abs _ _ _)
  · dsimp only; split <;> exact (eraAnp_spec _).1
  · rintro rfl
    subst hjf'
    refine ⟨rfl, ?_, rfl, ?_, rfl, by simp only [if_true]; exact (eraAnp_spec _).1⟩
    · obtain ⟨k1, e1⟩ := (eraAnp_spec (q.bigom + q.om)).2
      obtain ⟨k2, e2⟩ := (eraAnp_spec q.bigom).2
      exact ⟨k1 - k2, by simp only [if_true]; rw [e1, e2]; push_cast; ring⟩
    · obtain ⟨k1, e1⟩ := (eraAnp_spec (q.bigom + q.om + (orbitMean q).1)).2
      obtain ⟨k2, e2⟩ := (eraAnp_spec (q.bigom + q.om)).2
      exact ⟨k1 - k2, by simp only [if_true]; rw [e1, e2]; push_cast; ring⟩
  · rintro rfl
    subst hjf'
    exact ⟨rfl, (eraAnp_spec _).2, rfl, (eraAnp_spec _).2, rfl, (eraAnp_spec _).1⟩
  · rintro rfl
    subst hjf'
    refine ⟨hTp, (eraAnp_spec _).2, ?_, rfl, rfl⟩
    dsimp only
    rw [← hH2, hgmu]; exact haq

/-- C86: elements of a hyperbola, whatever the form asked for, are in form 3 and describe the state they were made from. -/
theorem C86_hyperbola (pv : PV) (date pmass : ℝ) (jformr : ℤ) (el el' : Elems) (h : palPv2el pv date pmass jformr el = some (el', 0)) (he : 1 < el'.e) :
    ∃ argph a n M x y xd yd : ℝ,
      eclPos pv = fromOrbit 0 1 argph el'.orbinc el'.anode x y ∧ eclVel pv = fromOrbit 0 1 argph el'.orbinc el'.anode xd yd ∧
      KeplerHyperbola a el'.e n M x y xd yd ∧ 0 < a ∧ 0 ≤ n ∧ n ^ 2 * a ^ 3 = (1 + pmass) * gcon ^ 2 ∧
      el'.orbinc ∈ Set.Icc 0 π ∧ el'.anode ∈ Set.Ico 0 (2 * π) ∧ el'.perih ∈ Set.Ico 0 (2 * π) ∧
      el'.jform = 3 ∧ el'.epoch = date - M / n ∧ SameAngle el'.perih argph ∧ el'.aorq = a * (el'.e - 1) ∧ el'.aorl = el.aorl ∧ el'.dm = el.dm := by
  obtain ⟨hm, hj, hr, hv, q, jf, hq, hjf, -, -, rfl⟩ := pv2el_ok h
  dsimp only at he
  have hx : cross (eclPos pv) (eclVel pv) ≠ 0 := by
    intro hx; rw [hq, ecc_of_straight hx] at he; exact lt_irrefl _ he
  obtain ⟨H, r, he0, hmu, hgmu, hecc, he2, hH, hH2, hr0, hrr, c1, c2⟩ := orbit_conic (eclVel pv) hm (rpos hr) hx _ _ rfl rfl
  have hoi := oi_range (eclPos pv) (eclVel pv) pmass
  rw [← hq] at hgmu hecc he2 hH2 hrr c1 c2 hoi
  have hee : eccentricity ((1 + pmass) * gcon ^ 2) (eclPos pv) (eclVel pv) = q.ecc := by
    split at hecc
    · rw [hecc] at he; exact absurd he (lt_irrefl _)
    · exact hecc.symm
  rw [hee] at he0 he2 hrr c2
  generalize (1 + pmass) * gcon ^ 2 = mu at *
  obtain ⟨-, har, hn, haq, hk⟩ := hyperbola he hmu hH hr0 he2 hrr
  have hjf' : jf = 3 := by rw [hjf, if_pos he]
  subst hjf'
  refine ⟨q.om, -1 / q.ar, _, _, _, _, _, _, by rw [anode_same]; exact c1, by rw [anode_same]; exact c2, hk, div_pos_of_neg_of_neg (by norm_num) har,
    Real.sqrt_nonneg _, hn, hoi, (eraAnp_spec _).1, (eraAnp_spec _).1, rfl, ?_, (eraAnp_spec _).2, ?_, rfl, rfl⟩
  · show orbitTp q date = _
    unfold orbitTp; rw [if_neg (by linarith), hgmu]; dsimp only; rw [if_neg (by linarith)]
  · dsimp only
    rw [← hH2, hgmu]; exact haq

/-- C86: for an exact parabola, elements in form 3 are delivered, have eccentricity 1 and describe the state they were made from. -/
theorem C86_parabola (pv : PV) (date pmass : ℝ) (el : Elems) (hm : 0 ≤ pmass)
    (hr : 1 / 10 ^ 3 ≤ len (eclPos pv)) (hv : 1 / 10 ^ 8 ≤ len (eclVel pv)) (hx : cross (eclPos pv) (eclVel pv) ≠ 0) (mu : ℝ) (hmu : mu = (1 + pmass) * gcon ^ 2)
    (hen : energy mu (eclPos pv) (eclVel pv) = 0) :
    ∃ el', palPv2el pv date pmass 3 el = some (el', 0) ∧ el'.e = 1 ∧ el'.jform = 3 ∧ ∃ argph x y xd yd : ℝ,
      eclPos pv = fromOrbit 0 1 argph el'.orbinc el'.anode x y ∧ eclVel pv = fromOrbit 0 1 argph el'.orbinc el'.anode xd yd ∧
      KeplerParabola el'.aorq mu (date - el'.epoch) x y xd yd ∧ 0 < el'.aorq ∧
      el'.orbinc ∈ Set.Icc 0 π ∧ el'.anode ∈ Set.Ico 0 (2 * π) ∧ el'.perih ∈ Set.Ico 0 (2 * π) ∧ SameAngle el'.perih argph := by
  have he1 : (1 : ℝ) = eccentricity mu (eclPos pv) (eclVel pv) := by unfold eccentricity; rw [hen]; simp
  obtain ⟨H, r, -, hmu0, hgmu, hecc, he2, hH, hH2, hr0, hrr, c1, c2⟩ := orbit_conic (eclVel pv) hm (rpos hr) hx mu _ hmu he1
  have hoi := oi_range (eclPos pv) (eclVel pv) pmass
  rw [if_pos (by norm_num)] at hecc
  rw [pv2el_valid pv date pmass 3 el hm (by omega) hr hv]
  dsimp only
  generalize orbitQ (eclPos pv) (eclVel pv) pmass = q at *
  rw [one_mul] at hrr
  obtain ⟨hcn, hq0, hk⟩ := parabola hmu0 hH hr0 hrr
  rw [hecc, if_neg (lt_irrefl (1 : ℝ)), if_neg (by simp), if_neg (by tauto)]
  refine ⟨_, rfl, rfl, rfl, q.om, _, _, _, _, by rw [anode_same]; exact c1, by rw [anode_same]; exact c2, ?_, ?_, hoi, (eraAnp_spec _).1, (eraAnp_spec _).1,
    (eraAnp_spec _).2⟩
  · have hT : date - orbitTp q date = sin (q.at_ / 2) / cos (q.at_ / 2) * (1 + sin (q.at_ / 2) / cos (q.at_ / 2) * (sin (q.at_ / 2) / cos (q.at_ / 2)) / 3) * H * H ^ 2 / (2 * mu * mu) := by
      unfold orbitTp; rw [hecc, if_neg (lt_irrefl _)]; dsimp only; rw [if_pos rfl, ← hH2, hgmu, Real.sqrt_sq hH.le]; ring
    simp only [ne_eq, not_true_eq_false, if_false]
    rw [hT, ← hH2, hgmu, show (1 : ℝ) + 1 = 2 by norm_num]; exact hk
  · simp only [ne_eq, not_true_eq_false, if_false]
    rw [← hH2, hgmu, show (1 : ℝ) + 1 = 2 by norm_num]; exact hq0

/-- A state on the x axis moving at right angles to it, with speed W (AU/day) in the direction of the equatorial y axis. -/
noncomputable def yState (W : ℝ) : PV := { p := ![1, 0, 0], v := ![0, W / spd, 0] }

theorem yState_ecl (W : ℝ) : eclPos (yState W) = ![1, 0, 0] ∧ eclVel (yState W) = ![0, W * obCE, -(W * obSE)] := by
  constructor
  · rw [eclPos, ← equToEcl_eq]; unfold equToEcl yState; funext i; fin_cases i <;> simp
  · rw [← eclVel_eq]; unfold equToEcl yState spd; funext i; fin_cases i <;> simp <;> field_simp

/-- The scale that the rounded sine and cosine of the obliquity introduce. -/
noncomputable def obScale : ℝ := obCE ^ 2 + obSE ^ 2

theorem obScale_pos : 0 < obScale := by unfold obScale obCE obSE; norm_num

theorem yState_orbit (k : ℝ) (hk : 0 ≤ k) (W : ℝ) (hW : W = √(k * gcon ^ 2 / obScale)) :
    len (eclPos (yState W)) = 1 ∧ len (eclVel (yState W)) = √k * gcon ∧ energy (gcon ^ 2) (eclPos (yState W)) (eclVel (yState W)) = (k - 2) * gcon ^ 2 ∧
    dot (cross (eclPos (yState W)) (eclVel (yState W))) (cross (eclPos (yState W)) (eclVel (yState W))) = k * gcon ^ 2 := by
  obtain ⟨e1, e2⟩ := yState_ecl W
  have hW2 : W ^ 2 * obScale = k * gcon ^ 2 := by
    rw [hW, Real.sq_sqrt (div_nonneg (mul_nonneg hk (sq_nonneg _)) obScale_pos.le), div_mul_cancel₀ _ (ne_of_gt obScale_pos)]
  have hv : dot (eclVel (yState W)) (eclVel (yState W)) = k * gcon ^ 2 := by
    rw [e2, dot_eq]; simp; unfold obScale at hW2; linear_combination hW2
  have hp : dot (eclPos (yState W)) (eclPos (yState W)) = 1 := by rw [e1, dot_eq]; simp
  have hl : len (eclPos (yState W)) = 1 := by rw [len_eq, hp, Real.sqrt_one]
  refine ⟨hl, ?_, ?_, ?_⟩
  · rw [len_eq, hv, Real.sqrt_mul hk, Real.sqrt_sq gcon_pos.le]
  · unfold energy; rw [hv, hl]; ring
  · rw [e1, e2, dot_eq]; unfold cross; simp; unfold obScale at hW2; linear_combination hW2

/-- C62 is false of the code for orbits that are not ellipses but nearly parabolic: asked for elements in form 1 or 2 of a certain hyperbolic orbit (its energy is
positive), palPv2el reports success, does not return form 3, and delivers eccentricity 1 with a negative mean distance, which palEl2ue then rejects. -/
theorem C62_near_parabola_refuted : ∃ pv : PV, 0 < energy (gcon ^ 2) (eclPos pv) (eclVel pv) ∧
    ∀ (date : ℝ) (jformr : ℤ) (el : Elems) (u : Univ), jformr = 1 ∨ jformr = 2 →
      ∃ el', palPv2el pv date 0 jformr el = some (el', 0) ∧ el'.jform = jformr ∧ el'.e = 1 ∧ el'.aorq = -10 ^ 9 ∧
        palEl2ue date el'.jform el'.epoch el'.orbinc el'.anode el'.perih el'.aorq el'.e el'.aorl el'.dm u = some (u, -2) := by
  obtain ⟨h1, h2, h3, h4⟩ := yState_orbit (2 + 1 / 10 ^ 9) (by norm_num) _ rfl
  generalize yState (√((2 + 1 / 10 ^ 9) * gcon ^ 2 / obScale)) = pv at *
  have hg := gcon_pos
  refine ⟨pv, by rw [h3]; positivity, fun date jformr el u hj => ?_⟩
  have hx : cross (eclPos pv) (eclVel pv) ≠ 0 := by
    intro hx; rw [hx] at h4
    have : (0 : ℝ) = (2 + 1 / 10 ^ 9) * gcon ^ 2 := by rw [← h4]; simp [dot]
    have h5 : 0 < (2 + 1 / 10 ^ 9) * gcon ^ 2 := by positivity
    linarith
  have hr : 1 / 10 ^ 3 ≤ len (eclPos pv) := by rw [h1]; norm_num
  have hv : 1 / 10 ^ 8 ≤ len (eclVel pv) := by
    rw [h2]
    have : 1 ≤ √((2 : ℝ) + 1 / 10 ^ 9) := by rw [Real.one_le_sqrt]; norm_num
    have h6 : 1 / 10 ^ 8 ≤ gcon := by unfold gcon; norm_num
    nlinarith
  have he : (1 + 1 / 10 ^ 9 : ℝ) = eccentricity ((1 + 0) * gcon ^ 2) (eclPos pv) (eclVel pv) := by
    unfold eccentricity
    rw [show (1 + 0) * gcon ^ 2 = gcon ^ 2 by ring, h3, h4, ← Real.sqrt_sq (show (0 : ℝ) ≤ 1 + 1 / 10 ^ 9 by norm_num)]
    congr 1; field_simp; norm_num
  obtain ⟨H, r, -, -, hgmu, hecc, he2, hH, hH2, -, -, -, -⟩ := orbit_conic (eclVel pv) (le_refl (0 : ℝ)) (rpos hr) hx _ _ rfl he
  have har := ar_eq (eclVel pv) (le_refl (0 : ℝ)) (rpos hr)
  rw [show (1 + 0) * gcon ^ 2 = gcon ^ 2 by ring, h3] at har
  have har' : (orbitQ (eclPos pv) (eclVel pv) 0).ar = -1 / 10 ^ 9 := by rw [har]; field_simp; norm_num
  rw [if_pos (by rw [abs_of_pos] <;> norm_num)] at hecc
  rw [pv2el_valid pv date 0 jformr el (le_refl _) (by omega) hr hv]
  dsimp only
  generalize orbitQ (eclPos pv) (eclVel pv) 0 = q at *
  rw [hecc, if_neg (lt_irrefl (1 : ℝ)), har', if_neg (by norm_num), if_neg (by rintro ⟨h, -⟩; omega)]
  refine ⟨_, rfl, rfl, rfl, ?_, ?_⟩
  · dsimp only; rw [if_pos (by omega)]; norm_num
  · dsimp only
    unfold palEl2ue
    rw [if_neg (by omega), if_pos]
    right; right; exact ⟨le_refl _, by omega⟩

/-- C62: elements of an exact parabola requested in form 1 or 2 are not converted to form 3 either: the code divides by the vanishing reciprocal of the semi-major
axis. -/
theorem C62_parabola_refuted : ∃ pv : PV, energy (gcon ^ 2) (eclPos pv) (eclVel pv) = 0 ∧ cross (eclPos pv) (eclVel pv) ≠ 0 ∧
    ∀ (date : ℝ) (jformr : ℤ) (el : Elems), jformr = 1 ∨ jformr = 2 → palPv2el pv date 0 jformr el = none := by
  obtain ⟨h1, h2, h3, h4⟩ := yState_orbit 2 (by norm_num) _ rfl
  generalize yState (√(2 * gcon ^ 2 / obScale)) = pv at *
  have hg := gcon_pos
  have hx : cross (eclPos pv) (eclVel pv) ≠ 0 := by
    intro hx; rw [hx] at h4
    have : (0 : ℝ) = 2 * gcon ^ 2 := by rw [← h4]; simp [dot]
    have h5 : 0 < 2 * gcon ^ 2 := by positivity
    linarith
  have hen : energy (gcon ^ 2) (eclPos pv) (eclVel pv) = 0 := by rw [h3]; ring
  refine ⟨pv, hen, hx, fun date jformr el hj => ?_⟩
  have hr : 1 / 10 ^ 3 ≤ len (eclPos pv) := by rw [h1]; norm_num
  have hv : 1 / 10 ^ 8 ≤ len (eclVel pv) := by
    rw [h2]
    have : 1 ≤ √(2 : ℝ) := by rw [Real.one_le_sqrt]; norm_num
    have h6 : 1 / 10 ^ 8 ≤ gcon := by unfold gcon; norm_num
    nlinarith
  have he : (1 : ℝ) = eccentricity ((1 + 0) * gcon ^ 2) (eclPos pv) (eclVel pv) := by
    unfold eccentricity
    rw [show (1 + 0) * gcon ^ 2 = gcon ^ 2 by ring, hen]; simp
  obtain ⟨H, r, -, -, hgmu, hecc, -⟩ := orbit_conic (eclVel pv) (le_refl (0 : ℝ)) (rpos hr) hx _ _ rfl he
  have har := ar_eq (eclVel pv) (le_refl (0 : ℝ)) (rpos hr)
  rw [show (1 + 0) * gcon ^ 2 = gcon ^ 2 by ring, hen] at har
  rw [if_pos (by norm_num)] at hecc
  rw [pv2el_valid pv date 0 jformr el (le_refl _) (by omega) hr hv]
  dsimp only
  rw [hecc, if_neg (lt_irrefl (1 : ℝ)), har, if_pos]
  exact ⟨by omega, by simp⟩

/-- An ellipse, a hyperbola and a parabola to which C62_form_partial and C86 apply. -/
theorem C86_cases : (∃ pv : PV, ∀ date jformr el, jformr ∈ ({1, 2, 3} : Set ℤ) → ∃ el', palPv2el pv date 0 jformr el = some (el', 0) ∧ el'.e = 1 / 4) ∧
    (∃ pv : PV, ∀ date jformr el, jformr ∈ ({1, 2, 3} : Set ℤ) → ∃ el', palPv2el pv date 0 jformr el = some (el', 0) ∧ el'.e = 2) ∧
    (∃ pv : PV, ∀ date el, ∃ el', palPv2el pv date 0 3 el = some (el', 0) ∧ el'.e = 1) := by
  have hg := gcon_pos
  have key : ∀ k : ℝ, 1 ≤ k → 1 / 10 ^ 8 ≤ |k - 2| → ∃ pv : PV, ∀ date jformr el, jformr ∈ ({1, 2, 3} : Set ℤ) →
      ∃ el', palPv2el pv date 0 jformr el = some (el', 0) ∧ el'.e = k - 1 := by
    intro k hk hk2
    obtain ⟨h1, h2, h3, h4⟩ := yState_orbit k (by linarith) _ rfl
    refine ⟨yState (√(k * gcon ^ 2 / obScale)), fun date jformr el hj => ?_⟩
    generalize yState (√(k * gcon ^ 2 / obScale)) = pv at *
    have hr : 1 / 10 ^ 3 ≤ len (eclPos pv) := by rw [h1]; norm_num
    have hv : 1 / 10 ^ 8 ≤ len (eclVel pv) := by
      rw [h2]
      have : 1 ≤ √k := by rw [Real.one_le_sqrt]; exact hk
      have h6 : 1 / 10 ^ 8 ≤ gcon := by unfold gcon; norm_num
      nlinarith
    have he : k - 1 = eccentricity ((1 + 0) * gcon ^ 2) (eclPos pv) (eclVel pv) := by
      unfold eccentricity
      rw [show (1 + 0) * gcon ^ 2 = gcon ^ 2 by ring, h3, h4]
      conv_lhs => rw [← Real.sqrt_sq (show (0 : ℝ) ≤ k - 1 by linarith)]
      congr 1; field_simp; ring
    obtain ⟨el', h5, h6, -⟩ := C62_form_partial pv date 0 jformr el (le_refl _) hj hr hv _ he (by rw [show k - 1 - 1 = k - 2 by ring]; exact hk2)
    exact ⟨el', h5, h6⟩
  refine ⟨?_, ?_, ?_⟩
  · obtain ⟨pv, h⟩ := key (5 / 4) (by norm_num) (by rw [abs_of_neg] <;> norm_num)
    exact ⟨pv, fun d j el hj => by obtain ⟨el', h1, h2⟩ := h d j el hj; exact ⟨el', h1, by rw [h2]; norm_num⟩⟩
  · obtain ⟨pv, h⟩ := key 3 (by norm_num) (by norm_num)
    exact ⟨pv, fun d j el hj => by obtain ⟨el', h1, h2⟩ := h d j el hj; exact ⟨el', h1, by rw [h2]; norm_num⟩⟩
  · obtain ⟨h1, h2, h3, h4⟩ := yState_orbit 2 (by norm_num) _ rfl
    refine ⟨yState (√(2 * gcon ^ 2 / obScale)), fun date el => ?_⟩
    generalize yState (√(2 * gcon ^ 2 / obScale)) = pv at *
    have hx : cross (eclPos pv) (eclVel pv) ≠ 0 := by
      intro hx; rw [hx] at h4
      have : (0 : ℝ) = 2 * gcon ^ 2 := by rw [← h4]; simp [dot]
      have h5 : 0 < 2 * gcon ^ 2 := by positivity
      linarith
    obtain ⟨el', h5, h6, -⟩ := C86_parabola pv date 0 el (le_refl _) (by rw [h1]; norm_num) (by
      rw [h2]
      have : 1 ≤ √(2 : ℝ) := by rw [Real.one_le_sqrt]; norm_num
      have h6 : 1 / 10 ^ 8 ≤ gcon := by unfold gcon; norm_num
      nlinarith) hx _ rfl (by rw [show (1 + 0) * gcon ^ 2 = gcon ^ 2 by ring, h3]; ring)
    exact ⟨el', h5, h6⟩

/-- C85: converting a state vector to universal elements and those to conventional elements is the same as converting the state vector directly. -/
theorem C85_ue2el (pv : PV) (date pmass : ℝ) (u u' : Univ) (jformr : ℤ) (el : Elems) (h : palPv2ue pv date pmass u = (u', 0)) :
    palUe2el u' jformr el = palPv2el pv date pmass jformr el := by
  obtain ⟨-, ht, hm, hp, hv⟩ := C61_elements _ _ _ _ _ h
  unfold palUe2el
  rw [hp, hv, ht, hm]
  have e1 : (fun i => pv.v i / cd2s * cd2s) = pv.v := by funext i; exact div_mul_cancel₀ _ cd2s_ne
  rw [e1]
  congr 1; ring

example (u : Univ) (date : ℝ) (jformr : ℤ) (el : Elems) :
    ∃ u', palPv2ue { p := ![1, 0, 0], v := ![0, cd2s, 0] } date 0 u = (u', 0) ∧
      palUe2el u' jformr el = palPv2el { p := ![1, 0, 0], v := ![0, cd2s, 0] } date 0 jformr el := by
  have h : (palPv2ue { p := ![1, 0, 0], v := ![0, cd2s, 0] } date 0 u).2 = 0 := by
    unfold palPv2ue; simp [cd2s_ne]; norm_num
  exact ⟨_, Prod.ext rfl h, C85_ue2el _ _ _ _ _ _ _ (Prod.ext rfl h)⟩

end Pal.Props
