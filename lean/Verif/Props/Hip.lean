import Verif.Model.Hip
import Verif.Spec.Hip
import Verif.Props.Rot
import Verif.Lemmas.Map
import Mathlib.Analysis.SpecialFunctions.Trigonometric.Deriv
import Mathlib.Analysis.SpecialFunctions.Trigonometric.Bounds

/-!
# FK5 and Hipparcos: property C94
-/

namespace Pal.Props
open Real Matrix Pal Pal.Spec

/-- palDav2m of a multiple (of either sign) of a unit vector. -/
theorem av2m_turn {k : Vec3} (hk : dot k k = 1) (phi : ℝ) (u : Vec3) :
    eraRxp (eraRv2m (fun i => phi * k i)) u = turnAxes k phi u := by
  rcases le_total 0 phi with h | h
  · exact C74_dav2m hk h u
  · have hk' : dot (fun i => -1 * k i) (fun i => -1 * k i) = 1 := by rw [dot_smul_left, dot_smul_right, hk]; ring
    have := C74_dav2m hk' (neg_nonneg.2 h) u
    have e : (fun i => -phi * (fun i => -1 * k i) i) = fun i => phi * k i := by funext i; ring
    rw [e] at this
    refine this.trans ?_
    unfold turnAxes
    rw [dot_smul_left, cos_neg, sin_neg]
    funext i
    fin_cases i <;> simp [crossProduct] <;> ring

theorem turn_transpose {k : Vec3} (hk : dot k k = 1) (phi : ℝ) (u : Vec3) :
    eraTrxp (eraRv2m (fun i => phi * k i)) u = turnAxes k (-phi) u := by
  rw [← av2m_turn hk]
  have h1 : ∀ phi : ℝ, 0 ≤ phi → eraTr (eraRv2m (fun i => phi * k i)) = eraRv2m (fun i => -phi * k i) := by
    intro phi h
    have hk' : dot (fun i => -1 * k i) (fun i => -1 * k i) = 1 := by rw [dot_smul_left, dot_smul_right, hk]; ring
    have a := rv2m_polar hk h
    have b := rv2m_polar hk' h
    have e : (fun i => phi * (fun i => -1 * k i) i) = fun i => -phi * k i := by funext i; ring
    rw [e] at b
    unfold palDav2m at a b
    rw [a, b]
    ext i j
    fin_cases i <;> fin_cases j <;> simp [eraTr, -mul_eq_mul_right_iff, -add_left_inj, -add_right_inj] <;> ring
  unfold eraTrxp
  rcases le_total 0 phi with h | h
  · rw [h1 phi h]
  · have := h1 (-phi) (neg_nonneg.2 h)
    rw [neg_neg] at this
    rw [← this]
    rfl

theorem dot_turn {k : Vec3} (hk : dot k k = 1) (phi : ℝ) (a b : Vec3) : dot (turnAxes k phi a) (turnAxes k phi b) = dot a b := by
  rw [← av2m_turn hk, ← av2m_turn hk, eraRxp_eq, eraRxp_eq]
  exact rot_dot (C74_rotation (fun i => phi * k i)).1 a b

theorem turn_back {k : Vec3} (hk : dot k k = 1) (phi : ℝ) (u : Vec3) : turnAxes k (-phi) (turnAxes k phi u) = u := by
  rw [← turn_transpose hk, ← av2m_turn hk, eraTrxp_eq, eraRxp_eq, Matrix.mulVec_mulVec]
  have := rot_trans_mul (C74_rotation (fun i => phi * k i)).1
  unfold palDav2m at this
  rw [this, Matrix.one_mulVec]

theorem mas_das2r : 1e-3 * das2r = mas := by unfold mas das2r arcsec; ring

theorem ep_eq : fk5hipEp = hipOrientation := by
  have := mas_das2r
  funext i; fin_cases i <;> simp [fk5hipEp, hipOrientation] <;> linarith

theorem om_eq : fk5hipOm = hipSpin := by
  have := mas_das2r
  funext i; fin_cases i <;> simp [fk5hipOm, hipSpin] <;> linarith

/-- **C94** (FK5 to Hipparcos) palFk5hz turns the axes first by the spin accumulated since J2000 and then by the orientation of Hipparcos; right ascension in [0,2π). -/
theorem C94_fk5hz (r5 d5 epoch : ℝ) {k l : Vec3} {w v : ℝ} (hk : dot k k = 1) (hl : dot l l = 1) (hw : hipSpin = fun i => w * k i) (hv : hipOrientation = fun i => v * l i) :
    (palFk5hz r5 d5 epoch).1 ∈ Set.Ico 0 (2 * π) ∧ |(palFk5hz r5 d5 epoch).2| ≤ π / 2 ∧
    dir (palFk5hz r5 d5 epoch).1 (palFk5hz r5 d5 epoch).2 = turnAxes l v (turnAxes k ((epoch - 2000) * w) (dir r5 d5)) := by
  unfold palFk5hz eraFk5hz eraEpj2jdR
  dsimp only
  have ht : (fun i => -(2400000.5 - 2451545 + (51544.5 + (epoch - 2000) * 365.25)) / 365.25 * fk5hipOm i) = fun i => (-((epoch - 2000) * w)) * k i := by
    rw [om_eq, hw]; funext i; ring
  rw [ht, eraS2c_eq, turn_transpose hk, neg_neg, ep_eq, hv, av2m_turn hl]
  generalize hP : turnAxes l v (turnAxes k ((epoch - 2000) * w) (dir r5 d5)) = P
  have hu : dot P P = 1 := by
    rw [← hP, dot_turn hl, dot_turn hk, dot_dir]
  have hr := eraC2s_range P
  refine ⟨(eraAnp_spec _).1, hr.2, ?_⟩
  rw [dot_eq] at hu
  have h2 := eraC2s_unit P hu
  refine Eq.trans ?_ h2
  unfold dir
  rw [sin_eraAnp, cos_eraAnp]

theorem hip_vectors : ∃ k l : Vec3, dot k k = 1 ∧ dot l l = 1 ∧ hipSpin = (fun i => len hipSpin * k i) ∧ hipOrientation = fun i => len hipOrientation * l i := by
  obtain ⟨k, hk, hw⟩ := polar_vec hipSpin
  obtain ⟨l, hl, hv⟩ := polar_vec hipOrientation
  exact ⟨k, l, hk, hl, hw, hv⟩

/-- The hypotheses of C94_fk5hz and C94_hfk5z are met: the axes exist. -/
example : ∃ k l : Vec3, dot k k = 1 ∧ dot l l = 1 ∧ hipSpin = (fun i => len hipSpin * k i) ∧ hipOrientation = fun i => len hipOrientation * l i := hip_vectors

theorem rxr_trxp (a b : Mat3) (u : Vec3) : eraTrxp (eraRxr a b) u = eraTrxp b (eraTrxp a u) := by
  rw [eraTrxp_eq, eraTrxp_eq, eraTrxp_eq, eraRxr_eq, Matrix.transpose_mul, Matrix.mulVec_mulVec]

/-- Longitude and latitude delivered by eraPv2s, and the rates. -/
theorem pv2s_spec (p v : Vec3) (hp : dot p p = 1) (hv : dot p v = 0) :
    |(eraPv2s p v).1.2| ≤ π / 2 ∧ dir (eraPv2s p v).1.1 (eraPv2s p v).1.2 = p ∧
    (cos (eraPv2s p v).1.2 ≠ 0 → ∀ i, (eraPv2s p v).2.1 * cos (eraPv2s p v).1.2 * eastAt (eraPv2s p v).1.1 i + (eraPv2s p v).2.2 * northAt (eraPv2s p v).1.1 (eraPv2s p v).1.2 i = v i) ∧
    (cos (eraPv2s p v).1.2 = 0 → (eraPv2s p v).2 = (0, 0)) := by
  have hp' := hp
  rw [dot_eq] at hp hv
  have hr : √(p 0 * p 0 + p 1 * p 1 + p 2 * p 2) = 1 := by rw [hp, sqrt_one]
  have hne : ¬ (1 : ℝ) = 0 := one_ne_zero
  unfold eraPv2s
  dsimp only
  rw [hr]
  simp only [if_neg hne]
  by_cases h : p 0 * p 0 + p 1 * p 1 ≠ 0
  · rw [if_pos h]
    dsimp only
    have hpos : 0 < p 0 * p 0 + p 1 * p 1 := lt_of_le_of_ne (add_nonneg (mul_self_nonneg _) (mul_self_nonneg _)) h.symm
    have hc := hyp_cos_atan2 (p 1) (p 0)
    have hs := hyp_sin_atan2 (p 1) (p 0)
    obtain ⟨q, hq⟩ : ∃ q, q = √(p 0 * p 0 + p 1 * p 1) := ⟨_, rfl⟩
    have hq2 : q * q = p 0 * p 0 + p 1 * p 1 := by rw [hq]; exact Real.mul_self_sqrt hpos.le
    have hqp : 0 < q := by rw [hq]; exact Real.sqrt_pos.2 hpos
    rw [← hq] at hc hs ⊢
    have hc2 := hyp_cos_atan2 (p 2) q
    have hs2 := hyp_sin_atan2 (p 2) q
    have h1 : √(q * q + p 2 * p 2) = 1 := by rw [hq2, hp, sqrt_one]
    rw [h1, one_mul] at hc2 hs2
    have hl := abs_atan2_le (y := p 2) hqp.le
    rw [← hq2]
    unfold dir eastAt northAt
    rw [hc2, hs2]
    have hz : q * q + p 2 * p 2 = 1 := by rw [hq2, hp]
    rw [hz, one_mul]
    generalize cos (atan2 (p 1) (p 0)) = c at *
    generalize sin (atan2 (p 1) (p 0)) = s at *
    refine ⟨hl, ?_, fun _ i => ?_, fun h0 => absurd h0 hqp.ne'⟩
    · funext i; fin_cases i
      · exact hc
      · exact hs
      · rfl
    · have hcs : c * c + s * s = 1 := by
        have : q * q * (c * c + s * s) = q * q := by linear_combination (q * c + p 0) * hc + (q * s + p 1) * hs - hq2
        exact mul_left_cancel₀ (mul_pos hqp hqp).ne' (by rw [this, mul_one])
      rw [← hc, ← hs] at hv ⊢
      generalize p 2 = z at *
      fin_cases i
      · simp; field_simp; grind
      · simp; field_simp; grind
      · simp; field_simp; grind
  · rw [if_neg h]
    push Not at h
    obtain ⟨h0, h1⟩ : p 0 = 0 ∧ p 1 = 0 := ⟨by nlinarith [mul_self_nonneg (p 0), mul_self_nonneg (p 1)], by nlinarith [mul_self_nonneg (p 0), mul_self_nonneg (p 1)]⟩
    dsimp only
    have hz : p 2 * p 2 = 1 := by rw [h0, h1] at hp; linarith
    have hz0 : p 2 ≠ 0 := by rintro h; rw [h] at hz; norm_num at hz
    rw [if_pos hz0, h, sqrt_zero]
    have hc2 := hyp_cos_atan2 (p 2) 0
    have hs2 := hyp_sin_atan2 (p 2) 0
    have h2 : √((0:ℝ) * 0 + p 2 * p 2) = 1 := by rw [hz]; simp
    rw [h2, one_mul] at hc2 hs2
    refine ⟨abs_atan2_le le_rfl, ?_, fun h' => absurd hc2 h', fun _ => rfl⟩
    unfold dir
    rw [hc2, hs2]
    funext i; fin_cases i <;> simp [h0, h1]

/-- Cross products turn with the vectors. -/
theorem rot_cross {m : Mat3} (h : IsRotation m) (a b : Vec3) : m.transpose.mulVec (eraPxp a b) = eraPxp (m.transpose.mulVec a) (m.transpose.mulVec b) := by
  have ha := rot_adj (rot_transpose h)
  rw [Matrix.transpose_transpose] at ha
  have A : ∀ i j, m.transpose.adjugate i j = m i j := fun i j => by rw [ha]
  have A00 := A 0 0; have A01 := A 0 1; have A02 := A 0 2
  have A10 := A 1 0; have A11 := A 1 1; have A12 := A 1 2
  have A20 := A 2 0; have A21 := A 2 1; have A22 := A 2 2
  rw [Matrix.adjugate_fin_three] at A00 A01 A02 A10 A11 A12 A20 A21 A22
  simp at A00 A01 A02 A10 A11 A12 A20 A21 A22
  funext i
  fin_cases i <;> simp [mulVec, dotProduct, Fin.sum_univ_three, eraPxp]
  · rw [← A00, ← A10, ← A20]; ring
  · rw [← A01, ← A11, ← A21]; ring
  · rw [← A02, ← A12, ← A22]; ring

/-- Position and velocity palHfk5z forms. -/
theorem hfk5z_core (rh dh epoch : ℝ) {k l : Vec3} {w v : ℝ} (hk : dot k k = 1) (hl : dot l l = 1) (hw : hipSpin = fun i => w * k i) (hv : hipOrientation = fun i => v * l i) :
    ∃ P : Vec3, P = turnAxes k (-((epoch - 2000) * w)) (turnAxes l (-v) (dir rh dh)) ∧ dot P P = 1 ∧
      palHfk5z rh dh epoch = ((eraAnp (eraPv2s P (eraPxp hipSpin P)).1.1, (eraPv2s P (eraPxp hipSpin P)).1.2), (eraPv2s P (eraPxp hipSpin P)).2) := by
  refine ⟨_, rfl, by rw [dot_turn hk, dot_turn hl, dot_dir], ?_⟩
  unfold palHfk5z eraHfk5z eraEpj2jdR
  dsimp only
  have ht : (fun i => (2400000.5 - 2451545 + (51544.5 + (epoch - 2000) * 365.25)) / 365.25 * fk5hipOm i) = fun i => ((epoch - 2000) * w) * k i := by
    rw [om_eq, hw]; funext i; ring
  rw [ht, eraS2c_eq, ep_eq, om_eq, hv, rxr_trxp, rxr_trxp, turn_transpose hl, turn_transpose hk]
  have hfix : eraTrxp (eraRv2m fun i => (epoch - 2000) * w * k i) hipSpin = hipSpin := by
    rw [turn_transpose hk, hw]
    unfold turnAxes
    rw [dot_smul_right, hk]
    funext i
    have : crossProduct k (fun i => w * k i) i = 0 := by fin_cases i <;> simp [crossProduct] <;> ring
    rw [this]; ring
  have hback : eraTrxp (eraRv2m fun i => v * l i) (eraRxp (eraRv2m fun i => v * l i) hipSpin) = hipSpin := by
    rw [turn_transpose hl, av2m_turn hl, turn_back hl]
  have hvel : eraTrxp (eraRv2m fun i => (epoch - 2000) * w * k i) (eraTrxp (eraRv2m fun i => v * l i) (eraPxp (eraRxp (eraRv2m fun i => v * l i) hipSpin) (dir rh dh))) =
      eraPxp hipSpin (turnAxes k (-((epoch - 2000) * w)) (turnAxes l (-v) (dir rh dh))) := by
    have r1 := (C74_rotation (fun i => v * l i)).1
    have r2 := (C74_rotation (fun i => (epoch - 2000) * w * k i)).1
    unfold palDav2m at r1 r2
    rw [eraTrxp_eq (eraRv2m fun i => v * l i), rot_cross r1, ← eraTrxp_eq, ← eraTrxp_eq, hback, eraTrxp_eq, rot_cross r2, ← eraTrxp_eq, ← eraTrxp_eq, hfix, turn_transpose hk, turn_transpose hl]
  rw [hvel]

theorem dot_cross_self (a b : Vec3) : dot b (eraPxp a b) = 0 := by
  rw [dot_eq]; simp [eraPxp]; ring

theorem dir_anp (a b : ℝ) : dir (eraAnp a) b = dir a b := by
  unfold dir; rw [sin_eraAnp, cos_eraAnp]

/-- **C94** (Hipparcos to FK5) palHfk5z turns the axes back, by the orientation first and then by the accumulated spin. -/
theorem C94_hfk5z (rh dh epoch : ℝ) {k l : Vec3} {w v : ℝ} (hk : dot k k = 1) (hl : dot l l = 1) (hw : hipSpin = fun i => w * k i) (hv : hipOrientation = fun i => v * l i) :
    (palHfk5z rh dh epoch).1.1 ∈ Set.Ico 0 (2 * π) ∧ |(palHfk5z rh dh epoch).1.2| ≤ π / 2 ∧
    dir (palHfk5z rh dh epoch).1.1 (palHfk5z rh dh epoch).1.2 = turnAxes k (-((epoch - 2000) * w)) (turnAxes l (-v) (dir rh dh)) := by
  obtain ⟨P, hP, h1, h⟩ := hfk5z_core rh dh epoch hk hl hw hv
  rw [← hP, h]
  obtain ⟨a, b, -, -⟩ := pv2s_spec P (eraPxp hipSpin P) h1 (dot_cross_self _ _)
  exact ⟨(eraAnp_spec _).1, a, by rw [dir_anp]; exact b⟩

/-- **C94** (inverse) At the same epoch palHfk5z undoes palFk5hz and palFk5hz undoes palHfk5z, everywhere on the sphere. -/
theorem C94_inverse (r d epoch : ℝ) :
    dir (palHfk5z (palFk5hz r d epoch).1 (palFk5hz r d epoch).2 epoch).1.1 (palHfk5z (palFk5hz r d epoch).1 (palFk5hz r d epoch).2 epoch).1.2 = dir r d ∧
    dir (palFk5hz (palHfk5z r d epoch).1.1 (palHfk5z r d epoch).1.2 epoch).1 (palFk5hz (palHfk5z r d epoch).1.1 (palHfk5z r d epoch).1.2 epoch).2 = dir r d := by
  obtain ⟨k, l, hk, hl, hw, hv⟩ := hip_vectors
  constructor
  · rw [(C94_hfk5z _ _ epoch hk hl hw hv).2.2, (C94_fk5hz r d epoch hk hl hw hv).2.2, turn_back hl, turn_back hk]
  · rw [(C94_fk5hz _ _ epoch hk hl hw hv).2.2, (C94_hfk5z r d epoch hk hl hw hv).2.2]
    have h1 := turn_back hk (-((epoch - 2000) * len hipSpin)) (turnAxes l (-len hipOrientation) (dir r d))
    have h2 := turn_back hl (-len hipOrientation) (dir r d)
    rw [neg_neg] at h1 h2
    rw [h1, h2]

/-- **C94** (inverse, coordinates) Right ascension and declination themselves come back, except that the right ascension of a pole is arbitrary. -/
theorem C94_inverse_coords (r d epoch : ℝ) (hr : r ∈ Set.Ico 0 (2 * π)) (hd : |d| < π / 2) :
    (palHfk5z (palFk5hz r d epoch).1 (palFk5hz r d epoch).2 epoch).1 = (r, d) := by
  obtain ⟨k, l, hk, hl, hw, hv⟩ := hip_vectors
  have h := (C94_inverse r d epoch).1
  have hh := C94_hfk5z (palFk5hz r d epoch).1 (palFk5hz r d epoch).2 epoch hk hl hw hv
  generalize palHfk5z (palFk5hz r d epoch).1 (palFk5hz r d epoch).2 epoch = o at *
  obtain ⟨e1, e2⟩ := dir_inj h hh.2.1 hd.le
  ext
  · have hc : cos d ≠ 0 := (cos_pos_of_mem_Ioo ⟨by linarith [abs_lt.1 hd], by linarith [abs_lt.1 hd]⟩).ne'
    have := e2 (by first | exact hc | (rw [e1]; exact hc))
    exact this.eq_of_Ico (c := 0) (by simpa using hh.1) (by simpa using hr)
  · exact e1

example : (palHfk5z (palFk5hz 1 0.5 1991.25).1 (palFk5hz 1 0.5 1991.25).2 1991.25).1 = (1, 0.5) :=
  C94_inverse_coords 1 0.5 1991.25 ⟨by norm_num, by linarith [pi_gt_three]⟩ (by rw [abs_of_pos (by norm_num)]; linarith [pi_gt_three])

theorem turn_deriv (k : Vec3) (hk : dot k k = 1) (w : ℝ) (c : Vec3) (i : Fin 3) (x : ℝ) :
    HasDerivAt (fun x => turnAxes k (-((x - 2000) * w)) c i) (eraPxp (fun i => w * k i) (turnAxes k (-((x - 2000) * w)) c) i) x := by
  have hlin : HasDerivAt (fun x : ℝ => -((x - 2000) * w)) (-w) x := by
    exact ((((hasDerivAt_id x).sub_const 2000).mul_const w).neg).congr_deriv (by ring)
  have h := ((hlin.cos.mul_const (c i)).sub (hlin.sin.mul_const (crossProduct k c i))).add ((((hasDerivAt_const x (1:ℝ)).sub hlin.cos).mul_const (dot k c)).mul_const (k i))
  refine h.congr_deriv ?_
  rw [dot_eq] at hk
  unfold turnAxes
  rw [dot_eq]
  generalize cos (-((x - 2000) * w)) = C
  generalize sin (-((x - 2000) * w)) = S
  fin_cases i <;> simp [crossProduct, eraPxp] <;> grind

/-- **C94** (proper motion) The proper motions palHfk5z returns (right ascension in radians of the coordinate itself, per Julian year) are the rate of change with epoch of the FK5 direction it
returns: the apparent motion, in FK5, of a star at rest in the Hipparcos frame. -/
theorem C94_proper_motion (rh dh epoch : ℝ) (h : cos (palHfk5z rh dh epoch).1.2 ≠ 0) (i : Fin 3) :
    HasDerivAt (fun ep => dir (palHfk5z rh dh ep).1.1 (palHfk5z rh dh ep).1.2 i)
      ((palHfk5z rh dh epoch).2.1 * cos (palHfk5z rh dh epoch).1.2 * eastAt (palHfk5z rh dh epoch).1.1 i +
        (palHfk5z rh dh epoch).2.2 * northAt (palHfk5z rh dh epoch).1.1 (palHfk5z rh dh epoch).1.2 i) epoch := by
  obtain ⟨k, l, hk, hl, hw, hv⟩ := hip_vectors
  have hf : (fun ep => dir (palHfk5z rh dh ep).1.1 (palHfk5z rh dh ep).1.2 i) = fun ep => turnAxes k (-((ep - 2000) * len hipSpin)) (turnAxes l (-len hipOrientation) (dir rh dh)) i := by
    funext ep; rw [(C94_hfk5z rh dh ep hk hl hw hv).2.2]
  rw [hf]
  refine (turn_deriv k hk (len hipSpin) _ i epoch).congr_deriv ?_
  obtain ⟨P, hP, h1, hh⟩ := hfk5z_core rh dh epoch hk hl hw hv
  rw [← hP, ← hw]
  have hs := (pv2s_spec P (eraPxp hipSpin P) h1 (dot_cross_self _ _)).2.2.1
  rw [hh] at h ⊢
  dsimp only at h ⊢
  have he : eastAt (eraAnp (eraPv2s P (eraPxp hipSpin P)).1.1) = eastAt (eraPv2s P (eraPxp hipSpin P)).1.1 := by unfold eastAt; rw [sin_eraAnp, cos_eraAnp]
  have hn : northAt (eraAnp (eraPv2s P (eraPxp hipSpin P)).1.1) (eraPv2s P (eraPxp hipSpin P)).1.2 = northAt (eraPv2s P (eraPxp hipSpin P)).1.1 (eraPv2s P (eraPxp hipSpin P)).1.2 := by unfold northAt; rw [sin_eraAnp, cos_eraAnp]
  rw [he, hn]
  exact (hs h i).symm

/-- **C94** (pole) At a pole of FK5 the proper motion returned is zero, although the star moves there as elsewhere. -/
theorem C94_pole (rh dh epoch : ℝ) (h : cos (palHfk5z rh dh epoch).1.2 = 0) :
    (palHfk5z rh dh epoch).2 = (0, 0) ∧ (palHfk5z rh dh epoch).1.1 = 0 ∧
    HasDerivAt (fun ep => dir (palHfk5z rh dh ep).1.1 (palHfk5z rh dh ep).1.2 0) (0.60 * mas * sin (palHfk5z rh dh epoch).1.2) epoch := by
  obtain ⟨k, l, hk, hl, hw, hv⟩ := hip_vectors
  obtain ⟨P, hP, h1, hh⟩ := hfk5z_core rh dh epoch hk hl hw hv
  have hs := pv2s_spec P (eraPxp hipSpin P) h1 (dot_cross_self _ _)
  rw [hh] at h ⊢
  dsimp only at h ⊢
  obtain ⟨-, hd, -, h4⟩ := hs
  have hd0 := congrFun hd 0
  have hd1 := congrFun hd 1
  have hd2 := congrFun hd 2
  simp [dir, h] at hd0 hd1 hd2
  refine ⟨h4 h, ?_, ?_⟩
  · have : (eraPv2s P (eraPxp hipSpin P)).1.1 = 0 := by
      have hr : √(P 0 * P 0 + P 1 * P 1 + P 2 * P 2) = 1 := by rw [dot_eq] at h1; rw [h1, sqrt_one]
      unfold eraPv2s
      dsimp only
      rw [hr]
      simp [← hd0, ← hd1]
    rw [this]
    exact eraAnp_eq ⟨le_rfl, two_pi_pos⟩
  · have hf : (fun ep => dir (palHfk5z rh dh ep).1.1 (palHfk5z rh dh ep).1.2 0) = fun ep => turnAxes k (-((ep - 2000) * len hipSpin)) (turnAxes l (-len hipOrientation) (dir rh dh)) 0 := by
      funext ep; rw [(C94_hfk5z rh dh ep hk hl hw hv).2.2]
    rw [hf]
    refine (turn_deriv k hk (len hipSpin) _ 0 epoch).congr_deriv ?_
    rw [← hP, ← hw, hd2]
    simp [eraPxp, hipSpin, ← hd1]

/-- The rotations to first order. -/
theorem turn_first_order {k : Vec3} (hk : dot k k = 1) {phi : ℝ} (h : |phi| ≤ 1) (u : Vec3) :
    len (fun i => turnAxes k phi u i - (u i - crossProduct (fun i => phi * k i) u i)) ≤ phi ^ 2 * len u := by
  have hu := len_sq u
  refine len_le (mul_nonneg (sq_nonneg _) (len_nonneg _)) ?_
  have h1 : 0 ≤ 1 - cos phi ∧ 1 - cos phi ≤ phi ^ 2 / 2 := ⟨by linarith [cos_le_one phi], by linarith [one_sub_sq_div_two_le_cos (x := phi)]⟩
  have h2 : (phi - sin phi) ^ 2 ≤ (phi ^ 2 / 2) ^ 2 := by
    have : ∀ x : ℝ, 0 ≤ x → x ≤ 1 → (x - sin x) ^ 2 ≤ (x ^ 2 / 2) ^ 2 := by
      intro x h0 h1
      have a := sin_le h0
      have b : x - x ^ 3 / 4 ≤ sin x := by
        rcases h0.eq_or_lt with h | h
        · rw [← h]; simp
        · exact (by linarith [sin_gt_sub_cube h, pow_nonneg h0 3])
      have c : x ^ 3 ≤ x ^ 2 := pow_le_pow_of_le_one h0 h1 (by norm_num)
      refine pow_le_pow_left₀ (by linarith) ?_ 2
      nlinarith [sq_nonneg x]
    rcases le_total 0 phi with h0 | h0
    · exact this phi h0 (by rwa [abs_of_nonneg h0] at h)
    · have := this (-phi) (by linarith) (by rwa [abs_of_nonpos h0] at h)
      rw [sin_neg] at this
      nlinarith
  have h3 : (1 - cos phi) ^ 2 ≤ (phi ^ 2 / 2) ^ 2 := pow_le_pow_left₀ h1.1 h1.2 2
  have hS : ∀ a b : ℝ, (turnAxes k phi u 0 - (u 0 - crossProduct (fun i => phi * k i) u 0)) ^ 2 + (turnAxes k phi u 1 - (u 1 - crossProduct (fun i => phi * k i) u 1)) ^ 2 +
      (turnAxes k phi u 2 - (u 2 - crossProduct (fun i => phi * k i) u 2)) ^ 2 = ((1 - cos phi) ^ 2 + (phi - sin phi) ^ 2) * (dot u u - dot k u * dot k u) := by
    intro _ _
    rw [dot_eq] at hk
    unfold turnAxes
    simp only [dot_eq]
    simp [crossProduct]
    generalize cos phi = C
    generalize sin phi = S
    grind
  rw [hS 0 0]
  have h5 : 0 ≤ dot u u - dot k u * dot k u := by
    have := cross_sq k u
    rw [hk, one_mul] at this
    rw [← this]; exact dot_self_nonneg _
  have h6 : dot u u - dot k u * dot k u ≤ len u * len u := by rw [hu]; nlinarith [mul_self_nonneg (dot k u)]
  have h7 : (1 - cos phi) ^ 2 + (phi - sin phi) ^ 2 ≤ phi ^ 4 / 2 := by nlinarith
  calc _ ≤ phi ^ 4 / 2 * (len u * len u) := mul_le_mul h7 h6 h5 (div_nonneg (by positivity) (by norm_num))
    _ ≤ (phi ^ 2 * len u) ^ 2 := by nlinarith [mul_nonneg (show (0:ℝ) ≤ phi ^ 4 by positivity) (mul_self_nonneg (len u))]

theorem cross_len_le (a b : Vec3) : len (fun i => crossProduct a b i) ≤ len a * len b := by
  have e : (fun i => crossProduct a b i) = eraPxp a b := by funext i; fin_cases i <;> simp [crossProduct, eraPxp]
  rw [e]
  have h := cross_sq a b
  rw [← len_sq, ← len_sq, ← len_sq] at h
  nlinarith [mul_self_nonneg (dot a b), mul_nonneg (len_nonneg a) (len_nonneg b), len_nonneg (eraPxp a b)]

theorem mas_bounds : 0 < mas ∧ mas ≤ 1e-8 := by
  unfold mas arcsec
  constructor
  · positivity
  · have := pi_lt_four; norm_num; linarith

theorem len_orient : len hipOrientation ≤ 32 * mas := by
  refine len_le (by have := mas_bounds.1; positivity) ?_
  simp [hipOrientation]
  nlinarith [mul_pos mas_bounds.1 mas_bounds.1]

theorem len_spin : len hipSpin ≤ mas := by
  refine len_le mas_bounds.1.le ?_
  simp [hipSpin]
  nlinarith [mul_pos mas_bounds.1 mas_bounds.1]

/-- **C94** (published definition) For a million years either side of J2000 the Hipparcos direction is the FK5 direction plus its cross product with the three published angles at the epoch, to second
order in their size (32 milliarcseconds and 1 milliarcsecond a year). -/
theorem C94_published (r5 d5 epoch : ℝ) (he : |epoch - 2000| ≤ 1000000) :
    len (fun i => dir (palFk5hz r5 d5 epoch).1 (palFk5hz r5 d5 epoch).2 i - (dir r5 d5 i + crossProduct (dir r5 d5) (hipAngles epoch) i)) ≤ ((32 + |epoch - 2000|) * mas) ^ 2 := by
  obtain ⟨k, l, hk, hl, hw, hv⟩ := hip_vectors
  rw [(C94_fk5hz r5 d5 epoch hk hl hw hv).2.2]
  have hm := mas_bounds
  obtain ⟨u, hu⟩ : ∃ u, u = dir r5 d5 := ⟨_, rfl⟩
  have hu1 : len u = 1 := by rw [hu]; exact len_one (dot_dir _ _)
  rw [← hu]
  obtain ⟨a, ha⟩ : ∃ a, a = len hipOrientation := ⟨_, rfl⟩
  obtain ⟨b, hb⟩ : ∃ b, b = (epoch - 2000) * len hipSpin := ⟨_, rfl⟩
  have ha0 : 0 ≤ a := by rw [ha]; exact len_nonneg _
  have ha1 : a ≤ 32 * mas := by rw [ha]; exact len_orient
  have hb1 : |b| ≤ |epoch - 2000| * mas := by
    rw [hb, abs_mul, abs_of_nonneg (len_nonneg hipSpin)]
    exact mul_le_mul_of_nonneg_left len_spin (abs_nonneg _)
  have hT : |epoch - 2000| * mas ≤ 1000000 * mas := mul_le_mul_of_nonneg_right he hm.1.le
  rw [← hb, ← ha]
  obtain ⟨W, hW⟩ : ∃ W, W = turnAxes k b u := ⟨_, rfl⟩
  have hW1 : len W = 1 := by rw [hW]; refine len_one ?_; rw [dot_turn hk]; exact dot_of_len hu1
  have f1 := turn_first_order hk (phi := b) (by linarith) u
  have f2 := turn_first_order hl (phi := a) (by rw [abs_of_nonneg ha0]; linarith) W
  rw [hu1, mul_one, ← hW] at f1
  rw [hW1, mul_one] at f2
  rw [← hW]
  -- the cross product of the orientation with the accumulated change
  have c1 : len (fun i => W i - u i) ≤ |b| + b ^ 2 := by
    have e : (fun i => W i - u i) = fun i => (W i - (u i - crossProduct (fun i => b * k i) u i)) + (-1) * crossProduct (fun i => b * k i) u i := by funext i; ring
    rw [e]
    refine (len_add_le _ _).trans ?_
    have h1 : len (fun i => (-1 : ℝ) * crossProduct (fun i => b * k i) u i) ≤ |b| := by
      rw [len_smul]
      have := cross_len_le (fun i => b * k i) u
      rw [hu1, len_smul, len_one hk] at this
      simp; linarith
    linarith
  have c2 : len (fun i => crossProduct (fun i => a * l i) (fun i => W i - u i) i) ≤ a * (|b| + b ^ 2) := by
    refine (cross_len_le _ _).trans ?_
    rw [len_smul, len_one hl, mul_one, abs_of_nonneg ha0]
    exact mul_le_mul_of_nonneg_left c1 ha0
  have e : (fun i => turnAxes l a W i - (u i + crossProduct u (hipAngles epoch) i)) =
      fun i => (turnAxes l a W i - (W i - crossProduct (fun i => a * l i) W i)) + ((W i - (u i - crossProduct (fun i => b * k i) u i)) - crossProduct (fun i => a * l i) (fun i => W i - u i) i) := by
    have hh : hipAngles epoch = fun i => a * l i + b * k i := by
      funext i
      unfold hipAngles
      have x1 := congrFun hv i
      have x2 := congrFun hw i
      rw [x1, x2, ← ha, hb]; ring
    rw [hh]
    funext i
    fin_cases i <;> simp [crossProduct] <;> ring
  rw [e]
  refine (len_add_le _ _).trans ?_
  have f3 := len_sub_le (fun i => W i - (u i - crossProduct (fun i => b * k i) u i)) (fun i => crossProduct (fun i => a * l i) (fun i => W i - u i) i)
  have hb0 := abs_nonneg b
  have hbb : b ^ 2 = |b| ^ 2 := (sq_abs b).symm
  have hb3 : |b| ≤ 0.01 := by linarith
  have g : a ^ 2 + (b ^ 2 + a * (|b| + b ^ 2)) ≤ (a + |b|) ^ 2 := by
    rw [hbb]
    nlinarith [mul_nonneg ha0 hb0, mul_nonneg (mul_nonneg ha0 hb0) (sub_nonneg.2 hb3)]
  have g2 : (a + |b|) ^ 2 ≤ ((32 + |epoch - 2000|) * mas) ^ 2 := pow_le_pow_left₀ (by linarith) (by linarith) 2
  linarith

example : |(1991.25 : ℝ) - 2000| ≤ 1000000 := by rw [abs_le]; norm_num

end Pal.Props
