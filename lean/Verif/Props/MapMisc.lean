import Verif.Props.MapInv
import Mathlib.Analysis.SpecialFunctions.Trigonometric.Deriv

/-!
# Properties C47, C48, C77, C78: Earth ephemeris and observatory positions
-/

namespace Pal.Props
open Pal Pal.Spec Real Matrix

/-- **C47** palEvp: for deqx > 0 all four vectors are turned by the one matrix of the precession theory for that epoch, otherwise by none; velocities are per second instead of per day. -/
theorem C47_evp (T : Theory) (epv00 : ℝ → ℝ → Epv) (date deqx : ℝ) :
    ∃ R : Mat3, R = (if deqx > 0 then T.pmat06 2400000.5 (51544.5 + (deqx - 2000) * 365.25) else 1) ∧
      (palEvp T epv00 date deqx).ph = R.mulVec (epv00 2400000.5 date).ph ∧
      (palEvp T epv00 date deqx).pb = R.mulVec (epv00 2400000.5 date).pb ∧
      (fun i => 86400 * (palEvp T epv00 date deqx).vh i) = R.mulVec (epv00 2400000.5 date).vh ∧
      (fun i => 86400 * (palEvp T epv00 date deqx).vb i) = R.mulVec (epv00 2400000.5 date).vb := by
  refine ⟨_, rfl, ?_⟩
  by_cases h : deqx > 0
  · simp only [palEvp, if_pos h, epj2jdR, rMJD0, eraRxp_eq, spd]
    refine ⟨trivial, trivial, ?_, ?_⟩ <;> (funext i; ring)
  · simp only [palEvp, if_neg h, one_mulVec, spd]
    refine ⟨trivial, trivial, ?_, ?_⟩ <;> (funext i; ring)

/-- **C47** (geometry) If the precession theory gives rotations, palEvp preserves distances and the angles between the four vectors, for every deqx. -/
theorem C47_evp_lengths (T : Theory) (epv00 : ℝ → ℝ → Epv) (date deqx : ℝ) (hT : ∀ a b, IsRotation (T.pmat06 a b)) :
    let o := palEvp T epv00 date deqx
    let e := epv00 2400000.5 date
    len o.ph = len e.ph ∧ len o.pb = len e.pb ∧ 86400 * len o.vh = len e.vh ∧ 86400 * len o.vb = len e.vb ∧ dot o.ph o.pb = dot e.ph e.pb ∧
      86400 * dot o.pb o.vb = dot e.pb e.vb ∧ 86400 * dot o.ph o.vh = dot e.ph e.vh := by
  dsimp only
  obtain ⟨R, hR, h1, h2, h3, h4⟩ := C47_evp T epv00 date deqx
  have hrot : IsRotation R := by rw [hR]; split_ifs; exacts [hT _ _, rot_one]
  have e3 : 86400 * len (palEvp T epv00 date deqx).vh = len (epv00 2400000.5 date).vh := by
    rw [← rot_len hrot (epv00 2400000.5 date).vh, ← h3, len_smul]; norm_num
  have e4 : 86400 * len (palEvp T epv00 date deqx).vb = len (epv00 2400000.5 date).vb := by
    rw [← rot_len hrot (epv00 2400000.5 date).vb, ← h4, len_smul]; norm_num
  refine ⟨by rw [h1, rot_len hrot], by rw [h2, rot_len hrot], e3, e4, by rw [h1, h2, rot_dot hrot], ?_, ?_⟩
  · rw [← dot_smul_right, h2, h4, rot_dot hrot]
  · rw [← dot_smul_right, h1, h3, rot_dot hrot]

/-- **C77** (negation) The documented "If deqx <= 0.0, all vectors are referred to the mean equator and equinox of epoch date" is not what palEvp does: the heliocentric position for deqx = 0 is
not always the one for the mean equator and equinox of date, although the documented behaviour is available by passing the date's own Julian epoch. -/
theorem C77_evp_of_date_refuted :
    ¬ (∀ (T : Theory) (epv00 : ℝ → ℝ → Epv) (date deqx : ℝ), (∀ a b, IsRotation (T.pmat06 a b)) → deqx ≤ 0 → 0 < palEpjR date →
      palEvp T epv00 date deqx = palEvp T epv00 date (palEpjR date)) := by
  intro h
  let T : Theory := { pmat06 := fun _ _ => axisZ (π / 2), obl06 := fun _ _ => 0, nut06a := fun _ _ => (0, 0), p06e := turnTheory.p06e, pnm06a := fun _ _ => 1 }
  let E : ℝ → ℝ → Epv := fun _ _ => { ph := ![1, 0, 0], vh := ![0, 0, 0], pb := ![0, 0, 0], vb := ![0, 0, 0] }
  have hpos : 0 < palEpjR 51544.5 := by unfold palEpjR rMJD0; norm_num
  have h0 := h T E 51544.5 0 (fun _ _ => rot_axisZ _) le_rfl hpos
  have h1 := congrArg (fun e => e.ph 0) h0
  simp only [palEvp, if_pos (show palEpjR 51544.5 > 0 from hpos), if_neg (lt_irrefl (0 : ℝ)), eraRxp_eq] at h1
  simp [E, T, axisZ, Matrix.mulVec, dotProduct, Fin.sum_univ_three] at h1

/-- **C77** (what holds) For deqx ≤ 0 the vectors are those of the ephemeris itself, in its own (J2000-aligned) axes: the result does not depend on which deqx ≤ 0 is given nor on the precession theory. -/
theorem C77_evp_unrotated_partial (T T' : Theory) (epv00 : ℝ → ℝ → Epv) (date deqx deqx' : ℝ) (h : deqx ≤ 0) (h' : deqx' ≤ 0) :
    palEvp T epv00 date deqx = palEvp T' epv00 date deqx' ∧ (palEvp T epv00 date deqx).ph = (epv00 2400000.5 date).ph ∧ (palEvp T epv00 date deqx).pb = (epv00 2400000.5 date).pb := by
  simp only [palEvp, if_neg (not_lt.2 h), if_neg (not_lt.2 h'), and_self]

/-- **C46** (the parameters) The parameters prepared by palMappa meet the hypotheses of `C46_amp_inverts_map`: unit heliocentric direction, the square root of 1 - v², positive deflection constant
and, if the theory gives rotations, a rotation matrix. -/
theorem C46_mappa (T : Theory) (epv00 : ℝ → ℝ → Epv) (eq date : ℝ) (hT : ∀ a b, IsRotation (T.pmat06 a b)) (hph : len (epv00 2400000.5 date).ph ≠ 0) :
    let am := palMappa T epv00 eq date
    len am.ehn = 1 ∧ am.ab1 = √(1 - len am.abv * len am.abv) ∧ 0 < am.gr2e ∧ am.gr2e * len (epv00 2400000.5 date).ph = 2 * 9.87063e-9 ∧
      len am.abv = 499.004782 / 86400 * len (epv00 2400000.5 date).vb := by
  dsimp only
  obtain ⟨l1, -, -, l4, -⟩ := C47_evp_lengths T epv00 date eq hT
  have hne : len (palEvp T epv00 date eq).ph ≠ 0 := by rw [l1]; exact hph
  have hpos : 0 < len (epv00 2400000.5 date).ph := lt_of_le_of_ne (len_nonneg _) (Ne.symm hph)
  refine ⟨?_, ?_, ?_, ?_, ?_⟩
  · show len (eraPn (palEvp T epv00 date eq).ph).2 = 1
    rw [pn_val hne, len_smul, abs_of_nonneg (inv_nonneg.2 (len_nonneg _)), inv_mul_cancel₀ hne]
  · show √(1 - (eraPn _).1 * (eraPn _).1) = _
    rw [pn_eq]; rfl
  · show 0 < 2 * 9.87063e-9 / (eraPn (palEvp T epv00 date eq).ph).1
    rw [pn_eq, l1]; positivity
  · show 2 * 9.87063e-9 / (eraPn (palEvp T epv00 date eq).ph).1 * _ = _
    rw [pn_eq, l1]; field_simp
  · show len (fun i => (palEvp T epv00 date eq).vb i * palCR) = _
    have : (fun i => (palEvp T epv00 date eq).vb i * palCR) = fun i => palCR * (palEvp T epv00 date eq).vb i := by funext i; ring
    rw [this, len_smul, abs_of_pos (by unfold palCR; norm_num)]
    unfold palCR
    linarith

/-- **C48** palPvobs: the observer moves on a circle about the pole at the sidereal rate: the position at sidereal time st is the position at 0 turned by st, the velocity is its
derivative, perpendicular to the position, and the speed is the rate times the distance from the axis. -/
theorem C48_pvobs (p h st : ℝ) :
    (palPvobs p h st).1 = (axisZ (-st)).mulVec (palPvobs p h 0).1 ∧
    (∀ i, HasDerivAt (fun t => (palPvobs p h (st + 7.2921150e-5 * t)).1 i) ((palPvobs p h st).2 i) 0) ∧
    dot (palPvobs p h st).1 (palPvobs p h st).2 = 0 ∧
    len (palPvobs p h st).2 = 7.2921150e-5 * √((palPvobs p h st).1 0 ^ 2 + (palPvobs p h st).1 1 ^ 2) := by
  unfold palPvobs
  dsimp only
  generalize gd2gcWGS84 0 p h 0 / erfaDAU = r
  generalize gd2gcWGS84 0 p h 2 / erfaDAU = z
  have hs := sin_sq_add_cos_sq st
  refine ⟨?_, ?_, ?_, ?_⟩
  · funext i; fin_cases i <;> simp [axisZ, Matrix.mulVec, dotProduct, Fin.sum_univ_three] <;> ring
  · have hd : HasDerivAt (fun t : ℝ => st + 7.2921150e-5 * t) (7.2921150e-5) 0 := by
      simpa using ((hasDerivAt_id (0 : ℝ)).const_mul (7.2921150e-5)).const_add st
    intro i
    fin_cases i
    · show HasDerivAt (fun t => r * cos (st + 7.2921150e-5 * t)) (-(palSR * r) * sin st) 0
      have := (hd.cos).const_mul r
      rw [mul_zero, add_zero] at this
      refine this.congr_deriv ?_
      rw [palSR]; ring
    · show HasDerivAt (fun t => r * sin (st + 7.2921150e-5 * t)) (palSR * r * cos st) 0
      have := (hd.sin).const_mul r
      rw [mul_zero, add_zero] at this
      refine this.congr_deriv ?_
      rw [palSR]; ring
    · simpa using hasDerivAt_const (0 : ℝ) z
  · rw [dot_eq]; simp; ring
  · have h1 : len ![-(palSR * r) * sin st, palSR * r * cos st, 0] = √((palSR * r) ^ 2) := by
      unfold len; congr 1; simp [Fin.sum_univ_three]; linear_combination (palSR * r) ^ 2 * hs
    have h2 : (![r * cos st, r * sin st, z] : Vec3) 0 ^ 2 + (![r * cos st, r * sin st, z] : Vec3) 1 ^ 2 = r ^ 2 := by
      simp; linear_combination r ^ 2 * hs
    rw [h1, h2, Real.sqrt_sq_eq_abs, Real.sqrt_sq_eq_abs, abs_mul, abs_of_pos (by unfold palSR; norm_num)]
    rfl

/-- The observer really moves: at the equator the speed is positive. -/
example : 0 < (palPvobs 0 0 0).1 0 := by
  simp [palPvobs, gd2gcWGS84, erfaDAU]; norm_num

/-- WGS84 equatorial radius in metres and flattening. -/
noncomputable def wgsA : ℝ := 6378137
noncomputable def wgsF : ℝ := 1 / 298.257223563

/-- **C78** palGeoc with height 0 gives a point of the WGS84 ellipsoid (axes a and a(1-f)), at which (cos p, sin p) is the normal: the geodetic latitude of the point is p; and
height moves the point along that normal.  (Distances in the astronomical unit of palGeoc, 1.49597870e11 m.) -/
theorem C78_geoc (p h : ℝ) :
    let AU := (1.49597870e11 : ℝ)
    let R := AU * (palGeoc p 0).1
    let Z := AU * (palGeoc p 0).2
    (R / wgsA) ^ 2 + (Z / (wgsA * (1 - wgsF))) ^ 2 = 1 ∧
      (∃ k, 0 < k ∧ R / wgsA ^ 2 = k * cos p ∧ Z / (wgsA * (1 - wgsF)) ^ 2 = k * sin p) ∧
      AU * (palGeoc p h).1 = R + h * cos p ∧ AU * (palGeoc p h).2 = Z + h * sin p := by
  dsimp only
  have hs := sin_sq_add_cos_sq p
  unfold palGeoc gd2gcWGS84
  simp only [cos_zero, sin_zero, Matrix.cons_val_zero, Matrix.cons_val_two, Matrix.tail_cons, Matrix.head_cons, mul_one, add_zero]
  have hf : (1 / 298.257223563 : ℝ) = wgsF := rfl
  have ha : (6378137 : ℝ) = wgsA := rfl
  rw [hf, ha]
  have hF : 0 < 1 - wgsF := by unfold wgsF; norm_num
  have hA : 0 < wgsA := by unfold wgsA; norm_num
  generalize wgsA = a at *
  generalize 1 - wgsF = q at *
  have hw : 0 < cos p * cos p + q * q * sin p * sin p := by
    by_cases hc : cos p = 0
    · have : sin p ^ 2 = 1 := by rw [hc] at hs; linarith
      rw [hc]
      nlinarith [mul_pos hF hF]
    · have := mul_self_pos.2 hc
      nlinarith [mul_self_nonneg (q * sin p)]
  have hd := Real.sqrt_pos.2 hw
  have hdd := Real.mul_self_sqrt hw.le
  generalize √(cos p * cos p + q * q * sin p * sin p) = d at *
  have hAU : (1.49597870e11 : ℝ) ≠ 0 := by norm_num
  generalize (1.49597870e11 : ℝ) = AU at *
  generalize sin p = s at *
  generalize cos p = c at *
  have hdne : d ≠ 0 := hd.ne'
  have hqne : q ≠ 0 := hF.ne'
  have hane : a ≠ 0 := hA.ne'
  refine ⟨?_, ⟨1 / (a * d), by positivity, ?_, ?_⟩, ?_, ?_⟩
  · field_simp
    linear_combination -hdd
  · field_simp
  · field_simp
  · field_simp
  · field_simp

/-- **C78** (units) palPvobs and palGeoc agree on the position up to their different astronomical units: relative difference between 4e-9 and 5e-9, never zero off the axis. -/
theorem C78_units (p h : ℝ) :
    (palPvobs p h 0).1 0 * 149597870.7e3 = (palGeoc p h).1 * 1.49597870e11 ∧ (palPvobs p h 0).1 2 * 149597870.7e3 = (palGeoc p h).2 * 1.49597870e11 ∧
    ((palGeoc p h).1 ≠ 0 → (palPvobs p h 0).1 0 ≠ (palGeoc p h).1) ∧ |(palPvobs p h 0).1 0 - (palGeoc p h).1| ≤ 5e-9 * |(palGeoc p h).1| := by
  unfold palPvobs palGeoc erfaDAU
  simp only [cos_zero, sin_zero, Matrix.cons_val_zero, Matrix.cons_val_two, Matrix.tail_cons, Matrix.head_cons, mul_one]
  generalize gd2gcWGS84 0 p h 0 = x
  generalize gd2gcWGS84 0 p h 2 = z
  have e : x / 149597870.7e3 - x / 1.49597870e11 = (x / 1.49597870e11) * (1.49597870e11 / 149597870.7e3 - 1) := by ring
  refine ⟨by ring, by ring, ?_, ?_⟩
  · intro h0 heq
    have : (x / 1.49597870e11) * (1.49597870e11 / 149597870.7e3 - 1) = 0 := by rw [← e, heq, sub_self]
    rcases mul_eq_zero.1 this with h | h
    · exact h0 h
    · norm_num at h
  · rw [e, abs_mul, mul_comm]
    refine mul_le_mul_of_nonneg_right ?_ (abs_nonneg _)
    rw [abs_le]; constructor <;> norm_num

/-- The rate of change of a moving direction with distance factor 1 + w t. -/
theorem motion_deriv (rm dm pr pd w : ℝ) (i : Fin 3) :
    HasDerivAt (fun t => (1 + w * t) * dir (rm + pr * t) (dm + pd * t) i)
      ((![-pr * dir rm dm 1 - pd * cos rm * sin dm + w * dir rm dm 0, pr * dir rm dm 0 - pd * sin rm * sin dm + w * dir rm dm 1, pd * cos dm + w * dir rm dm 2] : Vec3) i) 0 := by
  have l : ∀ a b : ℝ, HasDerivAt (fun t : ℝ => a + b * t) b 0 := fun a b => by
    simpa using ((hasDerivAt_id (0 : ℝ)).const_mul b).const_add a
  have h0 : ∀ a b : ℝ, a + b * 0 = a := fun a b => by ring
  have hw := l 1 w
  have hr := l rm pr
  have hd := l dm pd
  fin_cases i
  · show HasDerivAt (fun t => (1 + w * t) * (cos (dm + pd * t) * cos (rm + pr * t))) (-pr * (cos dm * sin rm) - pd * cos rm * sin dm + w * (cos dm * cos rm)) 0
    refine (hw.mul (hd.cos.mul hr.cos)).congr_deriv ?_
    simp only [Pi.mul_apply, h0]; ring
  · show HasDerivAt (fun t => (1 + w * t) * (cos (dm + pd * t) * sin (rm + pr * t))) (pr * (cos dm * cos rm) - pd * sin rm * sin dm + w * (cos dm * sin rm)) 0
    refine (hw.mul (hd.cos.mul hr.sin)).congr_deriv ?_
    simp only [Pi.mul_apply, h0]; ring
  · show HasDerivAt (fun t => (1 + w * t) * sin (dm + pd * t)) (pd * cos dm + w * sin dm) 0
    refine (hw.mul hd.sin).congr_deriv ?_
    simp only [h0]; ring

/-- **C79** Proper motion, radial velocity and parallax in palMapqk (light deflection and aberration switched off): the apparent direction is that of the turned vector
"direction + interval × space velocity − parallax × Earth position", where the space velocity is the rate of change of (1 + 0.210945028 rv px t) × the direction moving at rates pr, pd (px in radians). -/
theorem C79_mapqk_motion (rm dm pr pd px rv : ℝ) (am : Amprms) (hg : am.gr2e = 0) (hv : am.abv = fun _ => 0) (ha : am.ab1 = 1) :
    ∃ em : Vec3, (∀ i, HasDerivAt (fun t => (1 + 0.210945028 * rv * (px * das2r) * t) * dir (rm + pr * t) (dm + pd * t) i) (em i) 0) ∧
      ∃ k, 0 ≤ k ∧ (fun i => k * dir (palMapqk rm dm pr pd px rv am).1 (palMapqk rm dm pr pd px rv am).2 i)
        = am.mat.mulVec (fun i => dir rm dm i + am.pmt * em i - px * das2r * am.eb i) := by
  refine ⟨_, motion_deriv rm dm pr pd _, ?_⟩
  unfold palMapqk
  dsimp only
  rw [eraS2c_eq, hg, hv, ha]
  generalize (fun i => dir rm dm i + am.pmt * (![-pr * dir rm dm 1 - pd * cos rm * sin dm + 0.210945028 * rv * (px * das2r) * dir rm dm 0,
    pr * dir rm dm 0 - pd * sin rm * sin dm + 0.210945028 * rv * (px * das2r) * dir rm dm 1, pd * cos dm + 0.210945028 * rv * (px * das2r) * dir rm dm 2] : Vec3) i - px * das2r * am.eb i) = p
  have e : (fun i => 1 * ((eraPn p).2 i + 0 / (if eraPdp (eraPn p).2 am.ehn + 1 > 1 / 10 ^ 5 then eraPdp (eraPn p).2 am.ehn + 1 else 1 / 10 ^ 5) *
      (am.ehn i - eraPdp (eraPn p).2 am.ehn * (eraPn p).2 i)) + (1 + eraPdp p (fun _ => 0) / (1 + 1)) * (0 : ℝ)) = (eraPn p).2 := by
    funext i; simp
  rw [e]
  by_cases hp : len p = 0
  · refine ⟨0, le_rfl, ?_⟩
    have hz : p = 0 := by
      have h := len_sq p
      rw [hp, dot_eq] at h
      have a0 := mul_self_nonneg (p 0)
      have a1 := mul_self_nonneg (p 1)
      have a2 := mul_self_nonneg (p 2)
      funext i
      have : p i * p i = 0 := by fin_cases i <;> simp <;> nlinarith
      simpa using this
    rw [hz, mulVec_zero]; funext i; simp
  · refine ⟨len p * len (am.mat.mulVec (eraPn p).2), mul_nonneg (len_nonneg _) (len_nonneg _), ?_⟩
    have f := finish_dir am.mat (eraPn p).2
    have hpn : (fun i => len p * (eraPn p).2 i) = p := by rw [pn_val hp]; funext i; exact mul_inv_cancel_left₀ hp _
    conv_rhs => rw [← hpn]
    refine Eq.trans ?_ (Matrix.mulVec_smul am.mat (len p) (eraPn p).2).symm
    conv_rhs => rw [← f]
    funext i
    simp only [Pi.smul_apply, smul_eq_mul]
    ring

end Pal.Props
