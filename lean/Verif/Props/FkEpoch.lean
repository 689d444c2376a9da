import Verif.Props.Fk

/-!
# Property C49: FK5 to FK4, the space motion and other epochs
-/

namespace Pal.Props
open Pal Pal.Spec Real Matrix

/-- Space motion of a star in arcseconds per century: proper motion along east and north, radial velocity (km/s) times parallax (arcsec) along the line of sight. -/
noncomputable def centuryMotion (s : Star) : Vec3 :=
  fun i => 100 * (648000 / π) * (s.dr * cos s.d * eastAt s.r i + s.dd * northAt s.r s.d i) + 21.095 * s.rv * s.px * dir s.r s.d i

/-- E-terms `a` added to a vector `p` of about unit length (`k`: the length used). -/
noncomputable def withEterms (p a : Vec3) (k : ℝ) : Vec3 := fun i => p i + k * a i - dot p a * p i

theorem pmf_eq : palPMF = 100 * (648000 / π) := by unfold palPMF; field_simp; norm_num

theorem fk524Vec_eq (s : Star) {p2 v2 : Vec3} {k : ℝ} (hp2 : p2 = emiPP.mulVec (dir s.r s.d) + emiPV.mulVec (centuryMotion s)) (hv2 : v2 = emiVP.mulVec (dir s.r s.d) + emiVV.mulVec (centuryMotion s))
    (hk : k = len (withEterms p2 fkA (len p2))) :
    fk524Vec s = (withEterms p2 fkA k, fun i => v2 i + k * fkAd i - dot p2 fkAd * withEterms p2 fkA k i, k) := by
  have e1 : (![cos s.r * cos s.d, sin s.r * cos s.d, sin s.d] : Vec3) = dir s.r s.d := by
    funext i; fin_cases i <;> simp [dir] <;> ring
  have e2 : (![-(s.dr * palPMF) * (sin s.r * cos s.d) - cos s.r * sin s.d * (s.dd * palPMF) + palVF * s.rv * s.px * (cos s.r * cos s.d),
      s.dr * palPMF * (cos s.r * cos s.d) - sin s.r * sin s.d * (s.dd * palPMF) + palVF * s.rv * s.px * (sin s.r * cos s.d),
      cos s.d * (s.dd * palPMF) + palVF * s.rv * s.px * sin s.d] : Vec3) = centuryMotion s := by
    unfold centuryMotion
    rw [← pmf_eq, show (21.095 : ℝ) = palVF from rfl]
    funext i; fin_cases i <;> simp [dir, eastAt, northAt] <;> ring
  have f1 : (fun i => eraRxp emiPP (dir s.r s.d) i + eraRxp emiPV (centuryMotion s) i) = p2 := by rw [hp2, eraRxp_eq, eraRxp_eq]; rfl
  have f2 : (fun i => eraRxp emiVP (dir s.r s.d) i + eraRxp emiVV (centuryMotion s) i) = v2 := by rw [hv2, eraRxp_eq, eraRxp_eq]; rfl
  have f1' := fun i => congrFun f1 i
  have f2' := fun i => congrFun f2 i
  have g : ∀ k : ℝ, (fun i => p2 i + (fkA i * k - dot p2 fkA * p2 i)) = withEterms p2 fkA k := by intro k; unfold withEterms; funext i; ring
  have g' := fun k i => congrFun (g k) i
  unfold fk524Vec
  dsimp only
  rw [e1, e2]
  simp only [f1', f2']
  simp only [← dot_eq, ← len_eq, g']
  have hk' : len (fun i => withEterms p2 fkA (len p2) i) = k := hk.symm
  rw [hk']
  refine Prod.ext rfl (Prod.ext ?_ rfl)
  funext i
  dsimp only
  ring

/-- **C49** (procedure) palFk524 is the published procedure: position and space motion are turned together by the 6x6 matrix; the E-terms A are added to the position with the length recomputed once, and their rate of change to the
velocity; position, proper motions, parallax and radial velocity are those of the resulting position p and velocity v (the proper motions off the pole). With parallax zero or negligible, parallax and radial velocity are returned unchanged. -/
theorem C49_fk524_procedure (s : Star) (p2 v2 p v : Vec3) (k : ℝ) (hp2 : p2 = emiPP.mulVec (dir s.r s.d) + emiPV.mulVec (centuryMotion s)) (hv2 : v2 = emiVP.mulVec (dir s.r s.d) + emiVV.mulVec (centuryMotion s))
    (hk : k = len (withEterms p2 fkA (len p2))) (hp : p = withEterms p2 fkA k) (hv : v = fun i => v2 i + k * fkAd i - dot p2 fkAd * p i) :
    (∀ i, len p * dir (palFk524 s).r (palFk524 s).d i = p i) ∧
    (1 / 10 ^ 30 < √(p 0 * p 0 + p 1 * p 1) → ∀ i, HasDerivAt (fun t => (len p + dot p v / len p * t) * dir ((palFk524 s).r + (palFk524 s).dr * (100 * (648000 / π)) * t) ((palFk524 s).d + (palFk524 s).dd * (100 * (648000 / π)) * t) i) (v i) 0) ∧
    (1 / 10 ^ 30 < s.px → (palFk524 s).px = s.px / k ∧ (palFk524 s).rv = dot p v / (21.095 * s.px * k)) ∧
    (s.px ≤ 1 / 10 ^ 30 → (palFk524 s).px = s.px ∧ (palFk524 s).rv = s.rv) := by
  have h := fk524Vec_eq s hp2 hv2 hk
  rw [← hp, ← hv] at h
  have h1 : (fk524Vec s).1 = p := by rw [h]
  have h2 : (fk524Vec s).2.1 = v := by rw [h]
  have h3 : (fk524Vec s).2.2 = k := by rw [h]
  refine ⟨?_, ?_, ?_, ?_⟩
  · have := fk524_dir s
    rw [h1] at this
    exact fun i => congrFun this i
  · intro hpole
    obtain ⟨⟨rho, hr⟩, -⟩ := C49_fk524_rates s (by rw [h1]; exact hpole)
    rw [h1, h2] at hr
    rw [← pmf_eq]
    have hd := fk524_dir s
    rw [h1] at hd
    have hlp : 0 < len p := by
      refine lt_of_le_of_ne (len_nonneg p) fun h0 => ?_
      have := len_sq p
      rw [← h0, zero_mul] at this
      have hz := dot_self_eq_zero.1 this.symm
      rw [hz] at hpole
      simp at hpole
      norm_num at hpole
    have hrho : rho = dot p v / len p := by
      -- the squared length of the moving vector
      have hu : ∀ t, dot (fun i => (len p + rho * t) * dir ((palFk524 s).r + (palFk524 s).dr * palPMF * t) ((palFk524 s).d + (palFk524 s).dd * palPMF * t) i)
          (fun i => (len p + rho * t) * dir ((palFk524 s).r + (palFk524 s).dr * palPMF * t) ((palFk524 s).d + (palFk524 s).dd * palPMF * t) i) = (len p + rho * t) * (len p + rho * t) := by
        intro t
        rw [dot_smul_left, dot_smul_right, dot_dir]; ring
      have d1 : HasDerivAt (fun t => (len p + rho * t) * (len p + rho * t)) (2 * len p * rho) 0 := by
        have l : HasDerivAt (fun t : ℝ => len p + rho * t) rho 0 := by simpa using ((hasDerivAt_id (0 : ℝ)).const_mul rho).const_add (len p)
        exact (l.mul l).congr_deriv (by ring)
      have d2 : HasDerivAt (fun t => (len p + rho * t) * (len p + rho * t)) (2 * dot p v) 0 := by
        simp only [← hu, dot_eq]
        have q := fun i => (hr i).mul (hr i)
        refine (((q 0).add (q 1)).add (q 2)).congr_deriv ?_
        have hd' := fun i => congrFun hd i
        simp only [mul_zero, add_zero, hd']
        ring
      have := d1.unique d2
      field_simp
      linarith
    rw [← hrho]
    exact hr
  · intro hpx
    unfold palFk524
    dsimp only
    rw [if_pos hpx, h1, h2, h3]
    dsimp only
    rw [← dot_eq, show (21.095 : ℝ) = palVF from rfl]
    exact ⟨rfl, by rw [mul_comm s.px palVF]⟩
  · intro hpx
    unfold palFk524
    dsimp only
    rw [if_neg (not_lt.2 hpx)]
    exact ⟨rfl, rfl⟩

theorem fkAd_len : len fkAd ≤ 2.2 / 10 ^ 3 := by
  rw [len_eq, dot_eq]
  refine Real.sqrt_le_iff.2 ⟨by norm_num, ?_⟩
  simp [fkAd]; norm_num

/-- **C49** (E-terms are sideways) Adding the rate of the E-terms hardly changes the radial velocity: for a vector of about unit length the part of it along the line of sight is below 0.003 (|length - 1| + 2e-5) arcseconds per century. -/
theorem C49_eterms_sideways (p2 v2 p v : Vec3) (k : ℝ) (h1 : |len p2 - 1| ≤ 0.01) (hk : k = len (withEterms p2 fkA (len p2))) (hp : p = withEterms p2 fkA k) (hv : v = fun i => v2 i + k * fkAd i - dot p2 fkAd * p i) :
    |dot p v - dot p v2| ≤ 0.003 * (|len p2 - 1| + 2e-5) := by
  have hA := fkA_len
  have hAd := fkAd_len
  have hA0 := len_nonneg fkA
  have hAd0 := len_nonneg fkAd
  have hL0 := len_nonneg p2
  obtain ⟨u1, u2⟩ := abs_le.1 h1
  have hs := dot_le_len p2 fkA
  have hsA : |dot p2 fkA| ≤ 1.72 / 10 ^ 6 := hs.trans ((mul_le_mul (by linarith : len p2 ≤ 1.01) hA hA0 (by norm_num)).trans (by norm_num))
  have hdev : ∀ K : ℝ, 0 ≤ K → K ≤ 1.1 → len (fun i => withEterms p2 fkA K i - p2 i) ≤ 3.7 / 10 ^ 6 := by
    intro K hK0 hK
    have e : (fun i => withEterms p2 fkA K i - p2 i) = fun i => K * fkA i - dot p2 fkA * p2 i := by unfold withEterms; funext i; ring
    rw [e]
    refine (len_sub_le (fun i => K * fkA i) (fun i => dot p2 fkA * p2 i)).trans ?_
    rw [len_smul, len_smul, abs_of_nonneg hK0]
    have q1 := mul_le_mul hK hA hA0 (by norm_num)
    have q2 := mul_le_mul hsA (by linarith : len p2 ≤ 1.01) hL0 (by norm_num)
    norm_num at q1 q2 ⊢
    linarith
  have hkd := hdev (len p2) hL0 (by linarith)
  have hk1 := (len_rev_tri (withEterms p2 fkA (len p2)) p2).trans hkd
  rw [← hk] at hk1
  obtain ⟨k1, k2⟩ := abs_le.1 hk1
  have hpd := hdev k (by linarith) (by linarith)
  rw [← hp] at hpd
  have hp1 := (len_rev_tri p p2).trans hpd
  obtain ⟨p3, p4⟩ := abs_le.1 hp1
  have e : dot p v - dot p v2 = k * dot (fun i => p i - p2 i) fkAd + dot p2 fkAd * (k - len p * len p) := by
    rw [hv]
    have : (fun i => v2 i + k * fkAd i - dot p2 fkAd * p i) = fun i => v2 i + (k * fkAd i - dot p2 fkAd * p i) := by funext i; ring
    rw [this, dot_add_right, dot_sub_right (fun i => k * fkAd i) (fun i => dot p2 fkAd * p i), dot_smul_right, dot_smul_right, dot_sub_left, len_sq]
    ring
  rw [e]
  have a1 := dot_le_len (fun i => p i - p2 i) fkAd
  have a2 := dot_le_len p2 fkAd
  have b1 : |dot (fun i => p i - p2 i) fkAd| ≤ 3.7 / 10 ^ 6 * (2.2 / 10 ^ 3) := a1.trans (mul_le_mul hpd hAd hAd0 (by norm_num))
  have b2 : |dot p2 fkAd| ≤ 1.01 * (2.2 / 10 ^ 3) := a2.trans (mul_le_mul (by linarith) hAd hAd0 (by norm_num))
  have b3 : |k - len p * len p| ≤ 1.1 * |len p2 - 1| + 1.5e-5 := by
    obtain ⟨x, hx⟩ : ∃ x, x = len p2 - 1 := ⟨_, rfl⟩
    obtain ⟨y, hy⟩ : ∃ y, y = k - len p2 := ⟨_, rfl⟩
    obtain ⟨z, hz⟩ : ∃ z, z = len p - len p2 := ⟨_, rfl⟩
    rw [← hx] at h1 ⊢
    have ee : k - len p * len p = y - x * (1 + x) - z * (2 * (1 + x) + z) := by rw [hx, hy, hz]; ring
    have c1 : |x * (1 + x)| ≤ 1.01 * |x| := by
      rw [abs_mul, mul_comm]
      refine mul_le_mul_of_nonneg_right ?_ (abs_nonneg _)
      rw [abs_le]; constructor <;> linarith
    have c2 : |z * (2 * (1 + x) + z)| ≤ 3.7 / 10 ^ 6 * 2.1 := by
      rw [abs_mul]
      refine mul_le_mul (by rw [hz]; exact hp1) ?_ (abs_nonneg _) (by norm_num)
      rw [abs_le]; constructor <;> linarith
    have c3 : |y| ≤ 3.7 / 10 ^ 6 := by rw [hy]; exact hk1
    rw [ee, abs_le]
    obtain ⟨c11, c12⟩ := abs_le.1 c1
    obtain ⟨c21, c22⟩ := abs_le.1 c2
    obtain ⟨c31, c32⟩ := abs_le.1 c3
    have := abs_nonneg x
    constructor <;> norm_num at * <;> linarith
  have t := abs_add_le (k * dot (fun i => p i - p2 i) fkAd) (dot p2 fkAd * (k - len p * len p))
  rw [abs_mul, abs_mul, abs_of_nonneg (by linarith : 0 ≤ k)] at t
  have t1 : k * |dot (fun i => p i - p2 i) fkAd| ≤ 1.1 * (3.7 / 10 ^ 6 * (2.2 / 10 ^ 3)) := mul_le_mul (by linarith) b1 (abs_nonneg _) (by norm_num)
  have t2 : |dot p2 fkAd| * |k - len p * len p| ≤ 1.01 * (2.2 / 10 ^ 3) * (1.1 * |len p2 - 1| + 1.5e-5) := mul_le_mul b2 b3 (abs_nonneg _) (by norm_num)
  norm_num at t1 t2 ⊢
  linarith [abs_nonneg (len p2 - 1)]

/-- Second-order remainder of a turn. -/
theorem turn_rem {h : ℝ} (hh : |h| ≤ 1) : (cos h - 1) ^ 2 + (sin h - h) ^ 2 ≤ (h ^ 2) ^ 2 := by
  have h1 := Real.one_sub_sq_div_two_le_cos (x := h)
  have h2 := Real.cos_le_one h
  have h3 : |sin h - h| ≤ h ^ 2 / 2 := by
    rcases lt_trichotomy h 0 with hn | h0 | hp
    · have q1 := Real.sin_gt_sub_cube (x := -h) (by linarith)
      have q2 := Real.sin_lt (x := -h) (by linarith)
      rw [sin_neg] at q1 q2
      rw [abs_of_neg hn] at hh
      rw [abs_le]; constructor <;> nlinarith [sq_nonneg h, mul_nonneg (sq_nonneg h) (by linarith : 0 ≤ 1 + h)]
    · rw [h0]; simp
    · have q1 := Real.sin_gt_sub_cube (x := h) hp
      have q2 := Real.sin_lt (x := h) hp
      rw [abs_of_pos hp] at hh
      rw [abs_le]; constructor <;> nlinarith [sq_nonneg h, mul_nonneg (sq_nonneg h) (by linarith : 0 ≤ 1 - h)]
  have h4 : |cos h - 1| ≤ h ^ 2 / 2 := by rw [abs_le]; constructor <;> nlinarith [sq_nonneg h]
  have h5 := pow_le_pow_left₀ (abs_nonneg _) h3 2
  have h6 := pow_le_pow_left₀ (abs_nonneg _) h4 2
  rw [sq_abs] at h5 h6
  nlinarith [sq_nonneg (h ^ 2)]

/-- A short move in right ascension and declination. -/
theorem dir_move (r d a b : ℝ) (ha : |a| ≤ 1) (hb : |b| ≤ 1) (hd : 0 ≤ cos d) :
    len (fun i => dir (r + a) (d + b) i - dir r d i - (a * cos d * eastAt r i + b * northAt r d i)) ≤ cos d * a ^ 2 + |a| * |b| + b ^ 2 := by
  have n1 : len (fun i => dir (r + a) (d + b) i - dir (r + a) d i - b * northAt (r + a) d i) ≤ b ^ 2 := by
    rw [len_eq]
    refine Real.sqrt_le_iff.2 ⟨sq_nonneg _, ?_⟩
    refine le_trans (le_of_eq ?_) (turn_rem hb)
    rw [dot_eq]
    simp [dir, northAt]
    rw [cos_add d b, sin_add d b]
    have k1 := sin_sq_add_cos_sq (r + a)
    have k2 := sin_sq_add_cos_sq d
    have k3 := sin_sq_add_cos_sq b
    generalize sin (r + a) = s1 at *
    generalize cos (r + a) = c1 at *
    generalize sin d = s2 at *
    generalize cos d = c2 at *
    generalize sin b = s3 at *
    generalize cos b = c3 at *
    have : c1 ^ 2 = 1 - s1 ^ 2 := by linarith
    have : c2 ^ 2 = 1 - s2 ^ 2 := by linarith
    grind
  have n2 : len (fun i => b * (northAt (r + a) d i - northAt r d i)) ≤ |a| * |b| := by
    rw [len_smul, mul_comm]
    refine mul_le_mul_of_nonneg_right ?_ (abs_nonneg _)
    rw [len_eq]
    refine Real.sqrt_le_iff.2 ⟨abs_nonneg _, ?_⟩
    rw [sq_abs]
    have k0 := Real.one_sub_sq_div_two_le_cos (x := a)
    have e : dot (fun i => northAt (r + a) d i - northAt r d i) (fun i => northAt (r + a) d i - northAt r d i) = sin d ^ 2 * (2 - 2 * cos a) := by
      rw [dot_eq]
      simp [northAt]
      rw [cos_add, sin_add]
      have k1 := sin_sq_add_cos_sq r
      have k3 := sin_sq_add_cos_sq a
      generalize sin r = s1 at *
      generalize cos r = c1 at *
      generalize sin a = s3 at *
      generalize cos a = c3 at *
      grind
    rw [e]
    have k2 := sin_sq_le_one d
    have k4 := Real.cos_le_one a
    nlinarith [sq_nonneg (sin d)]
  have n3 : len (fun i => dir (r + a) d i - dir r d i - a * cos d * eastAt r i) ≤ cos d * a ^ 2 := by
    rw [len_eq]
    refine Real.sqrt_le_iff.2 ⟨mul_nonneg hd (sq_nonneg _), ?_⟩
    have := mul_le_mul_of_nonneg_left (turn_rem ha) (sq_nonneg (cos d))
    rw [mul_pow]
    refine le_trans (le_of_eq ?_) this
    rw [dot_eq]
    simp [dir, eastAt]
    rw [cos_add, sin_add]
    have k1 := sin_sq_add_cos_sq r
    have k3 := sin_sq_add_cos_sq a
    generalize sin r = s1 at *
    generalize cos r = c1 at *
    generalize sin a = s3 at *
    generalize cos a = c3 at *
    have : c1 ^ 2 = 1 - s1 ^ 2 := by linarith
    grind
  have e : (fun i => dir (r + a) (d + b) i - dir r d i - (a * cos d * eastAt r i + b * northAt r d i)) = fun i => (dir (r + a) (d + b) i - dir (r + a) d i - b * northAt (r + a) d i) +
      (b * (northAt (r + a) d i - northAt r d i) + (dir (r + a) d i - dir r d i - a * cos d * eastAt r i)) := by funext i; ring
  rw [e]
  have t1 := len_add_le (fun i => dir (r + a) (d + b) i - dir (r + a) d i - b * northAt (r + a) d i) (fun i => b * (northAt (r + a) d i - northAt r d i) + (dir (r + a) d i - dir r d i - a * cos d * eastAt r i))
  have t2 := len_add_le (fun i => b * (northAt (r + a) d i - northAt r d i)) (fun i => dir (r + a) d i - dir r d i - a * cos d * eastAt r i)
  linarith

theorem fk_back_vel : ∀ i j, |(emP * emiVP + emV * emiPP) i j| ≤ 1e-5 := by
  intro i j
  fin_cases i <;> fin_cases j <;> simp [emP, emV, emiPP, emiVP] <;> rw [abs_le] <;> constructor <;> norm_num

theorem fk_radial : ∀ i j, |(emiPP.transpose * emiVP + (emiPP.transpose * emiVP).transpose) i j| ≤ 2e-6 := by
  intro i j
  fin_cases i <;> fin_cases j <;> simp [emiPP, emiVP, Matrix.mul_apply, Fin.sum_univ_three] <;> rw [abs_le] <;> constructor <;> norm_num

theorem fk45_orth : ∀ i j, |(fk45mat.transpose * fk45mat - 1) i j| ≤ 1e-9 := by
  obtain ⟨h1, h2⟩ := fk_w
  unfold fk45mat
  generalize (palEpjR (palEpb2dR 1950) - 2000) / palPMF = w at *
  have h3 : 0 ≤ w * w := mul_self_nonneg w
  have h4 : w * w ≤ 6e-12 := by norm_num at *; nlinarith
  intro i j
  rw [abs_le]
  fin_cases i <;> fin_cases j <;> simp [emP, emV, Matrix.mul_apply, Fin.sum_univ_three] <;> constructor <;> nlinarith

/-- A nearly orthogonal matrix hardly lengthens vectors. -/
theorem fk45_len (a : Vec3) : len (fk45mat.mulVec a) ≤ 1.00001 * len a := by
  have h := len_mulVec_le fk45_orth a
  have h2 := dot_le_len a ((fk45mat.transpose * fk45mat - 1).mulVec a)
  have e : dot (fk45mat.mulVec a) (fk45mat.mulVec a) = dot a ((fk45mat.transpose * fk45mat - 1).mulVec a) + dot a a := by
    rw [sub_mulVec, one_mulVec]
    have : dot a ((fk45mat.transpose * fk45mat).mulVec a - a) = dot a ((fk45mat.transpose * fk45mat).mulVec a) - dot a a := dot_sub_right _ _ _
    rw [this, dot_dotProduct (fk45mat.mulVec a), dot_dotProduct a ((fk45mat.transpose * fk45mat).mulVec a), dotProduct_mulVec, vecMul_mulVec, dotProduct_mulVec]
    ring
  rw [← len_sq, ← len_sq] at e
  have h0 := len_nonneg a
  have h3 := mul_le_mul_of_nonneg_left h h0
  have h4 := (abs_le.1 h2).2
  by_contra hcon
  push Not at hcon
  have h5 := mul_self_lt_mul_self (by positivity) hcon
  norm_num at *
  nlinarith [mul_self_nonneg (len a)]

/-- Terms along and across (helper): `q2` is nearly at right angles to `q`. -/
theorem fk_q_q2 {p : Vec3} (hp : len p = 1) : |dot (emiPP.mulVec p) (emiVP.mulVec p)| ≤ 3e-6 := by
  have h := dot_mulVec_le fk_radial hp
  have e : dot p ((emiPP.transpose * emiVP + (emiPP.transpose * emiVP).transpose).mulVec p) = 2 * dot (emiPP.mulVec p) (emiVP.mulVec p) := by
    rw [add_mulVec]
    have : dot p ((emiPP.transpose * emiVP).mulVec p + (emiPP.transpose * emiVP).transpose.mulVec p) = dot p ((emiPP.transpose * emiVP).mulVec p) + dot p ((emiPP.transpose * emiVP).transpose.mulVec p) := dot_add_right _ _ _
    rw [this]
    simp only [dot_dotProduct]
    rw [transpose_mul, transpose_transpose, ← mulVec_mulVec, ← mulVec_mulVec, dotProduct_mulVec p, vecMul_transpose, dotProduct_mulVec p, vecMul_transpose, dotProduct_comm (emiVP.mulVec p)]
    ring
  rw [e, abs_mul, abs_of_pos (by norm_num : (0 : ℝ) < 2)] at h
  norm_num at *
  linarith

theorem emiVP_big : ∀ i j, |emiVP i j| ≤ 0.436 := by
  intro i j
  rw [abs_le]
  fin_cases i <;> fin_cases j <;> simp [emiVP] <;> constructor <;> norm_num

theorem emV_big : ∀ i j, |emV i j| ≤ 0.436 := by
  intro i j
  rw [abs_le]
  fin_cases i <;> fin_cases j <;> simp [emV] <;> constructor <;> norm_num

/-- The fictitious motion of a star at rest in FK5 (helper): tangential, and nearly the published one. -/
theorem fk54_motion (r d : ℝ) (s : Star) (hs : s = { r := r, d := d, dr := 0, dd := 0, px := 0, rv := 0 }) (hc : 0.05 ≤ cos (palFk524 s).d) :
    let D := dir (palFk524 s).r (palFk524 s).d
    let W : Vec3 := fun i => (palFk524 s).dr * palPMF * cos (palFk524 s).d * eastAt (palFk524 s).r i + (palFk524 s).dd * palPMF * northAt (palFk524 s).r (palFk524 s).d i
    len (fun i => D i - fkA i + dot D fkA * D i - emiPP.mulVec (dir r d) i) ≤ 6 / 10 ^ 10 ∧ len W ≤ 1.32 ∧
      len (fun i => W i - fkAd i + dot D fkAd * D i - emiVP.mulVec (dir r d) i) ≤ 1e-5 := by
  intro D W
  have hp1 := len_dir r d
  have hD1 := len_dir (palFk524 s).r (palFk524 s).d
  have hm : centuryMotion s = 0 := by rw [hs]; unfold centuryMotion; funext i; simp
  obtain ⟨q, hq⟩ : ∃ q, q = emiPP.mulVec (dir r d) := ⟨_, rfl⟩
  obtain ⟨q2, hq2⟩ : ∃ q2, q2 = emiVP.mulVec (dir r d) := ⟨_, rfl⟩
  have hp2 : q = emiPP.mulVec (dir s.r s.d) + emiPV.mulVec (centuryMotion s) := by rw [hm, mulVec_zero, add_zero, hq, hs]
  have hv2 : q2 = emiVP.mulVec (dir s.r s.d) + emiVV.mulVec (centuryMotion s) := by rw [hm, mulVec_zero, add_zero, hq2, hs]
  obtain ⟨k, hk⟩ : ∃ k, k = len (withEterms q fkA (len q)) := ⟨_, rfl⟩
  obtain ⟨p, hp⟩ : ∃ p, p = withEterms q fkA k := ⟨_, rfl⟩
  obtain ⟨v, hv⟩ : ∃ v : Vec3, v = fun i => q2 i + k * fkAd i - dot q fkAd * p i := ⟨_, rfl⟩
  obtain ⟨g1, g2, -, -⟩ := C49_fk524_procedure s q q2 p v k hp2 hv2 hk hp hv
  have hP := emi_len hp1
  rw [← hq] at hP ⊢
  rw [← hq2]
  have ew : ∀ K, withEterms q fkA K = fun i => q i + (fkA i * K - dot q fkA * q i) := by intro K; unfold withEterms; funext i; ring
  obtain ⟨hT, -⟩ := eterm_len hP fkA_len (hP.trans (by norm_num))
  rw [← ew, ← hk] at hT
  obtain ⟨hL, -⟩ := eterm_len hP fkA_len hT
  rw [← ew, ← hp] at hL
  obtain ⟨l1, l2⟩ := abs_le.1 hL
  obtain ⟨k1, k2⟩ := abs_le.1 hT
  have hE := eterms hP fkA_len hT hD1 (by rw [← ew, ← hp]; funext i; exact g1 i)
  -- tangential velocity
  have hpole : 1 / 10 ^ 30 < √(p 0 * p 0 + p 1 * p 1) := by
    have e0 := g1 0
    have e1 := g1 1
    simp only [dir, Matrix.cons_val_zero, Matrix.cons_val_one] at e0 e1
    refine Real.lt_sqrt_of_sq_lt ?_
    rw [← e0, ← e1]
    have hsc := sin_sq_add_cos_sq (palFk524 s).r
    have : len p * (cos (palFk524 s).d * cos (palFk524 s).r) * (len p * (cos (palFk524 s).d * cos (palFk524 s).r)) + len p * (cos (palFk524 s).d * sin (palFk524 s).r) * (len p * (cos (palFk524 s).d * sin (palFk524 s).r)) = (len p * cos (palFk524 s).d) ^ 2 := by
      linear_combination (len p * cos (palFk524 s).d) ^ 2 * hsc
    rw [this]
    have h9 : (0.04 : ℝ) ≤ len p * cos (palFk524 s).d := by
      have := mul_le_mul (by linarith : (0.9 : ℝ) ≤ len p) hc (by norm_num) (by linarith)
      norm_num at this ⊢
      linarith
    have := pow_le_pow_left₀ (by norm_num) h9 2
    refine lt_of_lt_of_le ?_ this
    norm_num
  have hder := g2 hpole
  rw [← pmf_eq] at hder
  have hvW : ∀ i, v i = dot p v / len p * D i + len p * W i := by
    intro i
    have l : ∀ a b : ℝ, HasDerivAt (fun t : ℝ => a + b * t) b 0 := fun a b => by
      simpa using ((hasDerivAt_id (0 : ℝ)).const_mul b).const_add a
    have z : ∀ a b : ℝ, a + b * 0 = a := fun a b => by ring
    have j0 := l (len p) (dot p v / len p)
    have j1 := l (palFk524 s).r ((palFk524 s).dr * palPMF)
    have j2 := l (palFk524 s).d ((palFk524 s).dd * palPMF)
    refine (hder i).unique ?_
    fin_cases i
    · refine ((j0.mul (j2.cos.mul j1.cos)).congr_deriv ?_)
      simp only [Pi.mul_apply, z]
      show _ = dot p v / len p * D 0 + len p * W 0
      simp only [D, W, dir, eastAt, northAt, Matrix.cons_val_zero]; ring
    · refine ((j0.mul (j2.cos.mul j1.sin)).congr_deriv ?_)
      simp only [Pi.mul_apply, z]
      show _ = dot p v / len p * D 1 + len p * W 1
      simp only [D, W, dir, eastAt, northAt, Matrix.cons_val_one, Matrix.cons_val_zero]; ring
    · refine ((j0.mul j2.sin).congr_deriv ?_)
      simp only [z]
      show _ = dot p v / len p * D 2 + len p * W 2
      simp only [D, W, dir, eastAt, northAt, Matrix.cons_val_two, Matrix.tail_cons, Matrix.head_cons]; ring
  have hDD : dot D D = 1 := dot_dir _ _
  have hpD : ∀ i, p i = len p * D i := fun i => (g1 i).symm
  obtain ⟨L, hLe⟩ : ∃ L, L = len p := ⟨_, rfl⟩
  rw [← hLe] at l1 l2 hvW hpD
  have hL0 : 0 < L := by linarith
  have hAd := fkAd_len
  have hAd0 := len_nonneg fkAd
  have hq2l : len q2 ≤ 1.308 := by
    rw [hq2]
    have := len_mulVec_le emiVP_big (dir r d)
    rw [hp1] at this
    norm_num at this ⊢; linarith
  have hq20 := len_nonneg q2
  -- W explicitly
  obtain ⟨c, hcc⟩ : ∃ c, c = dot q fkAd * L + dot p v / L := ⟨_, rfl⟩
  have hW1 : ∀ i, L * W i = q2 i + k * fkAd i - c * D i := by
    intro i
    have h1 := hvW i
    have h2 : v i = q2 i + k * fkAd i - dot q fkAd * p i := by rw [hv]
    rw [h2, hpD i] at h1
    rw [hcc]
    linarith
  have hWD : dot W D = 0 := by
    show dot (fun i => (palFk524 s).dr * palPMF * cos (palFk524 s).d * eastAt (palFk524 s).r i + (palFk524 s).dd * palPMF * northAt (palFk524 s).r (palFk524 s).d i) (dir (palFk524 s).r (palFk524 s).d) = 0
    rw [dot_eq]
    simp [dir, eastAt, northAt]
    have hsc := sin_sq_add_cos_sq (palFk524 s).r
    linear_combination -((palFk524 s).dd * palPMF * sin (palFk524 s).d * cos (palFk524 s).d) * hsc
  have hcv : c = dot q2 D + k * dot fkAd D := by
    have h1 : dot (fun i => L * W i) D = dot (fun i => q2 i + (k * fkAd i - c * D i)) D := by congr 1; funext i; rw [hW1 i]; ring
    rw [dot_smul_left, hWD, dot_add_left, dot_sub_left (fun i => k * fkAd i) (fun i => c * D i), dot_smul_left, dot_smul_left, hDD] at h1
    linarith
  have hW2 : W = fun i => L⁻¹ * ((q2 i - dot q2 D * D i) + k * (fkAd i - dot fkAd D * D i)) := by
    funext i
    have := hW1 i
    rw [hcv] at this
    field_simp
    linarith
  have hlD : len D = 1 := hD1
  -- tangential parts are no longer than the vectors
  have htan : ∀ a : Vec3, len (fun i => a i - dot a D * D i) ≤ len a := by
    intro a
    have e : dot (fun i => a i - dot a D * D i) (fun i => a i - dot a D * D i) = dot a a - dot a D * dot a D := by
      rw [dot_sub_left, dot_sub_right, dot_sub_right]
      simp only [dot_smul_left, dot_smul_right, hDD, dot_comm D a]; ring
    rw [len_eq, len_eq, e]
    exact Real.sqrt_le_sqrt (by linarith [mul_self_nonneg (dot a D)])
  have hinv : |L⁻¹ - 1| ≤ 1e-9 := by
    have : L⁻¹ - 1 = (1 - L) / L := by field_simp
    rw [this, abs_div, abs_of_pos hL0, div_le_iff₀ hL0, abs_le]
    constructor <;> norm_num at * <;> linarith
  obtain ⟨i1, i2⟩ := abs_le.1 hinv
  have hkinv : |L⁻¹ * k - 1| ≤ 2e-9 := by
    have : L⁻¹ * k - 1 = (L⁻¹ - 1) * k + (k - 1) := by ring
    rw [this, abs_le]
    have h1 : |(L⁻¹ - 1) * k| ≤ 1e-9 * 1.001 := by
      rw [abs_mul]
      refine mul_le_mul hinv ?_ (abs_nonneg _) (by norm_num)
      rw [abs_le]; constructor <;> linarith
    obtain ⟨m1, m2⟩ := abs_le.1 h1
    constructor <;> norm_num at * <;> linarith
  obtain ⟨kk1, kk2⟩ := abs_le.1 hkinv
  have t1 := htan q2
  have t2 := htan fkAd
  refine ⟨hE, ?_, ?_⟩
  · have eW : W = fun i => L⁻¹ * (q2 i - dot q2 D * D i) + (L⁻¹ * k) * (fkAd i - dot fkAd D * D i) := by rw [hW2]; funext i; ring
    rw [eW]
    refine (len_add_le _ _).trans ?_
    rw [len_smul, len_smul]
    have a1 : |L⁻¹| ≤ 1.001 := by rw [abs_le]; constructor <;> norm_num at * <;> linarith
    have a2 : |L⁻¹ * k| ≤ 1.001 := by rw [abs_le]; constructor <;> norm_num at * <;> linarith
    have b1 := mul_le_mul a1 (t1.trans hq2l) (len_nonneg _) (by norm_num)
    have b2 := mul_le_mul a2 (t2.trans hAd) (len_nonneg _) (by norm_num)
    norm_num at b1 b2 ⊢
    linarith
  · have hq2D : |dot q2 D| ≤ 8.5e-6 := by
      have hqq := fk_q_q2 hp1
      rw [← hq, ← hq2] at hqq
      have hpq : len (fun i => p i - q i) ≤ 3.5 / 10 ^ 6 := by
        have e : (fun i => p i - q i) = fun i => k * fkA i - dot q fkA * q i := by funext i; rw [hp]; unfold withEterms; ring
        obtain ⟨u1, u2⟩ := abs_le.1 hP
        have hs := dot_le_len q fkA
        have hA0 := len_nonneg fkA
        have hs' : |dot q fkA| ≤ 1.001 * (1.7 / 10 ^ 6) := hs.trans (mul_le_mul (by linarith) fkA_len hA0 (by norm_num))
        rw [e]
        refine (len_sub_le (fun i => k * fkA i) (fun i => dot q fkA * q i)).trans ?_
        rw [len_smul, len_smul, abs_of_nonneg (by linarith : 0 ≤ k)]
        have m1 := mul_le_mul (by linarith : k ≤ 1.001) fkA_len hA0 (by norm_num)
        have m2 := mul_le_mul hs' (by linarith : len q ≤ 1.001) (len_nonneg q) (by norm_num)
        norm_num at m1 m2 ⊢
        linarith
      have hDp : len (fun i => D i - p i) ≤ 4 / 10 ^ 10 := by
        have e : (fun i => D i - p i) = fun i => (1 - L) * D i := by funext i; rw [hpD i]; ring
        rw [e, len_smul, hlD, mul_one, abs_sub_comm, hLe]; exact hL
      have hDq := (len_tri D p q).trans (add_le_add hDp hpq)
      have e : dot q2 D = dot q2 (fun i => D i - q i) + dot q q2 := by rw [dot_sub_right, dot_comm q q2]; ring
      rw [e]
      have m1 := dot_le_len q2 (fun i => D i - q i)
      have m2 := mul_le_mul hq2l hDq (len_nonneg _) (by norm_num)
      have m3 := abs_add_le (dot q2 (fun i => D i - q i)) (dot q q2)
      norm_num at *
      linarith
    have e : (fun i => W i - fkAd i + dot D fkAd * D i - q2 i) = fun i => (L⁻¹ - 1) * (q2 i - dot q2 D * D i) + ((L⁻¹ * k - 1) * (fkAd i - dot fkAd D * D i) + (-dot q2 D) * D i) := by
      rw [hW2, dot_comm D fkAd]; funext i; ring
    rw [e]
    have s1 := len_add_le (fun i => (L⁻¹ - 1) * (q2 i - dot q2 D * D i)) (fun i => (L⁻¹ * k - 1) * (fkAd i - dot fkAd D * D i) + (-dot q2 D) * D i)
    have s2 := len_add_le (fun i => (L⁻¹ * k - 1) * (fkAd i - dot fkAd D * D i)) (fun i => (-dot q2 D) * D i)
    rw [len_smul] at s1
    rw [len_smul, len_smul, hlD, abs_neg, mul_one] at s2
    have b1 := mul_le_mul hinv (t1.trans hq2l) (len_nonneg _) (by norm_num)
    have b2 := mul_le_mul hkinv (t2.trans hAd) (len_nonneg _) (by norm_num)
    norm_num at *
    linarith

theorem pmf_pos : 20626470 ≤ palPMF := by
  have h2 := Real.pi_lt_d6
  rw [pmf_eq, ← mul_div_assoc, le_div_iff₀ pi_pos]
  norm_num at h2 ⊢
  linarith

/-- **C49** (round trip at any epoch) A position taken from FK5 to FK4 for a Besselian epoch between 1875 and 2025 (palFk54z) and brought back for the same epoch (palFk45z) is the position one started from,
within 5e-9 radian (1 milliarcsecond), for every star whose FK4 declination is below 87 degrees (cos 0.05); palFk54z moves the coordinates linearly, which is not straight motion near the pole. -/
theorem C49_epoch_roundtrip (r d e : ℝ) (he : |e - 1950| ≤ 75) (hc : 0.05 ≤ cos (palFk54z r d 1950).1.2) :
    let a := palFk54z r d e
    let b := palFk45z a.1.1 a.1.2 e
    len (fun i => dir b.1 b.2 i - dir r d i) ≤ 5e-9 := by
  obtain ⟨s, hs⟩ : ∃ s : Star, s = { r := r, d := d, dr := 0, dd := 0, px := 0, rv := 0 } := ⟨_, rfl⟩
  have hsd : (palFk54z r d 1950).1.2 = (palFk524 s).d := by rw [hs]; unfold palFk54z; simp
  rw [hsd] at hc
  obtain ⟨m1, m2, m3⟩ := fk54_motion r d s hs hc
  obtain ⟨D, hDe⟩ : ∃ D, D = dir (palFk524 s).r (palFk524 s).d := ⟨_, rfl⟩
  obtain ⟨W, hWe⟩ : ∃ W : Vec3, W = fun i => (palFk524 s).dr * palPMF * cos (palFk524 s).d * eastAt (palFk524 s).r i + (palFk524 s).dd * palPMF * northAt (palFk524 s).r (palFk524 s).d i := ⟨_, rfl⟩
  have hp1 := len_dir r d
  have hD1 : len D = 1 := by rw [hDe]; exact len_dir _ _
  have hpmf := pmf_pos
  have hpmf0 : palPMF ≠ 0 := by linarith
  obtain ⟨τ, hτ⟩ : ∃ τ, τ = (e - 1950) / palPMF := ⟨_, rfl⟩
  have hτb : |τ| ≤ 3.64e-6 := by
    rw [hτ, abs_div, abs_of_pos (by linarith : 0 < palPMF), div_le_iff₀ (by linarith)]
    have := mul_le_mul_of_nonneg_left hpmf (by norm_num : (0 : ℝ) ≤ 3.64e-6)
    norm_num at this ⊢
    linarith
  -- the position at the epoch
  obtain ⟨r0, hr0⟩ : ∃ r0 : Vec3, r0 = dir (palFk54z r d e).1.1 (palFk54z r d e).1.2 := ⟨_, rfl⟩
  have hr0l : len r0 = 1 := by rw [hr0]; exact len_dir _ _
  have ha1 : (palFk54z r d e).1.1 = (palFk524 s).r + (palFk524 s).dr * palPMF * τ := by rw [hs, hτ]; unfold palFk54z; dsimp only; field_simp
  have ha2 : (palFk54z r d e).1.2 = (palFk524 s).d + (palFk524 s).dd * palPMF * τ := by rw [hs, hτ]; unfold palFk54z; dsimp only; field_simp
  have hWl : len W ≤ 1.32 := by rw [hWe]; exact m2
  have hWsq : dot W W = ((palFk524 s).dr * palPMF * cos (palFk524 s).d) ^ 2 + ((palFk524 s).dd * palPMF) ^ 2 := by
    rw [hWe, dot_eq]
    simp [eastAt, northAt]
    have k1 := sin_sq_add_cos_sq (palFk524 s).r
    have k2 := sin_sq_add_cos_sq (palFk524 s).d
    generalize sin (palFk524 s).r = s1 at *
    generalize cos (palFk524 s).r = c1 at *
    generalize sin (palFk524 s).d = s2 at *
    generalize cos (palFk524 s).d = c2 at *
    generalize (palFk524 s).dr * palPMF = A at *
    generalize (palFk524 s).dd * palPMF = B at *
    linear_combination (A ^ 2 * c2 ^ 2 + B ^ 2 * s2 ^ 2) * k1 + B ^ 2 * k2
  have hWW : dot W W ≤ 1.32 ^ 2 := by rw [← len_sq, ← sq]; exact pow_le_pow_left₀ (len_nonneg _) hWl 2
  have hur : |(palFk524 s).dr * palPMF * cos (palFk524 s).d| ≤ 1.32 := abs_le_of_sq_le_sq (by rw [hWsq] at hWW; nlinarith [sq_nonneg ((palFk524 s).dd * palPMF)]) (by norm_num)
  have hud : |(palFk524 s).dd * palPMF| ≤ 1.32 := abs_le_of_sq_le_sq (by rw [hWsq] at hWW; nlinarith [sq_nonneg ((palFk524 s).dr * palPMF * cos (palFk524 s).d)]) (by norm_num)
  obtain ⟨a, ha⟩ : ∃ a, a = (palFk524 s).dr * palPMF * τ := ⟨_, rfl⟩
  obtain ⟨b, hb⟩ : ∃ b, b = (palFk524 s).dd * palPMF * τ := ⟨_, rfl⟩
  have hac : cos (palFk524 s).d * |a| ≤ 4.81e-6 := by
    have : cos (palFk524 s).d * |a| = |(palFk524 s).dr * palPMF * cos (palFk524 s).d| * |τ| := by
      rw [← abs_mul, ha, ← abs_of_nonneg (by linarith : 0 ≤ cos (palFk524 s).d), ← abs_mul, abs_of_nonneg (by linarith : 0 ≤ cos (palFk524 s).d)]; congr 1; ring
    rw [this]
    exact (mul_le_mul hur hτb (abs_nonneg _) (by norm_num)).trans (by norm_num)
  have hbb : |b| ≤ 4.81e-6 := by rw [hb, abs_mul]; exact (mul_le_mul hud hτb (abs_nonneg _) (by norm_num)).trans (by norm_num)
  have haa : |a| ≤ 9.62e-5 := by
    have := mul_le_mul_of_nonneg_right hc (abs_nonneg a)
    norm_num at this hac ⊢
    linarith
  have hmove := dir_move (palFk524 s).r (palFk524 s).d a b (haa.trans (by norm_num)) (hbb.trans (by norm_num)) (by linarith)
  obtain ⟨ε, hε⟩ : ∃ ε : Vec3, ε = fun i => r0 i - D i - τ * W i := ⟨_, rfl⟩
  have hεl : len ε ≤ 1e-9 := by
    have e1 : ε = fun i => dir ((palFk524 s).r + a) ((palFk524 s).d + b) i - dir (palFk524 s).r (palFk524 s).d i - (a * cos (palFk524 s).d * eastAt (palFk524 s).r i + b * northAt (palFk524 s).r (palFk524 s).d i) := by
      rw [hε, hr0, ha1, ha2, ← ha, ← hb, hDe, hWe]
      funext i
      rw [ha, hb]; ring
    rw [e1]
    refine hmove.trans ?_
    have c1 : cos (palFk524 s).d * a ^ 2 ≤ 4.81e-6 * 9.62e-5 := by
      rw [← sq_abs, sq, ← mul_assoc]
      exact mul_le_mul hac haa (abs_nonneg _) (by norm_num)
    have c2 : |a| * |b| ≤ 9.62e-5 * 4.81e-6 := mul_le_mul haa hbb (abs_nonneg _) (by norm_num)
    have c3 : b ^ 2 ≤ 4.81e-6 ^ 2 := by rw [← sq_abs]; exact pow_le_pow_left₀ (abs_nonneg _) hbb 2
    norm_num at c1 c2 c3 ⊢
    linarith
  have hr0e : ∀ i, r0 i = D i + (τ * W i + ε i) := by intro i; rw [hε]; ring
  obtain ⟨δ, hδ⟩ : ∃ δ : Vec3, δ = fun i => τ * W i + ε i := ⟨_, rfl⟩
  have hδl : len δ ≤ 4.9e-6 := by
    rw [hδ]
    refine (len_add_le _ _).trans ?_
    rw [len_smul]
    have := mul_le_mul hτb hWl (len_nonneg _) (by norm_num)
    norm_num at *
    linarith
  -- E-terms at the epoch
  obtain ⟨a1, ha1e⟩ : ∃ a1 : Vec3, a1 = fun i => fkA i + τ * fkAd i := ⟨_, rfl⟩
  have hAd := fkAd_len
  have hAd0 := len_nonneg fkAd
  have ha1l : len a1 ≤ 1.72e-6 := by
    rw [ha1e]
    refine (len_add_le _ _).trans ?_
    rw [len_smul]
    have := mul_le_mul hτb hAd hAd0 (by norm_num)
    have := fkA_len
    norm_num at *
    linarith
  obtain ⟨v1, hv1⟩ : ∃ v1 : Vec3, v1 = fun i => r0 i - a1 i + dot r0 a1 * r0 i := ⟨_, rfl⟩
  obtain ⟨q, hq⟩ : ∃ q, q = emiPP.mulVec (dir r d) := ⟨_, rfl⟩
  obtain ⟨q2, hq2⟩ : ∃ q2, q2 = emiVP.mulVec (dir r d) := ⟨_, rfl⟩
  rw [← hDe, ← hq] at m1
  obtain ⟨E, hE⟩ : ∃ E : Vec3, E = fun i => v1 i - q i - τ * q2 i := ⟨_, rfl⟩
  have hEl : len E ≤ 1.7e-9 := by
    have e1 : E = fun i => (D i - fkA i + dot D fkA * D i - q i) + (τ * (W i - fkAd i + dot D fkAd * D i - q2 i) + (ε i + (dot δ a1 * r0 i + dot D a1 * δ i))) := by
      funext i
      rw [hE, hv1]
      dsimp only
      have k1 : dot r0 a1 = dot D a1 + dot δ a1 := by
        rw [← dot_add_left]; congr 1; funext i; rw [hr0e i, hδ]
      have k2 : dot D a1 = dot D fkA + τ * dot D fkAd := by rw [ha1e, dot_add_right, dot_smul_right]
      have k3 : a1 i = fkA i + τ * fkAd i := by rw [ha1e]
      have k4 : δ i = τ * W i + ε i := by rw [hδ]
      have k5 : r0 i = D i + δ i := by rw [k4]; exact hr0e i
      rw [k1, k3, k4]
      rw [k5, k4, k2]
      ring
    rw [e1]
    have s1 := len_add_le (fun i => D i - fkA i + dot D fkA * D i - q i) (fun i => τ * (W i - fkAd i + dot D fkAd * D i - q2 i) + (ε i + (dot δ a1 * r0 i + dot D a1 * δ i)))
    have s2 := len_add_le (fun i => τ * (W i - fkAd i + dot D fkAd * D i - q2 i)) (fun i => ε i + (dot δ a1 * r0 i + dot D a1 * δ i))
    have s3 := len_add_le ε (fun i => dot δ a1 * r0 i + dot D a1 * δ i)
    have s4 := len_add_le (fun i => dot δ a1 * r0 i) (fun i => dot D a1 * δ i)
    rw [len_smul] at s2
    rw [len_smul, len_smul, hr0l, mul_one] at s4
    have m3' : len (fun i => W i - fkAd i + dot D fkAd * D i - q2 i) ≤ 1e-5 := by rw [hWe, hDe, hq2]; exact m3
    have b1 := mul_le_mul hτb m3' (len_nonneg _) (by norm_num)
    have b2 := (dot_le_len δ a1).trans (mul_le_mul hδl ha1l (len_nonneg _) (by norm_num))
    have b3 := dot_le_len D a1
    rw [hD1, one_mul] at b3
    have b4 := mul_le_mul (b3.trans ha1l) hδl (len_nonneg _) (by norm_num)
    norm_num at *
    linarith
  have hv1e : v1 = fun i => q i + (τ * q2 i + E i) := by funext i; rw [hE]; ring
  have hq2l : len q2 ≤ 1.308 := by
    rw [hq2]
    have := len_mulVec_le emiVP_big (dir r d)
    rw [hp1] at this
    norm_num at this ⊢; linarith
  have hql : len q ≤ 1.001 := by
    have := (abs_le.1 (emi_len hp1)).2
    rw [← hq] at this
    norm_num at this ⊢; linarith
  -- back to FK5
  obtain ⟨w, hw⟩ : ∃ w, w = (palEpjR (palEpb2dR 1950) - 2000) / palPMF := ⟨_, rfl⟩
  obtain ⟨τ', hτ'⟩ : ∃ τ', τ' = τ * (365.242198781 / 365.25) := ⟨_, rfl⟩
  have hw2 : (palEpjR (palEpb2dR e) - 2000) / palPMF = w + τ' := by
    rw [hw, hτ', hτ]; unfold palEpjR palEpb2dR; field_simp; ring
  have hwb := fk_w
  rw [← hw] at hwb
  have hτd : |τ' - τ| ≤ 1e-10 := by
    have : τ' - τ = -(τ * (0.007801219 / 365.25)) := by rw [hτ']; norm_num; ring
    rw [this, abs_neg, abs_mul, abs_of_pos (by norm_num : (0 : ℝ) < 0.007801219 / 365.25)]
    have := mul_le_mul_of_nonneg_right hτb (by norm_num : (0 : ℝ) ≤ 0.007801219 / 365.25)
    exact this.trans (by norm_num)
  obtain ⟨F, hF⟩ : ∃ F : Vec3, F = fun i => emP.mulVec v1 i + (w + τ') * emV.mulVec v1 i := ⟨_, rfl⟩
  have hb45 : palFk45z (palFk54z r d e).1.1 (palFk54z r d e).1.2 e = (eraAnp (eraC2s F).1, (eraC2s F).2) := by
    unfold palFk45z
    dsimp only
    rw [eraS2c_eq, ← hr0, hw2, ← hτ]
    have h1 : (fun i => fkA i + τ * fkAd i) = a1 := ha1e.symm
    have h1' := fun i => congrFun h1 i
    simp only [h1']
    rw [← dot_eq, ← hv1, eraRxp_eq, eraRxp_eq, ← hF]
  have hfm : ∀ x : Vec3, fk45mat.mulVec x = fun i => emP.mulVec x i + w * emV.mulVec x i := by
    intro x
    unfold fk45mat
    rw [← hw, add_mulVec, smul_mulVec]; rfl
  have hadd : ∀ (M : Mat3) (x y : Vec3), M.mulVec (fun i => x i + y i) = fun i => M.mulVec x i + M.mulVec y i := fun M x y => Matrix.mulVec_add M x y
  have hsm : ∀ (M : Mat3) (c : ℝ) (x : Vec3), M.mulVec (fun i => c * x i) = fun i => c * M.mulVec x i := fun M c x => Matrix.mulVec_smul M c x
  have hdiff : len (fun i => F i - dir r d i) ≤ 2.4e-9 := by
    have e1 : (fun i => F i - dir r d i) = fun i => (fk45mat * emiPP - 1).mulVec (dir r d) i + (τ * (emP * emiVP + emV * emiPP).mulVec (dir r d) i + (fk45mat.mulVec E i +
        ((τ * w) * emV.mulVec q2 i + ((τ' - τ) * emV.mulVec v1 i + τ * emV.mulVec (fun i => τ * q2 i + E i) i)))) := by
      have c1 : (fk45mat * emiPP - 1).mulVec (dir r d) = fk45mat.mulVec q - dir r d := by rw [sub_mulVec, one_mulVec, ← mulVec_mulVec, hq]
      have c2 : (emP * emiVP + emV * emiPP).mulVec (dir r d) = emP.mulVec q2 + emV.mulVec q := by rw [add_mulVec, ← mulVec_mulVec, ← mulVec_mulVec, hq, hq2]
      funext i
      rw [c1, c2, hfm, hfm, hF]
      have d1 : emP.mulVec v1 = fun i => emP.mulVec q i + (τ * emP.mulVec q2 i + emP.mulVec E i) := by rw [hv1e, hadd, hadd, hsm]
      have d2 : emV.mulVec v1 = fun i => emV.mulVec q i + emV.mulVec (fun i => τ * q2 i + E i) i := by rw [hv1e, hadd]
      have d3 : emV.mulVec (fun i => τ * q2 i + E i) = fun i => τ * emV.mulVec q2 i + emV.mulVec E i := by rw [hadd, hsm]
      rw [d1, d2, d3]
      simp only [Pi.sub_apply, Pi.add_apply]
      ring
    rw [e1]
    have s1 := len_add_le ((fk45mat * emiPP - 1).mulVec (dir r d)) (fun i => τ * (emP * emiVP + emV * emiPP).mulVec (dir r d) i + (fk45mat.mulVec E i + ((τ * w) * emV.mulVec q2 i + ((τ' - τ) * emV.mulVec v1 i + τ * emV.mulVec (fun i => τ * q2 i + E i) i))))
    have s2 := len_add_le (fun i => τ * (emP * emiVP + emV * emiPP).mulVec (dir r d) i) (fun i => fk45mat.mulVec E i + ((τ * w) * emV.mulVec q2 i + ((τ' - τ) * emV.mulVec v1 i + τ * emV.mulVec (fun i => τ * q2 i + E i) i)))
    have s3 := len_add_le (fk45mat.mulVec E) (fun i => (τ * w) * emV.mulVec q2 i + ((τ' - τ) * emV.mulVec v1 i + τ * emV.mulVec (fun i => τ * q2 i + E i) i))
    have s4 := len_add_le (fun i => (τ * w) * emV.mulVec q2 i) (fun i => (τ' - τ) * emV.mulVec v1 i + τ * emV.mulVec (fun i => τ * q2 i + E i) i)
    have s5 := len_add_le (fun i => (τ' - τ) * emV.mulVec v1 i) (fun i => τ * emV.mulVec (fun i => τ * q2 i + E i) i)
    rw [len_smul] at s2 s4
    rw [len_smul, len_smul τ] at s5
    have u1 := len_mulVec_le fk_prod (dir r d)
    have u2 := len_mulVec_le fk_back_vel (dir r d)
    rw [hp1, mul_one] at u1 u2
    have u3 := fk45_len E
    have u4 := len_mulVec_le emV_big q2
    have u5 := len_mulVec_le emV_big v1
    have u6 := len_mulVec_le emV_big (fun i => τ * q2 i + E i)
    have g0 : len (fun i => τ * q2 i + E i) ≤ 5e-6 := by
      refine (len_add_le _ _).trans ?_
      rw [len_smul]
      have := mul_le_mul hτb hq2l (len_nonneg _) (by norm_num)
      norm_num at this hEl ⊢
      linarith
    have g1 : len v1 ≤ 1.01 := by
      rw [hv1e]
      refine (len_add_le _ _).trans ?_
      norm_num at g0 hql ⊢
      linarith
    have y1 := mul_le_mul hτb u2 (len_nonneg _) (by norm_num)
    have hτw : |τ * w| ≤ 3.64e-6 * 2.5e-6 := by
      rw [abs_mul]
      refine mul_le_mul hτb ?_ (abs_nonneg _) (by norm_num)
      rw [abs_le]; constructor <;> norm_num at hwb ⊢ <;> linarith
    have y2 := mul_le_mul hτw (u4.trans (mul_le_mul_of_nonneg_left hq2l (by norm_num))) (len_nonneg _) (by norm_num)
    have y3 := mul_le_mul hτd (u5.trans (mul_le_mul_of_nonneg_left g1 (by norm_num))) (len_nonneg _) (by norm_num)
    have y4 := mul_le_mul hτb (u6.trans (mul_le_mul_of_nonneg_left g0 (by norm_num))) (len_nonneg _) (by norm_num)
    have y5 := mul_le_mul_of_nonneg_left hEl (by norm_num : (0 : ℝ) ≤ 1.00001)
    have z1 : 3 * (1e-10 : ℝ) ≤ 3.01e-10 := by norm_num
    have z2 := y1.trans (by norm_num : _ ≤ (1.2e-10 : ℝ))
    have z3 := y2.trans (by norm_num : _ ≤ (3e-11 : ℝ))
    have z4 := y3.trans (by norm_num : _ ≤ (1.4e-10 : ℝ))
    have z5 := y4.trans (by norm_num : _ ≤ (3e-11 : ℝ))
    have z6 := (u3.trans y5).trans (by norm_num : _ ≤ (1.701e-9 : ℝ))
    have z7 : (3.01e-10 : ℝ) + 1.2e-10 + 3e-11 + 1.4e-10 + 3e-11 + 1.701e-9 ≤ 2.4e-9 := by norm_num
    linarith only [s1, s2, s3, s4, s5, u1, z1, z2, z3, z4, z5, z6, z7]
  dsimp only
  rw [hb45]
  have h := dir_close hp1 (len_dir _ _) (by norm_num : (0 : ℝ) ≤ 1) (Real.sqrt_nonneg _) (by funext i; exact one_mul _) (c2s_dir F) (by norm_num : (0 : ℝ) < 1) hp1.ge hdiff
  exact h.trans (by norm_num)

/-- A star on the equator is far from the pole in FK4 too. -/
theorem equator_star : 0.05 ≤ cos (palFk54z 0 0 1950).1.2 := by
  obtain ⟨s, hs⟩ : ∃ s : Star, s = { r := 0, d := 0, dr := 0, dd := 0, px := 0, rv := 0 } := ⟨_, rfl⟩
  have hsd : (palFk54z 0 0 1950).1.2 = (palFk524 s).d := by rw [hs]; unfold palFk54z; simp
  rw [hsd]
  have hd : (palFk524 s).d = atan2 ((fk524Vec s).1 2) (√((fk524Vec s).1 0 * (fk524Vec s).1 0 + (fk524Vec s).1 1 * (fk524Vec s).1 1)) := rfl
  have hd2 : |(palFk524 s).d| ≤ π / 2 := by rw [hd]; exact abs_atan2_le (Real.sqrt_nonneg _)
  have hc0 := cos_nonneg_of_neg_pi_div_two_le_of_le (abs_le.1 hd2).1 (abs_le.1 hd2).2
  have hD := fk524_dir s
  rw [hs, fk524_zero, ← hs] at hD
  have hP := emi_len (len_dir 0 0)
  obtain ⟨hT, -⟩ := eterm_len hP fkA_len (hP.trans (by norm_num))
  have hE := eterms hP fkA_len hT (len_dir _ _) hD
  have h2 := (comp_le_len _ 2).trans hE
  have hq : emiPP.mulVec (dir 0 0) 2 = -0.0048590040 := by simp [emiPP, dir, Matrix.mulVec, dotProduct, Fin.sum_univ_three]
  have hDD : dir (palFk524 s).r (palFk524 s).d 2 = sin (palFk524 s).d := rfl
  have hA2 : fkA 2 = -0.13843e-6 := rfl
  have hdA := dot_le_len (dir (palFk524 s).r (palFk524 s).d) fkA
  rw [len_dir, one_mul] at hdA
  have hdA' := hdA.trans fkA_len
  rw [hq, hDD, hA2] at h2
  have hsl : |sin (palFk524 s).d| ≤ 1 := abs_sin_le_one _
  have hm : |dot (dir (palFk524 s).r (palFk524 s).d) fkA * sin (palFk524 s).d| ≤ 1.7 / 10 ^ 6 * 1 := by rw [abs_mul]; exact mul_le_mul hdA' hsl (abs_nonneg _) (by norm_num)
  have hsin : |sin (palFk524 s).d| ≤ 0.1 := by
    obtain ⟨m1, m2⟩ := abs_le.1 hm
    obtain ⟨n1, n2⟩ := abs_le.1 h2
    rw [abs_le]; constructor <;> norm_num at * <;> linarith
  have hsq := sin_sq_add_cos_sq (palFk524 s).d
  have hs2 := pow_le_pow_left₀ (abs_nonneg _) hsin 2
  rw [sq_abs] at hs2
  by_contra hcon
  push Not at hcon
  have := pow_lt_pow_left₀ hcon hc0 (n := 2) (by norm_num)
  norm_num at hs2 this
  linarith

example : len (fun i => dir (palFk45z (palFk54z 0 0 1983.5).1.1 (palFk54z 0 0 1983.5).1.2 1983.5).1 (palFk45z (palFk54z 0 0 1983.5).1.1 (palFk54z 0 0 1983.5).1.2 1983.5).2 i - dir 0 0 i) ≤ 5e-9 :=
  C49_epoch_roundtrip 0 0 1983.5 (by rw [abs_le]; constructor <;> norm_num) equator_star

example : ∀ v2 : Vec3, |dot (withEterms (dir 1 0.5) fkA (len (withEterms (dir 1 0.5) fkA (len (dir 1 0.5))))) (fun i => v2 i + len (withEterms (dir 1 0.5) fkA (len (dir 1 0.5))) * fkAd i - dot (dir 1 0.5) fkAd * withEterms (dir 1 0.5) fkA (len (withEterms (dir 1 0.5) fkA (len (dir 1 0.5)))) i)
    - dot (withEterms (dir 1 0.5) fkA (len (withEterms (dir 1 0.5) fkA (len (dir 1 0.5))))) v2| ≤ 0.003 * (|len (dir 1 0.5) - 1| + 2e-5) :=
  fun v2 => C49_eterms_sideways _ v2 _ _ _ (by rw [len_dir]; norm_num) rfl rfl rfl

end Pal.Props
