import Verif.Lemmas.Pm
import Verif.Spec.Pm
import Verif.Lemmas.Coord
import Mathlib.Analysis.Calculus.Deriv.Inverse
import Mathlib.Analysis.SpecialFunctions.Sqrt

/-!
# Proper motion: property C96
-/

namespace Pal.Props
open Real Pal Pal.Spec Pal.PmL

theorem dc_eq : eraDC = lightSpeed := by unfold eraDC eraDAU lightSpeed; norm_num

theorem light_pos : 0 < lightSpeed := by unfold lightSpeed; norm_num

theorem distance_pos (px : ℝ) : 0 < distance px := by
  unfold distance
  exact div_pos (by positivity) (lt_max_of_lt_right (by norm_num))

theorem pn_dir {R : ℝ} (hR : 0 < R) (r d : ℝ) : (eraPn (fun i => R * dir r d i)).2 = dir r d := by
  have hm : eraPm (fun i => R * dir r d i) = R := by
    rw [eraPm_eq, dot_smul_left, dot_smul_right, dot_dir, mul_one, Real.sqrt_mul_self hR.le]
  unfold eraPn
  dsimp only
  rw [hm, if_neg hR.ne']
  funext i
  have := hR.ne'
  field_simp

theorem s2pv_eq (r0 d0 R td pdd rd : ℝ) :
    eraS2pv r0 d0 R td pdd rd = (fun i => R * dir r0 d0 i, fun i => R * (td * cos d0 * eastAt r0 i + pdd * northAt r0 d0 i) + rd * dir r0 d0 i) := by
  unfold eraS2pv
  dsimp only
  ext i <;> fin_cases i <;> simp [dir, eastAt, northAt] <;> ring

theorem dot_dir_pm (r0 d0 pr pd : ℝ) : dot (dir r0 d0) (properMotion r0 d0 pr pd) = 0 := by
  have h1 := sin_sq_add_cos_sq r0
  rw [dot_eq]
  simp [dir, properMotion, eastAt, northAt]
  linear_combination -(pd * cos d0 * sin d0) * h1

/-- The velocity eraStarpv forms: radial and transverse parts. -/
theorem starpv_spec (r0 d0 pr pd px rv : ℝ) (hV : apparentSpeed r0 d0 pr pd px rv ≤ lightSpeed / 2) :
    ∃ ρ d : ℝ, eraStarpv r0 d0 pr pd px rv = some (fun i => distance px * dir r0 d0 i, fun i => lightSpeed * ρ * dir r0 d0 i + d * (distance px / 365.25 * properMotion r0 d0 pr pd i)) ∧
      0.41 ≤ d ∧ d ≤ 1.62 ∧ -0.59 ≤ ρ ∧ ρ ≤ 0.62 ∧ (rv < 0 → ρ < 0) ∧ ρ ^ 2 + (d * (distance px / 365.25 * len (properMotion r0 d0 pr pd)) / lightSpeed) ^ 2 ≤ 0.83 ∧
      (apparentSpeed r0 d0 pr pd px rv ≤ lightSpeed / 10 → |1 + ρ - d| ≤ 1e-39 ∧
        |(1 + ρ) * (radial rv / lightSpeed) - (ρ + 1 - √(1 - (ρ ^ 2 + (d * (distance px / 365.25 * len (properMotion r0 d0 pr pd)) / lightSpeed) ^ 2)))| ≤ 1e-39) := by
  have hR := distance_pos px
  have hc := light_pos
  obtain ⟨R, hRe⟩ : ∃ R, R = distance px := ⟨_, rfl⟩
  obtain ⟨c, hce⟩ : ∃ c, c = lightSpeed := ⟨_, rfl⟩
  rw [← hRe] at hR
  rw [← hce] at hc
  obtain ⟨m, hm⟩ : ∃ m, m = properMotion r0 d0 pr pd := ⟨_, rfl⟩
  obtain ⟨a, ha⟩ : ∃ a, a = radial rv / c := ⟨_, rfl⟩
  obtain ⟨b, hb⟩ : ∃ b, b = R / 365.25 * len m / c := ⟨_, rfl⟩
  have hb0 : 0 ≤ b := by rw [hb]; exact div_nonneg (mul_nonneg (by positivity) (len_nonneg _)) hc.le
  have hsp : apparentSpeed r0 d0 pr pd px rv = c * √(a * a + b * b) := by
    unfold apparentSpeed
    rw [← hRe, ← hm, show (R * len m / 365.25) ^ 2 + radial rv ^ 2 = c * c * (a * a + b * b) by rw [ha, hb]; field_simp; ring, Real.sqrt_mul (mul_nonneg hc.le hc.le), Real.sqrt_mul_self hc.le]
  have hab0 : 0 ≤ a * a + b * b := add_nonneg (mul_self_nonneg _) (mul_self_nonneg _)
  have habk : ∀ k : ℝ, 0 < k → apparentSpeed r0 d0 pr pd px rv ≤ c / k → a * a + b * b ≤ 1 / (k * k) := by
    intro k hk hh
    rw [hsp] at hh
    have h1 : √(a * a + b * b) ≤ 1 / k := by
      by_contra hcon; push Not at hcon
      have := mul_lt_mul_of_pos_left hcon hc
      rw [mul_one_div] at this
      linarith
    have h2 := mul_le_mul h1 h1 (Real.sqrt_nonneg _) (by positivity)
    rw [Real.mul_self_sqrt hab0] at h2
    rw [show 1 / (k * k) = 1 / k * (1 / k) by field_simp]
    exact h2
  have hab : a * a + b * b ≤ 1 / 4 := by have := habk 2 (by norm_num) (by rw [hce]; exact hV); norm_num at this ⊢; linarith
  obtain ⟨k, hk1, hk2⟩ := loop_all hb0 hab
  have hs := vels_succ a b k
  refine ⟨(vels a b (k + 1)).1, dn a b k, ?_, ?_, ?_, (vels_ok hb0 hab (k + 1)).1, (vels_ok hb0 hab (k + 1)).2.1, ?_, ?_, ?_⟩
  · unfold eraStarpv
    dsimp only
    have hw : (if px ≥ 1e-7 then px else 1e-7) = max px 1e-7 := by
      split_ifs with hp
      · exact (max_eq_left hp).symm
      · exact (max_eq_right (not_le.1 hp).le).symm
    have hr : eraDR2AS / (if px ≥ 1e-7 then px else 1e-7) = R := by rw [hw, hRe]; rfl
    have hrd : 86400 * rv * 1e3 / eraDAU = radial rv := by unfold radial eraDAU; norm_num; ring
    rw [hr, hrd, s2pv_eq]
    dsimp only
    have hvel : (fun i => R * (pr / 365.25 * cos d0 * eastAt r0 i + pd / 365.25 * northAt r0 d0 i) + radial rv * dir r0 d0 i) = fun i => R / 365.25 * m i + radial rv * dir r0 d0 i := by
      rw [hm]; funext i; unfold properMotion; ring
    rw [hvel, pn_dir hR]
    have hdm : dot (dir r0 d0) m = 0 := by rw [hm]; exact dot_dir_pm _ _ _ _
    have hdm' : dot m (dir r0 d0) = 0 := by rw [dot_comm]; exact hdm
    have hpm : eraPm (fun i => R / 365.25 * m i + radial rv * dir r0 d0 i) = apparentSpeed r0 d0 pr pd px rv := by
      rw [eraPm_eq, dot_add_left, dot_add_right, dot_add_right]
      simp only [dot_smul_left, dot_smul_right, hdm, hdm', dot_dir]
      unfold apparentSpeed
      rw [← hm, ← hRe]
      congr 1
      rw [← len_sq]; ring
    rw [hpm, dc_eq, ← hce, if_neg (by rw [gt_iff_lt, not_lt, div_le_iff₀ hc]; rw [hce]; linarith)]
    have hvsr : eraPdp (dir r0 d0) (fun i => R / 365.25 * m i + radial rv * dir r0 d0 i) = radial rv := by
      rw [eraPdp_eq, dot_add_right]
      simp only [dot_smul_right, hdm, dot_dir]; ring
    rw [hvsr]
    have hust : (fun i => R / 365.25 * m i + radial rv * dir r0 d0 i - radial rv * dir r0 d0 i) = fun i => R / 365.25 * m i := by funext i; ring
    rw [hust]
    have hvst : eraPm (fun i => R / 365.25 * m i) / c = b := by
      rw [eraPm_eq, ← len_eq, len_smul, abs_of_pos (by positivity), hb]
    rw [hvst, ← ha, hk1]
    dsimp only
    rw [hs, hRe, hm]
    simp only [add_sub_cancel_right]
  · have := (vels_ok hb0 hab k).1; unfold dn; linarith
  · have := (vels_ok hb0 hab k).2.1; unfold dn; linarith
  · intro hrv
    have ha0 : a < 0 := by
      rw [ha]; refine div_neg_of_neg_of_pos ?_ hc
      unfold radial; exact div_neg_of_neg_of_pos (by linarith) (by norm_num)
    have hd : 0 < dn a b k := by have := (vels_ok hb0 hab k).1; unfold dn; norm_num at this; linarith
    rw [hs]
    have : deln a b k ≤ 0 := by unfold deln; exact neg_nonpos.2 (h_nonneg (add_nonneg (mul_self_nonneg _) (mul_self_nonneg _)))
    have := mul_neg_of_pos_of_neg hd ha0
    dsimp only
    linarith
  all_goals
    have hτ : dn a b k * (distance px / 365.25 * len (properMotion r0 d0 pr pd)) / lightSpeed = (vels a b (k + 1)).2 := by
      rw [hs, hb, ← hRe, ← hm, ← hce]; dsimp only; ring
    rw [hτ]
  · have := (vels_ok hb0 hab (k + 1)).2.2.2
    rw [sq, sq]; exact this
  · intro hten
    have hab2 : a * a + b * b ≤ 1 / 100 := by have := habk 10 (by norm_num) (by rw [hce]; exact hten); norm_num at this ⊢; linarith
    obtain ⟨q1, q2⟩ := converged hb0 hab2 hk2
    refine ⟨q1, ?_⟩
    rw [← hce, ← ha]
    have hv1 := (vels_ok hb0 hab (k + 1)).2.2.2
    have e := vels_succ a b (k + 1)
    have e2 : dn a b (k + 2) - dn a b (k + 1) = (1 + (vels a b (k + 1)).1) * a - ((vels a b (k + 1)).1 + 1 - √(1 - ((vels a b (k + 1)).1 ^ 2 + (vels a b (k + 1)).2 ^ 2))) := by
      have : dn a b (k + 2) = 1 + (vels a b (k + 1 + 1)).1 := rfl
      rw [this, e]
      dsimp only
      unfold deln
      rw [h_eq (by norm_num at hv1; linarith)]
      unfold dn
      ring_nf
    rw [← e2]
    exact q2

/-- When the apparent speed exceeds half the speed of light the velocity is taken to be zero. -/
theorem starpv_fast (r0 d0 pr pd px rv : ℝ) (hV : lightSpeed / 2 < apparentSpeed r0 d0 pr pd px rv) :
    eraStarpv r0 d0 pr pd px rv = some (fun i => distance px * dir r0 d0 i, fun _ => 0) := by
  have hR := distance_pos px
  have hc := light_pos
  unfold eraStarpv
  dsimp only
  have hw : (if px ≥ 1e-7 then px else 1e-7) = max px 1e-7 := by
    split_ifs with hp
    · exact (max_eq_left hp).symm
    · exact (max_eq_right (not_le.1 hp).le).symm
  have hr : eraDR2AS / (if px ≥ 1e-7 then px else 1e-7) = distance px := by rw [hw]; rfl
  have hrd : 86400 * rv * 1e3 / eraDAU = radial rv := by unfold radial eraDAU; norm_num; ring
  rw [hr, hrd, s2pv_eq]
  dsimp only
  have hvel : (fun i => distance px * (pr / 365.25 * cos d0 * eastAt r0 i + pd / 365.25 * northAt r0 d0 i) + radial rv * dir r0 d0 i) = fun i => distance px / 365.25 * properMotion r0 d0 pr pd i + radial rv * dir r0 d0 i := by
    funext i; unfold properMotion; ring
  rw [hvel, pn_dir hR]
  have hdm : dot (dir r0 d0) (properMotion r0 d0 pr pd) = 0 := dot_dir_pm _ _ _ _
  have hdm' : dot (properMotion r0 d0 pr pd) (dir r0 d0) = 0 := by rw [dot_comm]; exact hdm
  have hpm : eraPm (fun i => distance px / 365.25 * properMotion r0 d0 pr pd i + radial rv * dir r0 d0 i) = apparentSpeed r0 d0 pr pd px rv := by
    rw [eraPm_eq, dot_add_left, dot_add_right, dot_add_right]
    simp only [dot_smul_left, dot_smul_right, hdm, hdm', dot_dir]
    unfold apparentSpeed
    congr 1
    rw [← len_sq]; ring
  rw [hpm, dc_eq, if_pos (by rw [gt_iff_lt, lt_div_iff₀ hc]; linarith)]
  have h0 : eraPdp (dir r0 d0) ![0, 0, 0] = 0 := by simp [eraPdp]
  have h1 : (fun i => (![0, 0, 0] : Vec3) i - 0 * dir r0 d0 i) = fun _ => 0 := by funext i; fin_cases i <;> simp
  have h2 : eraPm (fun _ => 0) = 0 := by simp [eraPm]
  rw [h0, h1, h2, zero_div]
  obtain ⟨k, hk1, -⟩ := loop_all (a := 0) (b := 0) le_rfl (by norm_num)
  have hd : deln 0 0 k = 0 := by unfold deln; rw [vels_zero]; simp [h]
  rw [hk1, hd]
  dsimp only
  have h3 : ∀ i, (![0, 0, 0] : Vec3) i - 0 * dir r0 d0 i = 0 := fun i => congrFun h1 i
  simp only [h3]
  simp

/-- eraPv2s delivers the spherical coordinates of the position. -/
theorem pv2s_eq (p v : Vec3) (hp : dot p p ≠ 0) : (eraPv2s p v).1 = eraC2s p := by
  have hr : ¬ √(p 0 * p 0 + p 1 * p 1 + p 2 * p 2) = 0 := by
    rw [dot_eq] at hp
    rw [Real.sqrt_eq_zero (add_nonneg (add_nonneg (mul_self_nonneg _) (mul_self_nonneg _)) (mul_self_nonneg _))]; exact hp
  unfold eraPv2s eraC2s
  dsimp only
  simp only [if_neg hr]
  by_cases h : p 0 * p 0 + p 1 * p 1 = 0
  · rw [if_neg (not_not.2 h), if_pos h]
    dsimp only
    by_cases hz : p 2 = 0
    · rw [if_neg (not_not.2 hz), if_pos hz]
    · rw [if_pos hz, if_neg hz]
  · rw [if_pos h, if_neg h]
    dsimp only
    by_cases hz : p 2 = 0
    · rw [if_pos hz, hz, atan2_zero_pos (Real.sqrt_nonneg _)]
    · rw [if_neg hz]

/-- Slower than light, eraPvstar succeeds unless the star is at the observer, with the direction of the position. -/
theorem pvstar_spec (p v : Vec3) (hv : dot v v < lightSpeed * lightSpeed) :
    (p = 0 → eraPvstar p v = none) ∧ (p ≠ 0 → ∃ r d, eraPvstar p v = some (r, d) ∧ r ∈ Set.Ico 0 (2 * π) ∧ |d| ≤ π / 2 ∧ (fun i => len p * dir r d i) = p) := by
  have hc := light_pos
  constructor
  · rintro rfl
    unfold eraPvstar
    dsimp only
    split_ifs with h1 h2
    · rfl
    · rfl
    · exact absurd (by simp) h2
  · intro hp
    have hpp : dot p p ≠ 0 := fun h => hp (dot_self_eq_zero.1 h)
    have hlp : 0 < len p := by
      have := len_nonneg p
      refine lt_of_le_of_ne this fun h => hpp ?_
      rw [← len_sq, ← h, zero_mul]
    have hm : eraPm p = len p := by rw [eraPm_eq, len_eq]
    have hx : (eraPn p).2 = fun i => 1 / len p * p i := by unfold eraPn; dsimp only; rw [hm, if_neg hlp.ne']
    obtain ⟨x, hxe⟩ : ∃ x, x = (eraPn p).2 := ⟨_, rfl⟩
    have hxx : dot x x = 1 := by rw [hxe, hx, dot_smul_left, dot_smul_right, ← len_sq]; field_simp
    have hcs := dot_le_len x v
    rw [len_one hxx, one_mul] at hcs
    have hlv : len v < lightSpeed := by
      by_contra h; push Not at h
      have := mul_le_mul h h hc.le (len_nonneg v)
      rw [len_sq] at this; linarith
    rw [abs_le] at hcs
    have hd : 1 + dot x v / lightSpeed ≠ 0 := by
      have : -1 < dot x v / lightSpeed := by rw [lt_div_iff₀ hc]; linarith
      linarith
    have hw : ¬ (dot x v / lightSpeed * (dot x v / lightSpeed) + eraPm (fun i => v i - dot x v * x i) / lightSpeed * (eraPm (fun i => v i - dot x v * x i) / lightSpeed) > 1) := by
      have hsq : eraPm (fun i => v i - dot x v * x i) * eraPm (fun i => v i - dot x v * x i) = dot v v - dot x v * dot x v := by
        rw [eraPm_eq, Real.mul_self_sqrt (dot_self_nonneg _), dot_sub_left, dot_sub_right, dot_sub_right]
        simp only [dot_smul_left, dot_smul_right, hxx, dot_comm v x]; ring
      have e : dot x v / lightSpeed * (dot x v / lightSpeed) + eraPm (fun i => v i - dot x v * x i) / lightSpeed * (eraPm (fun i => v i - dot x v * x i) / lightSpeed) = dot v v / (lightSpeed * lightSpeed) := by
        rw [show eraPm (fun i => v i - dot x v * x i) / lightSpeed * (eraPm (fun i => v i - dot x v * x i) / lightSpeed) = (eraPm (fun i => v i - dot x v * x i) * eraPm (fun i => v i - dot x v * x i)) / (lightSpeed * lightSpeed) by
          field_simp, hsq]
        field_simp
        ring
      rw [e, gt_iff_lt, not_lt, div_le_one (mul_pos hc hc)]
      exact hv.le
    have hr : ¬ √(p 0 * p 0 + p 1 * p 1 + p 2 * p 2) = 0 := by
      rw [dot_eq] at hpp
      rw [Real.sqrt_eq_zero (add_nonneg (add_nonneg (mul_self_nonneg _) (mul_self_nonneg _)) (mul_self_nonneg _))]; exact hpp
    unfold eraPvstar
    dsimp only
    rw [← hxe, eraPdp_eq, dc_eq, if_neg (by push Not; exact ⟨hd, not_lt.1 hw⟩), if_neg hr, pv2s_eq _ _ hpp]
    refine ⟨_, _, rfl, (eraAnp_spec _).1, (eraC2s_range p).2, ?_⟩
    have := eraC2s_spec p
    rw [hm] at this
    refine Eq.trans ?_ this
    unfold dir
    rw [sin_eraAnp, cos_eraAnp]

/-- The light time after the move. -/
theorem light_time (p v : Vec3) (hv : dot v v < lightSpeed * lightSpeed) (days : ℝ) :
    ∃ tl2, tl2 = (-(dot (fun i => p i + (days + len p / lightSpeed) * v i) v) + √(dot (fun i => p i + (days + len p / lightSpeed) * v i) v * dot (fun i => p i + (days + len p / lightSpeed) * v i) v +
        (lightSpeed * lightSpeed - dot v v) * dot (fun i => p i + (days + len p / lightSpeed) * v i) (fun i => p i + (days + len p / lightSpeed) * v i))) / (lightSpeed * lightSpeed - dot v v) ∧
      len (fun i => p i + (days + (len p / lightSpeed - tl2)) * v i) = lightSpeed * tl2 := by
  have hc := light_pos
  obtain ⟨c, hce⟩ : ∃ c, c = lightSpeed := ⟨_, rfl⟩
  rw [← hce] at hc hv ⊢
  refine ⟨_, rfl, ?_⟩
  obtain ⟨q, hq⟩ : ∃ q : Vec3, q = fun i => p i + (days + len p / c) * v i := ⟨_, rfl⟩
  rw [← hq]
  obtain ⟨A, hA⟩ : ∃ A, A = dot q v := ⟨_, rfl⟩
  obtain ⟨B, hB⟩ : ∃ B, B = dot q q := ⟨_, rfl⟩
  obtain ⟨K, hK⟩ : ∃ K, K = c * c - dot v v := ⟨_, rfl⟩
  have hK0 : 0 < K := by rw [hK]; linarith
  have hB0 : 0 ≤ B := by rw [hB]; exact dot_self_nonneg _
  rw [← hA, ← hB, ← hK]
  have hs := Real.mul_self_sqrt (by nlinarith [mul_self_nonneg A, mul_nonneg hK0.le hB0] : 0 ≤ A * A + K * B)
  have hs0 := Real.sqrt_nonneg (A * A + K * B)
  have hge : A ≤ √(A * A + K * B) := by
    by_contra hcon; push Not at hcon
    nlinarith [mul_nonneg hK0.le hB0]
  obtain ⟨S, hS⟩ : ∃ S, S = √(A * A + K * B) := ⟨_, rfl⟩
  rw [← hS] at hs hs0 hge ⊢
  obtain ⟨t, ht⟩ : ∃ t, t = (-A + S) / K := ⟨_, rfl⟩
  rw [← ht]
  have ht0 : 0 ≤ t := by rw [ht]; exact div_nonneg (by linarith) hK0.le
  have htK : K * t = S - A := by rw [ht]; field_simp; ring
  have hroot : K * (t * t) + 2 * A * t - B = 0 := by
    have : K * (K * (t * t) + 2 * A * t - B) = 0 := by nlinarith
    rcases mul_eq_zero.1 this with h | h
    · exact absurd h hK0.ne'
    · exact h
  have e : (fun i => p i + (days + (len p / c - t)) * v i) = fun i => q i - t * v i := by rw [hq]; funext i; ring
  have hl := len_sq (fun i => q i - t * v i)
  rw [dot_sub_left, dot_sub_right, dot_sub_right] at hl
  simp only [dot_smul_left, dot_smul_right] at hl
  rw [dot_comm v q, ← hA, ← hB, show dot v v = c * c - K by rw [hK]; ring] at hl
  rw [e]
  have h0 := len_nonneg (fun i => q i - t * v i)
  have hct : 0 ≤ c * t := mul_nonneg hc.le ht0
  have : len (fun i => q i - t * v i) * len (fun i => q i - t * v i) = (c * t) * (c * t) := by rw [hl]; linear_combination -hroot
  exact (mul_self_inj h0 hct).1 this

theorem starpm_unfold {r0 d0 pr pd px rv : ℝ} {p v : Vec3} (hs : eraStarpv r0 d0 pr pd px rv = some (p, v)) (hv : dot v v < lightSpeed * lightSpeed) (ep0 ep1 : ℝ) :
    ∃ tl2, tl2 = (-(dot (fun i => p i + ((ep1 - ep0) * 365.25 + len p / lightSpeed) * v i) v) + √(dot (fun i => p i + ((ep1 - ep0) * 365.25 + len p / lightSpeed) * v i) v * dot (fun i => p i + ((ep1 - ep0) * 365.25 + len p / lightSpeed) * v i) v +
        (lightSpeed * lightSpeed - dot v v) * dot (fun i => p i + ((ep1 - ep0) * 365.25 + len p / lightSpeed) * v i) (fun i => p i + ((ep1 - ep0) * 365.25 + len p / lightSpeed) * v i))) / (lightSpeed * lightSpeed - dot v v) ∧
      len (fun i => p i + ((ep1 - ep0) * 365.25 + (len p / lightSpeed - tl2)) * v i) = lightSpeed * tl2 ∧
      palPm r0 d0 pr pd px rv ep0 ep1 = eraPvstar (fun i => p i + ((ep1 - ep0) * 365.25 + (len p / lightSpeed - tl2)) * v i) v := by
  obtain ⟨tl2, h1, h2⟩ := light_time p v hv ((ep1 - ep0) * 365.25)
  refine ⟨tl2, h1, h2, ?_⟩
  unfold palPm eraStarpm
  rw [hs]
  unfold eraEpj2jdR
  dsimp only
  have hdt : (2400000.5 - 2400000.5 : ℝ) + (51544.5 + (ep1 - 2000) * 365.25 - (51544.5 + (ep0 - 2000) * 365.25)) = (ep1 - ep0) * 365.25 := by ring
  have hm : eraPm p = len p := by rw [eraPm_eq, len_eq]
  rw [hdt, hm, dc_eq]
  simp only [eraPdp_eq]
  rw [if_neg (by linarith), ← h1]

theorem starpm_reports {r0 d0 pr pd px rv : ℝ} {p v : Vec3} (hs : eraStarpv r0 d0 pr pd px rv = some (p, v)) (hv : dot v v < lightSpeed * lightSpeed) (ep0 ep1 : ℝ) :
    Reports p v ((ep1 - ep0) * 365.25) (palPm r0 d0 pr pd px rv ep0 ep1) := by
  obtain ⟨tl2, -, h2, h3⟩ := starpm_unfold hs hv ep0 ep1
  have hc := light_pos
  obtain ⟨k1, k2⟩ := pvstar_spec (fun i => p i + ((ep1 - ep0) * 365.25 + (len p / lightSpeed - tl2)) * v i) v hv
  refine ⟨(ep1 - ep0) * 365.25 + (len p / lightSpeed - tl2), ?_, ?_, ?_⟩
  · unfold SeenAfter; rw [h2]; field_simp; ring
  · intro h; rw [h3]; exact k1 (funext h)
  · intro h
    obtain ⟨r, d, a1, a2, a3, a4⟩ := k2 (fun h' => h (fun i => congrFun h' i))
    exact ⟨r, d, by rw [h3, a1], a2, a3, fun i => congrFun a4 i⟩

theorem vel_sq (r0 d0 pr pd px ρ d : ℝ) :
    dot (fun i => lightSpeed * ρ * dir r0 d0 i + d * (distance px / 365.25 * properMotion r0 d0 pr pd i)) (fun i => lightSpeed * ρ * dir r0 d0 i + d * (distance px / 365.25 * properMotion r0 d0 pr pd i)) =
      lightSpeed * lightSpeed * (ρ ^ 2 + (d * (distance px / 365.25 * len (properMotion r0 d0 pr pd)) / lightSpeed) ^ 2) := by
  have hc := light_pos.ne'
  have hdm : dot (dir r0 d0) (properMotion r0 d0 pr pd) = 0 := dot_dir_pm _ _ _ _
  have hdm' : dot (properMotion r0 d0 pr pd) (dir r0 d0) = 0 := by rw [dot_comm]; exact hdm
  have e : (fun i => lightSpeed * ρ * dir r0 d0 i + d * (distance px / 365.25 * properMotion r0 d0 pr pd i)) = fun i => lightSpeed * ρ * dir r0 d0 i + d * (distance px / 365.25) * properMotion r0 d0 pr pd i := by funext i; ring
  rw [e, dot_add_left, dot_add_right, dot_add_right]
  simp only [dot_smul_left, dot_smul_right, hdm, hdm', dot_dir]
  rw [← len_sq]
  field_simp
  ring

theorem vel_radial (r0 d0 pr pd px ρ d : ℝ) :
    dot (fun i => lightSpeed * ρ * dir r0 d0 i + d * (distance px / 365.25 * properMotion r0 d0 pr pd i)) (dir r0 d0) = lightSpeed * ρ := by
  have hdm' : dot (properMotion r0 d0 pr pd) (dir r0 d0) = 0 := by rw [dot_comm]; exact dot_dir_pm _ _ _ _
  have e : (fun i => lightSpeed * ρ * dir r0 d0 i + d * (distance px / 365.25 * properMotion r0 d0 pr pd i)) = fun i => lightSpeed * ρ * dir r0 d0 i + d * (distance px / 365.25) * properMotion r0 d0 pr pd i := by funext i; ring
  rw [e, dot_add_left]
  simp only [dot_smul_left, hdm', dot_dir]
  ring

/-- **C96** (track) Up to an apparent speed of half that of light, the position palPm gives for any epoch is where light shows a star moving uniformly on a straight line, slower than light, from its
position at the first epoch (at the distance given by the parallax), in the plane of the line of sight and the proper motion, on the side of the proper motion. The position is set
unless the star has reached the observer. -/
theorem C96_track (r0 d0 pr pd px rv ep0 : ℝ) (hV : apparentSpeed r0 d0 pr pd px rv ≤ lightSpeed / 2) :
    ∃ (v : Vec3) (ρ d : ℝ), (v = fun i => lightSpeed * ρ * dir r0 d0 i + d * (distance px / 365.25 * properMotion r0 d0 pr pd i)) ∧ 0 < d ∧ len v < lightSpeed ∧
      ∀ ep1, Reports (fun i => distance px * dir r0 d0 i) v ((ep1 - ep0) * 365.25) (palPm r0 d0 pr pd px rv ep0 ep1) := by
  obtain ⟨ρ, d, h1, h2, h3, h4, h5, -, h6, -⟩ := starpv_spec r0 d0 pr pd px rv hV
  have hc := light_pos
  have hv : dot (fun i => lightSpeed * ρ * dir r0 d0 i + d * (distance px / 365.25 * properMotion r0 d0 pr pd i)) (fun i => lightSpeed * ρ * dir r0 d0 i + d * (distance px / 365.25 * properMotion r0 d0 pr pd i)) < lightSpeed * lightSpeed := by
    rw [vel_sq]
    have := mul_le_mul_of_nonneg_left h6 (mul_pos hc hc).le
    nlinarith [mul_pos hc hc]
  refine ⟨_, ρ, d, rfl, by norm_num at h2; linarith, ?_, fun ep1 => starpm_reports h1 hv ep0 ep1⟩
  by_contra h; push Not at h
  have := mul_le_mul h h hc.le (len_nonneg _)
  rw [len_sq] at this; linarith

/-- **C96** (velocity) Up to a tenth of the speed of light the velocity in C96_track is the one that distance, proper motion and radial velocity determine, the radial velocity being a Doppler shift (Stumpff): the transverse velocity is
the apparent one times one plus the radial velocity (in units of the speed of light), and the Doppler shift including time dilation is the apparent radial velocity, both to 39 decimals. -/
theorem C96_velocity (r0 d0 pr pd px rv ep0 : ℝ) (hV : apparentSpeed r0 d0 pr pd px rv ≤ lightSpeed / 10) :
    ∃ (v : Vec3) (d : ℝ), (∀ ep1, Reports (fun i => distance px * dir r0 d0 i) v ((ep1 - ep0) * 365.25) (palPm r0 d0 pr pd px rv ep0 ep1)) ∧
      (∀ i, v i - dot v (dir r0 d0) * dir r0 d0 i = d * (distance px / 365.25 * properMotion r0 d0 pr pd i)) ∧
      |1 + dot v (dir r0 d0) / lightSpeed - d| ≤ 1e-39 ∧
      |(1 + dot v (dir r0 d0) / lightSpeed) * (radial rv / lightSpeed) - (dot v (dir r0 d0) / lightSpeed + 1 - √(1 - (len v / lightSpeed) ^ 2))| ≤ 1e-39 := by
  have hc := light_pos
  obtain ⟨ρ, d, h1, h2, h3, h4, h5, -, h6, h7⟩ := starpv_spec r0 d0 pr pd px rv (by linarith)
  obtain ⟨h7, h8⟩ := h7 hV
  have hv : dot (fun i => lightSpeed * ρ * dir r0 d0 i + d * (distance px / 365.25 * properMotion r0 d0 pr pd i)) (fun i => lightSpeed * ρ * dir r0 d0 i + d * (distance px / 365.25 * properMotion r0 d0 pr pd i)) < lightSpeed * lightSpeed := by
    rw [vel_sq]
    have := mul_le_mul_of_nonneg_left h6 (mul_pos hc hc).le
    nlinarith [mul_pos hc hc]
  refine ⟨_, d, fun ep1 => starpm_reports h1 hv ep0 ep1, ?_, ?_, ?_⟩
  · intro i; rw [vel_radial]; ring
  · rw [vel_radial, mul_div_cancel_left₀ _ hc.ne']; exact h7
  · rw [vel_radial, mul_div_cancel_left₀ _ hc.ne', div_pow, sq (len _), len_sq, vel_sq]
    rw [sq lightSpeed, mul_div_cancel_left₀ _ (mul_pos hc hc).ne']
    exact h8

/-- **C96** (too fast) If the apparent speed exceeds half that of light, palPm silently ignores the motion: whatever the epoch, the position is the given one. -/
theorem C96_ignored (r0 d0 pr pd px rv ep0 ep1 : ℝ) (hV : lightSpeed / 2 < apparentSpeed r0 d0 pr pd px rv) :
    ∃ r d, palPm r0 d0 pr pd px rv ep0 ep1 = some (r, d) ∧ r ∈ Set.Ico 0 (2 * π) ∧ |d| ≤ π / 2 ∧ dir r d = dir r0 d0 := by
  have hc := light_pos
  have hR := distance_pos px
  obtain ⟨T, -, -, h2⟩ := starpm_reports (starpv_fast r0 d0 pr pd px rv hV) (by rw [dot_eq]; simp; exact hc.ne') ep0 ep1
  have hne : ¬ ∀ i, distance px * dir r0 d0 i + T * 0 = 0 := by
    intro h
    have hd := dot_dir r0 d0
    have : ∀ i, dir r0 d0 i = 0 := fun i => by
      have := h i
      rw [mul_zero, add_zero] at this
      exact (mul_eq_zero.1 this).resolve_left hR.ne'
    rw [dot_eq, this 0, this 1, this 2] at hd
    norm_num at hd
  obtain ⟨r, d, e1, e2, e3, e4⟩ := h2 hne
  refine ⟨r, d, e1, e2, e3, ?_⟩
  have hl : len (fun i => distance px * dir r0 d0 i + T * 0) = distance px := by
    simp only [mul_zero, add_zero]
    rw [len_smul, abs_of_pos hR, len_one (dot_dir _ _), mul_one]
  funext i
  have := e4 i
  rw [hl, mul_zero, add_zero] at this
  exact mul_left_cancel₀ hR.ne' this

/-- **C96** (no parallax) With parallax zero, negative or unknown (below 1e-7 arcsec), any proper motion above 1.6e-8 radians (3.3 milliarcseconds) a year is ignored. -/
theorem C96_no_parallax (r0 d0 pr pd px rv ep0 ep1 : ℝ) (hp : px ≤ 1e-7) (hm : 1.6e-8 ≤ len (properMotion r0 d0 pr pd)) :
    ∃ r d, palPm r0 d0 pr pd px rv ep0 ep1 = some (r, d) ∧ r ∈ Set.Ico 0 (2 * π) ∧ |d| ≤ π / 2 ∧ dir r d = dir r0 d0 := by
  apply C96_ignored
  unfold apparentSpeed
  refine Real.lt_sqrt_of_sq_lt ?_
  have hd : 2.06e12 ≤ distance px := by
    unfold distance
    rw [max_eq_right hp, le_div_iff₀ (by norm_num), le_div_iff₀ pi_pos]
    have := pi_lt_d4
    norm_num at this ⊢
    linarith
  have h1 : 90 ≤ distance px * len (properMotion r0 d0 pr pd) / 365.25 := by
    rw [le_div_iff₀ (by norm_num)]
    have := mul_le_mul hd hm (by norm_num) (by linarith [distance_pos px])
    norm_num at this ⊢
    linarith
  have h2 : lightSpeed / 2 < 87 := by unfold lightSpeed; norm_num
  have h3 : (lightSpeed / 2) ^ 2 < 90 ^ 2 := pow_lt_pow_left₀ (by linarith) (by linarith [light_pos]) (by norm_num)
  have h4 : (90 : ℝ) ^ 2 ≤ (distance px * len (properMotion r0 d0 pr pd) / 365.25) ^ 2 := pow_le_pow_left₀ (by norm_num) h1 2
  have := sq_nonneg (radial rv)
  linarith

/-- Two stages of uniform motion are at most the distance travelled apart. -/
theorem len_track (p v : Vec3) (T U : ℝ) : |len (fun i => p i + T * v i) - len (fun i => p i + U * v i)| ≤ |T - U| * len v := by
  have h1 := len_add_le (fun i => p i + U * v i) (fun i => (T - U) * v i)
  have h2 := len_add_le (fun i => p i + T * v i) (fun i => (U - T) * v i)
  have e1 : (fun i => p i + U * v i + (T - U) * v i) = fun i => p i + T * v i := by funext i; ring
  have e2 : (fun i => p i + T * v i + (U - T) * v i) = fun i => p i + U * v i := by funext i; ring
  rw [e1, len_smul] at h1
  rw [e2, len_smul, abs_sub_comm U T] at h2
  rw [abs_le]; constructor <;> linarith

/-- Light seen later left later. -/
theorem seen_gap {p v : Vec3} {days days' T U : ℝ} (h1 : SeenAfter p v days T) (h2 : SeenAfter p v days' U) :
    (1 - len v / lightSpeed) * |T - U| ≤ |days - days'| := by
  have hc := light_pos
  unfold SeenAfter at h1 h2
  have ht := len_track p v T U
  have e : days - days' = (T - U) + (len (fun i => p i + T * v i) - len (fun i => p i + U * v i)) / lightSpeed := by rw [sub_div]; linarith
  rw [e]
  have h3 := abs_sub_abs_le_abs_sub (T - U) (-((len (fun i => p i + T * v i) - len (fun i => p i + U * v i)) / lightSpeed))
  rw [abs_neg, sub_neg_eq_add, abs_div, abs_of_pos hc] at h3
  have h4 := div_le_div_of_nonneg_right ht hc.le
  have h5 : (1 - len v / lightSpeed) * |T - U| = |T - U| - |T - U| * len v / lightSpeed := by ring
  linarith

theorem seen_unique {p v : Vec3} (hv : len v < lightSpeed) {days T U : ℝ} (h1 : SeenAfter p v days T) (h2 : SeenAfter p v days U) : T = U := by
  have hc := light_pos
  have h := seen_gap h1 h2
  rw [sub_self, abs_zero] at h
  have h0 : 0 < 1 - len v / lightSpeed := by rw [sub_pos, div_lt_one hc]; exact hv
  have h3 : |T - U| ≤ 0 := by
    by_contra hcon; push Not at hcon
    linarith [mul_pos h0 hcon]
  exact sub_eq_zero.1 (abs_nonpos_iff.1 h3)

theorem seen_zero (p v : Vec3) : SeenAfter p v 0 0 := by unfold SeenAfter; simp

/-- **C96** (same epoch) Moved to the epoch it is given for, a star is where it was. -/
theorem C96_same_epoch (r0 d0 pr pd px rv ep0 : ℝ) :
    ∃ r d, palPm r0 d0 pr pd px rv ep0 ep0 = some (r, d) ∧ r ∈ Set.Ico 0 (2 * π) ∧ |d| ≤ π / 2 ∧ dir r d = dir r0 d0 := by
  by_cases hV : apparentSpeed r0 d0 pr pd px rv ≤ lightSpeed / 2
  · obtain ⟨v, ρ, d, -, -, hlv, h⟩ := C96_track r0 d0 pr pd px rv ep0 hV
    obtain ⟨T, hT, -, h2⟩ := h ep0
    rw [sub_self, zero_mul] at hT
    obtain rfl := seen_unique hlv hT (seen_zero _ _)
    have hR := distance_pos px
    have e : (fun i => distance px * dir r0 d0 i + 0 * v i) = fun i => distance px * dir r0 d0 i := by funext i; ring
    have hl : len (fun i => distance px * dir r0 d0 i + 0 * v i) = distance px := by
      rw [e, len_smul, abs_of_pos hR, len_one (dot_dir _ _), mul_one]
    obtain ⟨r, d, e1, e2, e3, e4⟩ := h2 (by
      intro h0
      have : (fun i => distance px * dir r0 d0 i + 0 * v i) = 0 := funext h0
      rw [this] at hl
      have h00 : len (0 : Vec3) = 0 := by rw [len_eq, dot_eq]; simp
      rw [h00] at hl; linarith)
    refine ⟨r, d, e1, e2, e3, ?_⟩
    funext i
    have := e4 i
    rw [hl, zero_mul, add_zero] at this
    exact mul_left_cancel₀ hR.ne' this
  · exact C96_ignored r0 d0 pr pd px rv ep0 ep0 (not_le.1 hV)

/-- **C96** (always set) For a star with any proper motion at all, the position is set whatever the epochs. -/
theorem C96_always (r0 d0 pr pd px rv ep0 ep1 : ℝ) (hm : properMotion r0 d0 pr pd ≠ 0) :
    ∃ r d, palPm r0 d0 pr pd px rv ep0 ep1 = some (r, d) ∧ r ∈ Set.Ico 0 (2 * π) ∧ |d| ≤ π / 2 := by
  by_cases hV : apparentSpeed r0 d0 pr pd px rv ≤ lightSpeed / 2
  · obtain ⟨v, ρ, d, hve, hd, hlv, h⟩ := C96_track r0 d0 pr pd px rv ep0 hV
    obtain ⟨T, hT, -, h2⟩ := h ep1
    have hR := distance_pos px
    obtain ⟨r, d, e1, e2, e3, -⟩ := h2 (by
      intro h0
      have e : (fun i => distance px * dir r0 d0 i + T * v i) = 0 := funext h0
      have hdm := dot_dir_pm r0 d0 pr pd
      have hmd : dot (properMotion r0 d0 pr pd) (dir r0 d0) = 0 := by rw [dot_comm]; exact hdm
      have k1 : dot (properMotion r0 d0 pr pd) (fun i => distance px * dir r0 d0 i + T * v i) = 0 := by rw [e, dot_eq]; simp
      have k2 : dot (dir r0 d0) (fun i => distance px * dir r0 d0 i + T * v i) = 0 := by rw [e, dot_eq]; simp
      have ev : v = fun i => lightSpeed * ρ * dir r0 d0 i + d * (distance px / 365.25) * properMotion r0 d0 pr pd i := by rw [hve]; funext i; ring
      rw [ev, dot_add_right, dot_smul_right, dot_smul_right, dot_add_right, dot_smul_right, dot_smul_right, hmd] at k1
      rw [ev, dot_add_right, dot_smul_right, dot_smul_right, dot_add_right, dot_smul_right, dot_smul_right, hdm, dot_dir] at k2
      have hmm : dot (properMotion r0 d0 pr pd) (properMotion r0 d0 pr pd) ≠ 0 := fun h => hm (dot_self_eq_zero.1 h)
      have hT0 : T = 0 := by
        have hne : d * (distance px / 365.25) * dot (properMotion r0 d0 pr pd) (properMotion r0 d0 pr pd) ≠ 0 := mul_ne_zero (by positivity) hmm
        have : T * (d * (distance px / 365.25) * dot (properMotion r0 d0 pr pd) (properMotion r0 d0 pr pd)) = 0 := by linarith
        exact (mul_eq_zero.1 this).resolve_right hne
      rw [hT0] at k2
      linarith)
    exact ⟨r, d, e1, e2, e3⟩
  · obtain ⟨r, d, e1, e2, e3, -⟩ := C96_ignored r0 d0 pr pd px rv ep0 ep1 (not_le.1 hV)
    exact ⟨r, d, e1, e2, e3⟩

/-- **C96** (not set) Without proper motion, an approaching star reaches the observer: at that one epoch palPm returns without setting the position, and gives no sign of it. -/
theorem C96_unset (r0 d0 px rv ep0 : ℝ) (hrv : rv < 0) (hV : -radial rv ≤ lightSpeed / 2) : ∃ ep1, palPm r0 d0 0 0 px rv ep0 ep1 = none := by
  have hc := light_pos
  have hR := distance_pos px
  have hm : properMotion r0 d0 0 0 = fun _ => 0 := by funext i; unfold properMotion; ring
  have hr0 : radial rv < 0 := by unfold radial; exact div_neg_of_neg_of_pos (by linarith) (by norm_num)
  have hl0 : len (fun _ : Fin 3 => (0 : ℝ)) = 0 := by rw [len_eq, dot_eq]; simp
  have hV' : apparentSpeed r0 d0 0 0 px rv ≤ lightSpeed / 2 := by
    unfold apparentSpeed
    rw [hm, hl0, mul_zero, zero_div, zero_pow (by norm_num), zero_add, Real.sqrt_sq_eq_abs, abs_of_neg hr0]; exact hV
  obtain ⟨ρ, d, h1, h2, h3, h4, h5, hneg, h6, -⟩ := starpv_spec r0 d0 0 0 px rv hV'
  have hρ := hneg hrv
  have hv : dot (fun i => lightSpeed * ρ * dir r0 d0 i + d * (distance px / 365.25 * properMotion r0 d0 0 0 i)) (fun i => lightSpeed * ρ * dir r0 d0 i + d * (distance px / 365.25 * properMotion r0 d0 0 0 i)) < lightSpeed * lightSpeed := by
    rw [vel_sq]
    have := mul_le_mul_of_nonneg_left h6 (mul_pos hc hc).le
    nlinarith [mul_pos hc hc]
  obtain ⟨v, hve⟩ : ∃ v : Vec3, v = fun i => lightSpeed * ρ * dir r0 d0 i + d * (distance px / 365.25 * properMotion r0 d0 0 0 i) := ⟨_, rfl⟩
  rw [← hve] at hv h1
  have hlv : len v < lightSpeed := by
    by_contra h; push Not at h
    have := mul_le_mul h h hc.le (len_nonneg _)
    rw [len_sq] at this; linarith
  have hvi : ∀ i, v i = lightSpeed * ρ * dir r0 d0 i := by intro i; rw [hve, hm]; ring
  obtain ⟨U, hU⟩ : ∃ U, U = -distance px / (lightSpeed * ρ) := ⟨_, rfl⟩
  have hz : (fun i => distance px * dir r0 d0 i + U * v i) = 0 := by
    funext i
    rw [hvi, hU]
    have := hρ.ne
    have := hc.ne'
    simp only [Pi.zero_apply]
    field_simp
    ring
  refine ⟨ep0 + (U - len (fun i => distance px * dir r0 d0 i) / lightSpeed) / 365.25, ?_⟩
  obtain ⟨T, hT, hn, -⟩ := starpm_reports h1 hv ep0 (ep0 + (U - len (fun i => distance px * dir r0 d0 i) / lightSpeed) / 365.25)
  have hTU : T = U := by
    refine seen_unique hlv hT ?_
    unfold SeenAfter
    rw [hz, show len (0 : Vec3) = 0 from hl0]
    ring
  refine hn fun i => ?_
  rw [hTU]
  exact congrFun hz i

theorem shown_eq {p v : Vec3} (hlv : len v < lightSpeed) {days T : ℝ} {o : Option (ℝ × ℝ)} (h : Reports p v days o) (hT : SeenAfter p v days T) (i : Fin 3) :
    shown o i = (p i + T * v i) / len (fun i => p i + T * v i) := by
  obtain ⟨U, hU, h1, h2⟩ := h
  obtain rfl := seen_unique hlv hU hT
  by_cases h0 : ∀ i, p i + U * v i = 0
  · rw [h1 h0, h0 i, zero_div]; rfl
  · obtain ⟨r, d, e1, -, -, e4⟩ := h2 h0
    have hl : len (fun i => p i + U * v i) ≠ 0 := by
      intro hl
      apply h0
      have := len_sq (fun i => p i + U * v i)
      rw [hl, zero_mul] at this
      exact fun i => congrFun (dot_self_eq_zero.1 this.symm) i
    rw [e1, eq_div_iff hl, mul_comm]
    exact e4 i

/-- **C96** (rate) Up to a tenth of the speed of light, the rate at which the position moves with the epoch is, at the start, the given proper motion to 38 decimals. -/
theorem C96_rate (r0 d0 pr pd px rv ep0 : ℝ) (hV : apparentSpeed r0 d0 pr pd px rv ≤ lightSpeed / 10) :
    ∃ q : ℝ, |q - 1| ≤ 1e-38 ∧ ∀ i, HasDerivAt (fun ep1 => shown (palPm r0 d0 pr pd px rv ep0 ep1) i) (q * properMotion r0 d0 pr pd i) ep0 := by
  have hc := light_pos
  have hR := distance_pos px
  obtain ⟨ρ, d, h1, h2, h3, h4, h5, -, h6, h7⟩ := starpv_spec r0 d0 pr pd px rv (by linarith)
  obtain ⟨h7, -⟩ := h7 hV
  have hv : dot (fun i => lightSpeed * ρ * dir r0 d0 i + d * (distance px / 365.25 * properMotion r0 d0 pr pd i)) (fun i => lightSpeed * ρ * dir r0 d0 i + d * (distance px / 365.25 * properMotion r0 d0 pr pd i)) < lightSpeed * lightSpeed := by
    rw [vel_sq]
    have := mul_le_mul_of_nonneg_left h6 (mul_pos hc hc).le
    nlinarith [mul_pos hc hc]
  have hvr := vel_radial r0 d0 pr pd px ρ d
  obtain ⟨v, hve⟩ : ∃ v : Vec3, v = fun i => lightSpeed * ρ * dir r0 d0 i + d * (distance px / 365.25 * properMotion r0 d0 pr pd i) := ⟨_, rfl⟩
  rw [← hve] at hv h1 hvr
  have hlv : len v < lightSpeed := by
    by_contra h; push Not at h
    have := mul_le_mul h h hc.le (len_nonneg _)
    rw [len_sq] at this; linarith
  obtain ⟨p, hp⟩ : ∃ p : Vec3, p = fun i => distance px * dir r0 d0 i := ⟨_, rfl⟩
  rw [← hp] at h1
  have hrep := fun ep1 => starpm_reports h1 hv ep0 ep1
  have hlp : len p = distance px := by rw [hp, len_smul, abs_of_pos hR, len_one (dot_dir _ _), mul_one]
  choose g hg using fun days : ℝ => show ∃ T, SeenAfter p v days T by
    obtain ⟨T, hT, -⟩ := hrep (ep0 + days / 365.25)
    exact ⟨T, by rwa [show (ep0 + days / 365.25 - ep0) * 365.25 = days by ring] at hT⟩
  have hg0 : g 0 = 0 := seen_unique hlv (hg 0) (seen_zero p v)
  have hk0 : 0 < 1 - len v / lightSpeed := by rw [sub_pos, div_lt_one hc]; exact hlv
  have hcont : ContinuousAt g 0 := by
    rw [Metric.continuousAt_iff]
    intro e he
    refine ⟨(1 - len v / lightSpeed) * e, mul_pos hk0 he, fun {x} hx => ?_⟩
    have := seen_gap (hg x) (hg 0)
    rw [Real.dist_eq] at hx ⊢
    exact lt_of_mul_lt_mul_left (lt_of_le_of_lt this hx) hk0.le
  -- the distance as a function of the time of emission
  have hdot0 : dot p v = distance px * (lightSpeed * ρ) := by rw [hp, dot_smul_left, dot_comm, hvr]
  have hlen : HasDerivAt (fun T => len (fun i => p i + T * v i)) (lightSpeed * ρ) 0 := by
    have e : (fun T => len (fun i => p i + T * v i)) = fun T => √(dot p p + T * (2 * dot p v) + T * T * dot v v) := by
      funext T
      rw [len_eq]
      congr 1
      rw [dot_add_left, dot_add_right, dot_add_right]
      simp only [dot_smul_left, dot_smul_right]
      rw [dot_comm v p]; ring
    rw [e]
    have hd : HasDerivAt (fun T : ℝ => dot p p + T * (2 * dot p v) + T * T * dot v v) (2 * dot p v) 0 := by
      have := (((hasDerivAt_id (0 : ℝ)).mul_const (2 * dot p v)).const_add (dot p p)).add (((hasDerivAt_id (0 : ℝ)).mul (hasDerivAt_id (0 : ℝ))).mul_const (dot v v))
      exact this.congr_deriv (by simp)
    have hpp : dot p p = distance px * distance px := by rw [← len_sq, hlp]
    have hs := hd.sqrt (by rw [zero_mul, zero_mul, zero_mul, add_zero, add_zero, hpp]; positivity)
    refine hs.congr_deriv ?_
    rw [zero_mul, zero_mul, zero_mul, add_zero, add_zero, hpp, Real.sqrt_mul_self hR.le, hdot0]
    field_simp
  have hG : HasDerivAt (fun T => T + len (fun i => p i + T * v i) / lightSpeed - len p / lightSpeed) (1 + ρ) (g 0) := by
    rw [hg0]
    exact (((hasDerivAt_id (0 : ℝ)).add (hlen.div_const lightSpeed)).sub_const _).congr_deriv (by field_simp)
  have hρ : 0 < 1 + ρ := by norm_num at h4; linarith
  have hgd : HasDerivAt g (1 + ρ)⁻¹ 0 := HasDerivAt.of_local_left_inverse hcont hG hρ.ne' (Filter.Eventually.of_forall fun y => by
    have := hg y
    unfold SeenAfter at this
    linarith)
  refine ⟨d / (1 + ρ), ?_, fun i => ?_⟩
  · rw [show d / (1 + ρ) - 1 = -((1 + ρ - d) / (1 + ρ)) by field_simp; ring, abs_neg, abs_div, abs_of_pos hρ, div_le_iff₀ hρ]
    norm_num at h4 h7 ⊢
    linarith
  · have e : (fun ep1 => shown (palPm r0 d0 pr pd px rv ep0 ep1) i) = fun ep1 => (p i + g ((ep1 - ep0) * 365.25) * v i) / len (fun i => p i + g ((ep1 - ep0) * 365.25) * v i) := by
      funext ep1
      exact shown_eq hlv (hrep ep1) (hg _) i
    rw [e]
    have hlin : HasDerivAt (fun ep1 : ℝ => (ep1 - ep0) * 365.25) 365.25 ep0 := by
      exact (((hasDerivAt_id ep0).sub_const ep0).mul_const 365.25).congr_deriv (by simp)
    have hz : (ep0 - ep0) * 365.25 = 0 := by ring
    have hgc : HasDerivAt (fun ep1 : ℝ => g ((ep1 - ep0) * 365.25)) ((1 + ρ)⁻¹ * 365.25) ep0 := by
      have : HasDerivAt g (1 + ρ)⁻¹ ((ep0 - ep0) * 365.25) := by rw [hz]; exact hgd
      exact this.comp ep0 hlin
    have hgz : g ((ep0 - ep0) * 365.25) = 0 := by rw [hz, hg0]
    have hlc : HasDerivAt (fun ep1 : ℝ => len (fun i => p i + g ((ep1 - ep0) * 365.25) * v i)) (lightSpeed * ρ * ((1 + ρ)⁻¹ * 365.25)) ep0 := by
      have : HasDerivAt (fun T => len (fun i => p i + T * v i)) (lightSpeed * ρ) (g ((ep0 - ep0) * 365.25)) := by rw [hgz]; exact hlen
      have h := HasDerivAt.comp (h₂ := fun T => len (fun i => p i + T * v i)) (h := fun ep1 : ℝ => g ((ep1 - ep0) * 365.25)) ep0 this hgc
      exact h
    have hl0 : len (fun i => p i + g ((ep0 - ep0) * 365.25) * v i) = distance px := by
      rw [hgz]; simp only [zero_mul, add_zero]; exact hlp
    refine (((hgc.mul_const (v i)).const_add (p i)).div hlc (by rw [hl0]; exact hR.ne')).congr_deriv ?_
    rw [hl0, hgz, zero_mul, add_zero, hp, hve]
    have := hρ.ne'
    have := hR.ne'
    field_simp
    ring

/-- A star like that of the test program: well below a tenth of the speed of light. -/
theorem slow_star : apparentSpeed 5.43 (-0.87) (-0.33e-5) 0.77e-5 0.7 50.3 ≤ lightSpeed / 10 := by
  have hm : len (properMotion 5.43 (-0.87) (-0.33e-5) 0.77e-5) ≤ 1.2e-5 := by
    have h1 := len_add_le (fun i => -0.33e-5 * cos (-0.87) * eastAt 5.43 i) (fun i => 0.77e-5 * northAt 5.43 (-0.87) i)
    rw [len_smul, len_smul] at h1
    have e1 : len (eastAt 5.43) = 1 := len_one (by rw [dot_eq]; simp [eastAt]; linear_combination sin_sq_add_cos_sq (5.43 : ℝ))
    have e2 : len (northAt 5.43 (-0.87)) = 1 := len_one (by
      rw [dot_eq]; simp only [northAt]
      have h1 := sin_sq_add_cos_sq (5.43 : ℝ)
      have h2 := sin_sq_add_cos_sq (0.87 : ℝ)
      simp
      linear_combination sin 0.87 ^ 2 * h1 + h2)
    rw [e1, e2, mul_one, mul_one, abs_mul] at h1
    have h2 := abs_cos_le_one (-0.87)
    have h3 : |(-0.33e-5 : ℝ)| = 0.33e-5 := by rw [abs_of_neg (by norm_num)]; norm_num
    have h4 : |(0.77e-5 : ℝ)| = 0.77e-5 := abs_of_pos (by norm_num)
    rw [h3, h4] at h1
    unfold properMotion
    norm_num at h1 h2 ⊢
    linarith
  have hd : distance 0.7 ≤ 300000 := by
    unfold distance
    rw [max_eq_left (by norm_num), div_le_iff₀ (by norm_num), div_le_iff₀ pi_pos]
    have := pi_gt_d4
    norm_num at this ⊢
    linarith
  unfold apparentSpeed
  rw [Real.sqrt_le_iff]
  refine ⟨by linarith [light_pos], ?_⟩
  have h1 : distance 0.7 * len (properMotion 5.43 (-0.87) (-0.33e-5) 0.77e-5) / 365.25 ≤ 1 := by
    rw [div_le_iff₀ (by norm_num)]
    have := mul_le_mul hd hm (len_nonneg _) (by norm_num)
    norm_num at this ⊢
    linarith
  have h0 : 0 ≤ distance 0.7 * len (properMotion 5.43 (-0.87) (-0.33e-5) 0.77e-5) / 365.25 := div_nonneg (mul_nonneg (distance_pos _).le (len_nonneg _)) (by norm_num)
  have h2 := pow_le_pow_left₀ h0 h1 2
  have h3 : radial 50.3 ^ 2 ≤ 1 := by unfold radial; norm_num
  have h4 : (2 : ℝ) ≤ (lightSpeed / 10) ^ 2 := by unfold lightSpeed; norm_num
  linarith

example : ∃ q : ℝ, |q - 1| ≤ 1e-38 ∧ ∀ i, HasDerivAt (fun ep1 => shown (palPm 5.43 (-0.87) (-0.33e-5) 0.77e-5 0.7 50.3 1899 ep1) i) (q * properMotion 5.43 (-0.87) (-0.33e-5) 0.77e-5 i) 1899 :=
  C96_rate _ _ _ _ _ _ _ slow_star

example : ∃ (v : Vec3) (ρ d : ℝ), (v = fun i => lightSpeed * ρ * dir 5.43 (-0.87) i + d * (distance 0.7 / 365.25 * properMotion 5.43 (-0.87) (-0.33e-5) 0.77e-5 i)) ∧ 0 < d ∧ len v < lightSpeed ∧
      ∀ ep1, Reports (fun i => distance 0.7 * dir 5.43 (-0.87) i) v ((ep1 - 1899) * 365.25) (palPm 5.43 (-0.87) (-0.33e-5) 0.77e-5 0.7 50.3 1899 ep1) :=
  C96_track _ _ _ _ _ _ _ (slow_star.trans (by linarith [light_pos]))

/-- Barnard's star without its parallax: its ten arcseconds a year are ignored. -/
example : ∃ r d, palPm 0 0 0 5e-5 0 0 2000 2100 = some (r, d) ∧ r ∈ Set.Ico 0 (2 * π) ∧ |d| ≤ π / 2 ∧ dir r d = dir 0 0 :=
  C96_no_parallax _ _ _ _ _ _ _ _ (by norm_num) (by
    have : properMotion 0 0 0 5e-5 = fun i => 5e-5 * northAt 0 0 i := by funext i; unfold properMotion; ring
    rw [this, len_smul, abs_of_pos (by norm_num), len_one (by rw [dot_eq]; simp [northAt])]
    norm_num)

example : ∃ r d, palPm 0 0 0 1e-9 0.1 10 2000 2100 = some (r, d) ∧ r ∈ Set.Ico 0 (2 * π) ∧ |d| ≤ π / 2 :=
  C96_always _ _ _ _ _ _ _ _ (fun h => by
    have := congrFun h 2
    simp [properMotion, northAt, eastAt] at this
    norm_num at this)

/-- A star approaching at 100 km/s. -/
example : ∃ ep1, palPm 1 0.5 0 0 0.1 (-100) 2000 ep1 = none := C96_unset _ _ _ _ _ (by norm_num) (by unfold radial lightSpeed; norm_num)

end Pal.Props
