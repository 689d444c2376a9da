import Verif.Model.FlFk524
import Verif.Lemmas.FlFk4
import Verif.Lemmas.FlFit
import Verif.Lemmas.FlAop
import Verif.Lemmas.FlPcd5
import Verif.Props.FkEpoch

/-! Rounding errors of palFk524. -/

namespace Pal
open Real Pal.Spec Pal.Props

variable {fl : ℝ → ℝ} {L : Libm}

/-- The radial motion `PAL__VF*rv*px` in double precision. -/
theorem flRadial_err (R : Rounding fl) {a b kw : ℝ} (h3 : |21.095 * a * b| ≤ kw) (ha : |a| ≤ 10 ^ 10) (hb : |b| ≤ 10 ^ 10) (hk : kw ≤ 10 ^ 4) : |fl (fl (fl 21.095 * a) * b) - 21.095 * a * b| ≤ 3.34e-16 * kw + 1e-170 := by
  have r0 : 0 ≤ |a| := abs_nonneg a
  have p0 : 0 ≤ |b| := abs_nonneg b
  have c : |fl 21.095 - 21.095| ≤ 1.1103e-16 * 21.095 + 1 / 10 ^ 200 := by
    have := R.errL (x := 21.095) (by norm_num); rwa [abs_of_pos (by norm_num : (0 : ℝ) < 21.095)] at this
  have m1 : |fl 21.095 * a - 21.095 * a| ≤ (1.1103e-16 * 21.095 + 1 / 10 ^ 200) * |a| := by
    rw [← sub_mul, abs_mul]; exact mul_le_mul_of_nonneg_right c r0
  have t0 : |(21.095 : ℝ) * a| = 21.095 * |a| := by rw [abs_mul, abs_of_pos (by norm_num)]
  have t1 := abs_sub_abs_le_abs_sub (fl 21.095 * a) (21.095 * a)
  rw [t0] at t1
  have kw' : 21.095 * |a| * |b| ≤ kw := by
    rwa [abs_mul, abs_mul, abs_of_pos (by norm_num : (0 : ℝ) < 21.095)] at h3
  have m3 : |fl (fl 21.095 * a) - 21.095 * a| ≤ 2.2207e-16 * (21.095 * |a|) + 1e-189 := by
    have m2 := R.errL (x := fl 21.095 * a) (by
      generalize |fl 21.095 * a| = X at *
      generalize |fl 21.095 * a - 21.095 * a| = Y at *
      generalize |a| = A at *
      norm_num at m1 t1 ha ⊢; linarith)
    have t2 := abs_sub_le (fl (fl 21.095 * a)) (fl 21.095 * a) (21.095 * a)
    generalize |fl 21.095 * a| = X at *
    generalize |fl 21.095 * a - 21.095 * a| = Y at *
    generalize |fl (fl 21.095 * a) - fl 21.095 * a| = Z at *
    generalize |fl (fl 21.095 * a) - 21.095 * a| = W at *
    generalize |a| = A at *
    norm_num at m1 m2 t1 t2 ha ⊢; linarith
  have m4 : |fl (fl 21.095 * a) * b - 21.095 * a * b| ≤ 2.2207e-16 * kw + 1e-179 := by
    rw [← sub_mul, abs_mul]
    have q := mul_le_mul_of_nonneg_right m3 p0
    rw [show (2.2207e-16 * (21.095 * |a|) + 1e-189) * |b| = 2.2207e-16 * (21.095 * |a| * |b|) + 1e-189 * |b| by ring] at q
    generalize |fl (fl 21.095 * a) - 21.095 * a| * |b| = X at *
    generalize 21.095 * |a| * |b| = Y at *
    generalize |b| = B at *
    norm_num at q kw' hb ⊢; linarith
  have k0 := (abs_nonneg _).trans h3
  exact R.add_err2 (δ := 2.2207e-16 * kw + 1e-179) (B := kw) _ m4 h3 (by norm_num at hk ⊢; linarith) (by norm_num at hk ⊢; linarith)

/-- The motion of a star in double precision; `kr`, `kd`, `kw` bound the proper motions and the radial motion (arcsec per century). -/
theorem flFkMotion_err (R : Rounding fl) (hL : LibmOK L) (s : Star) {kr kd kw : ℝ} (h1 : |s.dr * palPMF| ≤ kr) (h2 : |s.dd * palPMF| ≤ kd) (h3 : |21.095 * s.rv * s.px| ≤ kw) (hk : kr + kd + kw ≤ 10 ^ 4)
    (hv : |s.rv| ≤ 10 ^ 10) (hp : |s.px| ≤ 10 ^ 10) (i : Fin 3) :
    |flFkMotion fl L s i - centuryMotion s i| ≤ 1.3e-15 * (kr + kd + kw) + 1e-165 ∧ |centuryMotion s i| ≤ kr + kd + kw := by
  have k0 := (abs_nonneg _).trans h1
  have k1 := (abs_nonneg _).trans h2
  have k2 := (abs_nonneg _).trans h3
  obtain ⟨pm, pm1, pm2⟩ := flPMF_near R
  have pp : 0 < palPMF := pm.pos
  have mo : ∀ x k : ℝ, |x * palPMF| ≤ k → k ≤ 10 ^ 4 → |fl (x * flPMF fl) - x * palPMF| ≤ 3.62e-16 * k + 1e-180 := fun x k hx hk => by
    have e1 : |x * flPMF fl - x * palPMF| ≤ 2.5e-16 * k := by
      rw [← mul_sub, abs_mul]
      have := mul_le_mul_of_nonneg_left pm.err (abs_nonneg x)
      rw [abs_mul, abs_of_pos pp] at hx
      nlinarith
    have k0 := (abs_nonneg _).trans hx
    exact R.add_err2 (δ := 2.5e-16 * k) (B := k) _ e1 hx (by norm_num at hk ⊢; linarith) (by norm_num at hk ⊢; linarith)
  have ur := mo s.dr kr h1 (by linarith)
  have ud := mo s.dd kd h2 (by linarith)
  have w := flRadial_err R h3 hv hp (by linarith)
  obtain ⟨U, hU⟩ : ∃ U, U = s.dr * palPMF := ⟨_, rfl⟩
  obtain ⟨D, hD⟩ : ∃ D, D = s.dd * palPMF := ⟨_, rfl⟩
  obtain ⟨W, hW⟩ : ∃ W, W = 21.095 * s.rv * s.px := ⟨_, rfl⟩
  obtain ⟨u, hu⟩ : ∃ u, u = fl (s.dr * flPMF fl) := ⟨_, rfl⟩
  obtain ⟨v, hv'⟩ : ∃ v, v = fl (s.dd * flPMF fl) := ⟨_, rfl⟩
  obtain ⟨x, hx⟩ : ∃ x, x = fl (fl (fl 21.095 * s.rv) * s.px) := ⟨_, rfl⟩
  rw [← hU] at h1 ur
  rw [← hD] at h2 ud
  rw [← hW] at h3 w
  rw [← hu] at ur
  rw [← hv'] at ud
  rw [← hx] at w
  have cm : centuryMotion s = ![-U * (sin s.r * cos s.d) - cos s.r * sin s.d * D + W * (cos s.r * cos s.d), U * (cos s.r * cos s.d) - sin s.r * sin s.d * D + W * (sin s.r * cos s.d), cos s.d * D + W * sin s.d] := by
    unfold centuryMotion
    rw [← pmf_eq, hU, hD, hW]
    funext i; fin_cases i <;> simp [dir, eastAt, northAt] <;> ring
  rw [cm]
  have fm : flFkMotion fl L s = ![fl (fl (fl (-u * fl (L.sin s.r * L.cos s.d)) - fl (fl (L.cos s.r * L.sin s.d) * v)) + fl (x * fl (L.cos s.r * L.cos s.d))),
      fl (fl (fl (u * fl (L.cos s.r * L.cos s.d)) - fl (fl (L.sin s.r * L.sin s.d) * v)) + fl (x * fl (L.sin s.r * L.cos s.d))), fl (fl (L.cos s.d * v) + fl (x * L.sin s.d))] := by
    rw [hu, hv', hx]; rfl
  rw [fm]
  have s1 := hL.sin s.r
  have s2 := hL.cos s.r
  have s3 := hL.sin s.d
  have s4 := hL.cos s.d
  have a1 := abs_sin_le_one s.r
  have a2 := abs_cos_le_one s.r
  have a3 := abs_sin_le_one s.d
  have a4 := abs_cos_le_one s.d
  have tri : ∀ {p q P Q : ℝ}, |p - P| ≤ 2.3e-16 → |q - Q| ≤ 2.3e-16 → |P| ≤ 1 → |Q| ≤ 1 → |fl (p * q) - P * Q| ≤ 5.72e-16 ∧ |P * Q| ≤ 1 := fun h h' b b' =>
    ⟨R.mulB 5.72e-16 h h' b b' (by norm_num) (by norm_num), (mul_bd b b').trans (by norm_num)⟩
  obtain ⟨c1, c1b⟩ := tri s1 s4 a1 a4
  obtain ⟨c2, c2b⟩ := tri s2 s4 a2 a4
  obtain ⟨c3, c3b⟩ := tri s2 s3 a2 a3
  obtain ⟨c4, c4b⟩ := tri s1 s3 a1 a3
  have pr : ∀ {m M κ p P : ℝ}, |m - M| ≤ 3.62e-16 * κ + 1e-170 → |M| ≤ κ → κ ≤ 10 ^ 4 → |p - P| ≤ 5.72e-16 → |P| ≤ 1 → |fl (m * p) - M * P| ≤ 1.0455e-15 * κ + 1e-169 ∧ |M * P| ≤ κ := fun {m M κ p P} h b hk h' b' => by
    have k0 := (abs_nonneg _).trans b
    exact ⟨R.mulB _ h h' b b' (by norm_num at hk ⊢; linarith) (by norm_num at hk ⊢; linarith), (mul_bd b b').trans (by linarith)⟩
  have ur' : |u - U| ≤ 3.62e-16 * kr + 1e-170 := ur.trans (by norm_num)
  have ud' : |v - D| ≤ 3.62e-16 * kd + 1e-170 := ud.trans (by norm_num)
  have w' : |x - W| ≤ 3.62e-16 * kw + 1e-170 := w.trans (by norm_num; linarith)
  have nr : |-u - -U| ≤ 3.62e-16 * kr + 1e-170 := by rw [show -u - -U = -(u - U) by ring, abs_neg]; exact ur'
  have nb : |-U| ≤ kr := by rwa [abs_neg]
  have hr : kr ≤ 10 ^ 4 := by linarith
  have hd : kd ≤ 10 ^ 4 := by linarith
  have hw : kw ≤ 10 ^ 4 := by linarith
  fin_cases i
  · obtain ⟨d1, d1b⟩ := pr nr nb hr c1 c1b
    obtain ⟨d2, d2b⟩ := pr ud' h2 hd c3 c3b
    rw [mul_comm v, mul_comm D] at d2
    rw [mul_comm D] at d2b
    obtain ⟨d3, d3b⟩ := pr w' h3 hw c2 c2b
    obtain ⟨e1, e1b⟩ := R.subB (1.157e-15 * (kr + kd) + 1e-169 * 3) d1 d2 d1b d2b (by norm_num at hk ⊢; linarith) (by norm_num at hk ⊢; linarith)
    exact R.addB (1.3e-15 * (kr + kd + kw) + 1e-165) e1 d3 e1b d3b (by norm_num at hk ⊢; linarith) (by norm_num at hk ⊢; linarith)
  · obtain ⟨d1, d1b⟩ := pr ur' h1 hr c2 c2b
    obtain ⟨d2, d2b⟩ := pr ud' h2 hd c4 c4b
    rw [mul_comm v, mul_comm D] at d2
    rw [mul_comm D] at d2b
    obtain ⟨d3, d3b⟩ := pr w' h3 hw c1 c1b
    obtain ⟨e1, e1b⟩ := R.subB (1.157e-15 * (kr + kd) + 1e-169 * 3) d1 d2 d1b d2b (by norm_num at hk ⊢; linarith) (by norm_num at hk ⊢; linarith)
    exact R.addB (1.3e-15 * (kr + kd + kw) + 1e-165) e1 d3 e1b d3b (by norm_num at hk ⊢; linarith) (by norm_num at hk ⊢; linarith)
  · have s3' : |L.sin s.d - sin s.d| ≤ 5.72e-16 := s3.trans (by norm_num)
    have s4' : |L.cos s.d - cos s.d| ≤ 5.72e-16 := s4.trans (by norm_num)
    obtain ⟨d2, d2b⟩ := pr ud' h2 hd s4' a4
    rw [mul_comm v, mul_comm D] at d2
    rw [mul_comm D] at d2b
    obtain ⟨d3, d3b⟩ := pr w' h3 hw s3' a3
    obtain ⟨e1, e1b⟩ := R.addB (1.3e-15 * (kr + kd + kw) + 1e-165) d2 d3 d2b d3b (by norm_num at hk ⊢; linarith) (by norm_num at hk ⊢; linarith)
    exact ⟨e1, e1b.trans (by linarith)⟩

theorem three (n : Fin 3) : n = 0 ∨ n = 1 ∨ n = 2 := by revert n; decide

theorem emiPP_bd (i : Fin 3) : |emiPP i i| ≤ 1 ∧ ∀ j, j ≠ i → |emiPP i j| ≤ 0.0112 := by
  refine ⟨?_, fun j hj => ?_⟩
  · fin_cases i <;> norm_num [emiPP, abs_le]
  · fin_cases i <;> fin_cases j <;> first | exact absurd rfl hj | norm_num [emiPP, abs_le]

theorem emiPP_one (j i : Fin 3) : |emiPP j i| ≤ 1 := by
  by_cases h : i = j
  · rw [h]; exact (emiPP_bd j).1
  · exact ((emiPP_bd j).2 i h).trans (by norm_num)

theorem emiVV_bd (i : Fin 3) : |emiVV i i| ≤ 1 ∧ ∀ j, j ≠ i → |emiVV i j| ≤ 0.0112 := by
  refine ⟨?_, fun j hj => ?_⟩
  · fin_cases i <;> norm_num [emiVV, abs_le]
  · fin_cases i <;> fin_cases j <;> first | exact absurd rfl hj | norm_num [emiVV, abs_le]

theorem emiPV_bd (i j : Fin 3) : |emiPV i j| ≤ 2.43e-6 := by
  fin_cases i <;> fin_cases j <;> norm_num [emiPV, abs_le]

/-- The sum in the order of the loop, given the errors of the products. -/
theorem row6_exact (P V : Mat3) (p q : Vec3) (i : Fin 3) : (P.mulVec p + V.mulVec q) i = P i 0 * p 0 + P i 1 * p 1 + P i 2 * p 2 + V i 0 * q 0 + V i 1 * q 1 + V i 2 * q 2 := by
  simp [Matrix.mulVec, dotProduct, Fin.sum_univ_three]; ring

theorem row6_start (R : Rounding fl) {P : Mat3} {p : Vec3} {i : Fin 3} (h : |fl (P i 0) * p 0| ≤ 10 ^ 20) :
    flRxp fl (fun i j => fl (P i j)) p i = fl (fl (fl (fl (P i 0) * p 0) + fl (fl (P i 1) * p 1)) + fl (fl (P i 2) * p 2)) := by
  show fl (fl (fl (0 + fl (fl (P i 0) * p 0)) + _) + _) = _
  rw [zero_add, R.idem' h]

theorem small_of_err {x X ε M : ℝ} (h : |x - X| ≤ ε) (hX : |X| ≤ M) : |x| ≤ M + ε := by
  have := abs_sub_abs_le_abs_sub x X
  linarith

/-- The position after the matrix, in double precision. -/
theorem flRow6_pos (R : Rounding fl) {p P q Q : Vec3} {K : ℝ} (hp : ∀ i, |p i - P i| ≤ 5.8e-16) (hP : ∀ i, |P i| ≤ 1) (hq : ∀ i, |q i - Q i| ≤ 1.3e-15 * K + 1e-165) (hQ : ∀ i, |Q i| ≤ K) (hK : K ≤ 3900) (j : Fin 3) :
    |flRow6 fl emiPP emiPV p q j - (emiPP.mulVec P + emiPV.mulVec Q) j| ≤ 1.45e-15 := by
  have K0 := (abs_nonneg _).trans (hQ 0)
  obtain ⟨bd, bo⟩ := emiPP_bd j
  have cd : |fl (emiPP j j) - emiPP j j| ≤ 1.1104e-16 * 1 := R.cst _ bd (by norm_num) (by norm_num)
  have md := R.mulB 8.03e-16 cd (hp j) bd (hP j) (by norm_num) (by norm_num)
  have mdb := mul_bd bd (hP j)
  have co : ∀ i, i ≠ j → |fl (emiPP j i) - emiPP j i| ≤ 1.1104e-16 * 0.0112 := fun i h => R.cst _ (bo i h) (by norm_num) (by norm_num)
  have mo : ∀ i, i ≠ j → |fl (fl (emiPP j i) * p i) - emiPP j i * P i| ≤ 9.1e-18 ∧ |emiPP j i * P i| ≤ 0.0112 * 1 := fun i h =>
    ⟨R.mulB 9.1e-18 (co i h) (hp i) (bo i h) (hP i) (by norm_num) (by norm_num), mul_bd (bo i h) (hP i)⟩
  have cv : ∀ i, |fl (emiPV j i) - emiPV j i| ≤ 1.1104e-16 * 2.43e-6 := fun i => R.cst _ (emiPV_bd j i) (by norm_num) (by norm_num)
  have mv : ∀ i, |fl (fl (emiPV j i) * q i) - emiPV j i * Q i| ≤ 1.5e-17 := fun i => R.mulB _ (cv i) (hq i) (emiPV_bd j i) (hQ i) (by norm_num at hK ⊢; linarith) (by norm_num at hK ⊢; linarith)
  have mvb : ∀ i, |emiPV j i * Q i| ≤ 0.0095 := fun i => (mul_bd (emiPV_bd j i) (hQ i)).trans (by norm_num at hK ⊢; linarith)
  have st : |fl (emiPP j 0) * p 0| ≤ 10 ^ 20 := by
    have e1 := small_of_err (R.cst (emiPP j 0) (emiPP_one j 0) (by norm_num) (by norm_num)) (emiPP_one j 0)
    have e2 := small_of_err (hp 0) (hP 0)
    exact (mul_bd e1 e2).trans (by norm_num)
  rw [row6_exact]
  show |fl (fl (fl (flRxp fl (fun i j => fl (emiPP i j)) p j + _) + _) + _) - _| ≤ _
  rw [row6_start R st]
  rcases three j with rfl | rfl | rfl
  · obtain ⟨s0, s0b⟩ := R.addB 9.2484e-16 md (mo 1 (by decide)).1 mdb (mo 1 (by decide)).2 (by norm_num) (by norm_num)
    obtain ⟨s1, s1b⟩ := R.addB 1.0475e-15 s0 (mo 2 (by decide)).1 s0b (mo 2 (by decide)).2 (by norm_num) (by norm_num)
    obtain ⟨s2, s2b⟩ := R.addB 1.1772e-15 s1 (mv 0) s1b (mvb 0) (by norm_num) (by norm_num)
    obtain ⟨s3, s3b⟩ := R.addB 1.3079e-15 s2 (mv 1) s2b (mvb 1) (by norm_num) (by norm_num)
    obtain ⟨s4, s4b⟩ := R.addB 1.4396e-15 s3 (mv 2) s3b (mvb 2) (by norm_num) (by norm_num)
    exact s4.trans (by norm_num)
  · obtain ⟨s0, s0b⟩ := R.addB 9.2484e-16 (mo 0 (by decide)).1 md (mo 0 (by decide)).2 mdb (by norm_num) (by norm_num)
    obtain ⟨s1, s1b⟩ := R.addB 1.0475e-15 s0 (mo 2 (by decide)).1 s0b (mo 2 (by decide)).2 (by norm_num) (by norm_num)
    obtain ⟨s2, s2b⟩ := R.addB 1.1772e-15 s1 (mv 0) s1b (mvb 0) (by norm_num) (by norm_num)
    obtain ⟨s3, s3b⟩ := R.addB 1.3079e-15 s2 (mv 1) s2b (mvb 1) (by norm_num) (by norm_num)
    obtain ⟨s4, s4b⟩ := R.addB 1.4396e-15 s3 (mv 2) s3b (mvb 2) (by norm_num) (by norm_num)
    exact s4.trans (by norm_num)
  · obtain ⟨s0, s0b⟩ := R.addB 2.0698e-17 (mo 0 (by decide)).1 (mo 1 (by decide)).1 (mo 0 (by decide)).2 (mo 1 (by decide)).2 (by norm_num) (by norm_num)
    obtain ⟨s1, s1b⟩ := R.addB 9.3768e-16 s0 md s0b mdb (by norm_num) (by norm_num)
    obtain ⟨s2, s2b⟩ := R.addB 1.0673e-15 s1 (mv 0) s1b (mvb 0) (by norm_num) (by norm_num)
    obtain ⟨s3, s3b⟩ := R.addB 1.1980e-15 s2 (mv 1) s2b (mvb 1) (by norm_num) (by norm_num)
    obtain ⟨s4, s4b⟩ := R.addB 1.3298e-15 s3 (mv 2) s3b (mvb 2) (by norm_num) (by norm_num)
    exact s4.trans (by norm_num)

/-- The velocity after the matrix, in double precision. -/
theorem flRow6_vel (R : Rounding fl) {p P q Q : Vec3} {K : ℝ} (hp : ∀ i, |p i - P i| ≤ 5.8e-16) (hP : ∀ i, |P i| ≤ 1) (hq : ∀ i, |q i - Q i| ≤ 1.3e-15 * K + 1e-165) (hQ : ∀ i, |Q i| ≤ K) (hK : K ≤ 3900) (j : Fin 3) :
    |flRow6 fl emiVP emiVV p q j - (emiVP.mulVec P + emiVV.mulVec Q) j| ≤ 1.76e-15 + 1.92e-15 * K ∧ |(emiVP.mulVec P + emiVV.mulVec Q) j| ≤ 1.31 + 1.03 * K := by
  have K0 := (abs_nonneg _).trans (hQ 0)
  obtain ⟨bd, bo⟩ := emiVV_bd j
  have cd : |fl (emiVV j j) - emiVV j j| ≤ 1.1104e-16 * 1 := R.cst _ bd (by norm_num) (by norm_num)
  have md := R.mulB (1.5221e-15 * K + 1e-164) cd (hq j) bd (hQ j) (by norm_num at hK ⊢; linarith) (by norm_num at hK ⊢; linarith)
  have mdb := mul_bd bd (hQ j)
  have co : ∀ i, i ≠ j → |fl (emiVV j i) - emiVV j i| ≤ 1.1104e-16 * 0.0112 := fun i h => R.cst _ (bo i h) (by norm_num) (by norm_num)
  have mo : ∀ i, i ≠ j → |fl (fl (emiVV j i) * q i) - emiVV j i * Q i| ≤ 1.71e-17 * K + 1e-164 ∧ |emiVV j i * Q i| ≤ 0.0112 * K := fun i h =>
    ⟨R.mulB _ (co i h) (hq i) (bo i h) (hQ i) (by norm_num at hK ⊢; linarith) (by norm_num at hK ⊢; linarith), mul_bd (bo i h) (hQ i)⟩
  have cv : ∀ i, |fl (emiVP j i) - emiVP j i| ≤ 1.1104e-16 * 0.436 := fun i => R.cst _ (emiVP_big j i) (by norm_num) (by norm_num)
  have mv : ∀ i, |fl (fl (emiVP j i) * p i) - emiVP j i * P i| ≤ 3.51e-16 := fun i => R.mulB _ (cv i) (hp i) (emiVP_big j i) (hP i) (by norm_num) (by norm_num)
  have mvb : ∀ i, |emiVP j i * P i| ≤ 0.436 * 1 := fun i => mul_bd (emiVP_big j i) (hP i)
  have st : |fl (emiVP j 0) * p 0| ≤ 10 ^ 20 := by
    have e1 := small_of_err (R.cst (emiVP j 0) (emiVP_big j 0) (by norm_num) (by norm_num)) (emiVP_big j 0)
    have e2 := small_of_err (hp 0) (hP 0)
    exact (mul_bd e1 e2).trans (by norm_num)
  rw [row6_exact]
  show |fl (fl (fl (flRxp fl (fun i j => fl (emiVP i j)) p j + _) + _) + _) - _| ≤ _ ∧ _
  rw [row6_start R st]
  obtain ⟨s0, s0b⟩ := R.addB 7.99e-16 (mv 0) (mv 1) (mvb 0) (mvb 1) (by norm_num) (by norm_num)
  obtain ⟨s1, s1b⟩ := R.addB 1.296e-15 s0 (mv 2) s0b (mvb 2) (by norm_num) (by norm_num)
  rcases three j with rfl | rfl | rfl
  · obtain ⟨s2, s2b⟩ := R.addB (1.4421e-15 + 1.6341e-15 * K) s1 md s1b mdb (by norm_num at hK ⊢; linarith) (by norm_num at hK ⊢; linarith)
    obtain ⟨s3, s3b⟩ := R.addB (1.5886e-15 + 1.7649e-15 * K) s2 (mo 1 (by decide)).1 s2b (mo 1 (by decide)).2 (by norm_num at hK ⊢; linarith) (by norm_num at hK ⊢; linarith)
    obtain ⟨s4, s4b⟩ := R.addB (1.7351e-15 + 1.8970e-15 * K) s3 (mo 2 (by decide)).1 s3b (mo 2 (by decide)).2 (by norm_num at hK ⊢; linarith) (by norm_num at hK ⊢; linarith)
    exact ⟨s4.trans (by norm_num; linarith), s4b.trans (by norm_num; linarith)⟩
  · obtain ⟨s2, s2b⟩ := R.addB (1.4421e-15 + 1.8355e-17 * K) s1 (mo 0 (by decide)).1 s1b (mo 0 (by decide)).2 (by norm_num at hK ⊢; linarith) (by norm_num at hK ⊢; linarith)
    obtain ⟨s3, s3b⟩ := R.addB (1.5886e-15 + 1.6537e-15 * K) s2 md s2b mdb (by norm_num at hK ⊢; linarith) (by norm_num at hK ⊢; linarith)
    obtain ⟨s4, s4b⟩ := R.addB (1.7351e-15 + 1.7857e-15 * K) s3 (mo 2 (by decide)).1 s3b (mo 2 (by decide)).2 (by norm_num at hK ⊢; linarith) (by norm_num at hK ⊢; linarith)
    exact ⟨s4.trans (by norm_num; linarith), s4b.trans (by norm_num; linarith)⟩
  · obtain ⟨s2, s2b⟩ := R.addB (1.4421e-15 + 1.8355e-17 * K) s1 (mo 0 (by decide)).1 s1b (mo 0 (by decide)).2 (by norm_num at hK ⊢; linarith) (by norm_num at hK ⊢; linarith)
    obtain ⟨s3, s3b⟩ := R.addB (1.5886e-15 + 3.7968e-17 * K) s2 (mo 1 (by decide)).1 s2b (mo 1 (by decide)).2 (by norm_num at hK ⊢; linarith) (by norm_num at hK ⊢; linarith)
    obtain ⟨s4, s4b⟩ := R.addB (1.7351e-15 + 1.6746e-15 * K) s3 md s3b mdb (by norm_num at hK ⊢; linarith) (by norm_num at hK ⊢; linarith)
    exact ⟨s4.trans (by norm_num; linarith), s4b.trans (by norm_num; linarith)⟩

theorem centuryMotion_len (s : Star) {kr kd kw : ℝ} (h1 : |s.dr * palPMF| ≤ kr) (h2 : |s.dd * palPMF| ≤ kd) (h3 : |21.095 * s.rv * s.px| ≤ kw) : len (centuryMotion s) ≤ kr + kd + kw := by
  have k0 := (abs_nonneg _).trans h1
  have e : centuryMotion s = fun i => (s.dr * palPMF * cos s.d * eastAt s.r i + s.dd * palPMF * northAt s.r s.d i) + 21.095 * s.rv * s.px * dir s.r s.d i := by
    unfold centuryMotion; rw [← pmf_eq]; funext i; ring
  have l1 : len (eastAt s.r) = 1 := by
    apply len_one; rw [dot_eq]; simp [eastAt]; nlinarith [sin_sq_add_cos_sq s.r]
  have l2 : len (northAt s.r s.d) = 1 := by
    apply len_one; rw [dot_eq]; simp [northAt]; nlinarith [sin_sq_add_cos_sq s.r, sin_sq_add_cos_sq s.d]
  rw [e]
  refine (len_add_le _ _).trans (add_le_add ((len_add_le _ _).trans (add_le_add ?_ ?_)) ?_)
  · rw [len_smul, l1, mul_one]; exact (mul_bd h1 (abs_cos_le_one s.d)).trans (by linarith)
  · rw [len_smul, l2, mul_one]; exact h2
  · rw [len_smul, len_one (dot_dir _ _), mul_one]; exact h3

theorem emiPV_len (a : Vec3) : len (emiPV.mulVec a) ≤ 2.506e-6 * len a := by
  have h : ∀ i j, |(emiPV + (2.424e-6 : ℝ) • (1 : Mat3)) i j| ≤ 2.72e-8 := by
    intro i j
    have t0 : emiPV 2 0 = 0.00000001177742 := rfl
    have t1 : emiPV 2 1 = 0.00000000006585 := rfl
    have t2 : emiPV 2 2 = -0.00000242404995 := rfl
    have o0 : emiPV 1 0 = 0.00000002710544 := rfl
    have o1 : emiPV 1 1 = -0.00000242392702 := rfl
    have o2 : emiPV 1 2 = 0.00000000006585 := rfl
    have z0 : emiPV 0 0 = -0.00000242389840 := rfl
    have z1 : emiPV 0 1 = -0.00000002710544 := rfl
    have z2 : emiPV 0 2 = -0.00000001177742 := rfl
    rw [Matrix.add_apply, Matrix.smul_apply, smul_eq_mul]
    rcases three i with rfl | rfl | rfl <;> rcases three j with rfl | rfl | rfl <;>
      norm_num [abs_le, Matrix.one_apply, show (2 : Fin 3) ≠ 0 by decide, show (2 : Fin 3) ≠ 1 by decide, show (0 : Fin 3) ≠ 2 by decide, show (1 : Fin 3) ≠ 2 by decide, t0, t1, t2, o0, o1, o2, z0, z1, z2]
  have l := len_mulVec_le h a
  have e : emiPV.mulVec a = fun i => (emiPV + (2.424e-6 : ℝ) • (1 : Mat3)).mulVec a i + (-2.424e-6) * a i := by
    rw [Matrix.add_mulVec, Matrix.smul_mulVec, Matrix.one_mulVec]; funext i; simp
  rw [e]
  refine (len_add_le _ _).trans ?_
  rw [len_smul]
  have n := len_nonneg a
  norm_num at l ⊢
  linarith

/-- Position, velocity and distance of the exact conversion: sizes. -/
theorem fk524_sizes (s : Star) {P2 : Vec3} {K : ℝ} (hP2 : P2 = emiPP.mulVec (dir s.r s.d) + emiPV.mulVec (centuryMotion s)) (hl : len (centuryMotion s) ≤ K) (hK : K ≤ 3900) :
    |len P2 - 1| ≤ 0.0098 ∧ |len (withEterms P2 fkA (len P2)) - 1| ≤ 0.0099 ∧ |len (withEterms P2 fkA (len (withEterms P2 fkA (len P2)))) - 1| ≤ 0.0099 := by
  have l1 := abs_le.1 (emi_len (p := dir s.r s.d) (len_one (dot_dir _ _)))
  have l2 := emiPV_len (centuryMotion s)
  have l3 : len (fun i => P2 i - emiPP.mulVec (dir s.r s.d) i) ≤ 0.009774 := by
    have : (fun i => P2 i - emiPP.mulVec (dir s.r s.d) i) = emiPV.mulVec (centuryMotion s) := by rw [hP2]; funext i; simp
    rw [this]; norm_num at *; linarith
  have l4 := abs_le.1 ((len_rev_tri P2 (emiPP.mulVec (dir s.r s.d))).trans l3)
  have b : |len P2 - 1| ≤ 0.0098 := by rw [abs_le]; constructor <;> norm_num at * <;> linarith
  have step : ∀ k, 0 ≤ k → k ≤ 1.02 → |len (withEterms P2 fkA k) - 1| ≤ 0.0099 := fun k k0 k1 => by
    have e : (fun i => withEterms P2 fkA k i - P2 i) = fun i => k * fkA i + -dot P2 fkA * P2 i := by funext i; unfold withEterms; ring
    have t := len_add_le (fun i => k * fkA i) (fun i => -dot P2 fkA * P2 i)
    rw [← e, len_smul, len_smul, abs_neg, abs_of_nonneg k0] at t
    have r := (len_rev_tri (withEterms P2 fkA k) P2).trans t
    have fa := fkA_len
    have fa0 := len_nonneg fkA
    have p0 := len_nonneg P2
    have dl := dot_le_len P2 fkA
    have b' := abs_le.1 b
    have p1 : len P2 ≤ 1.01 := by norm_num at b' ⊢; linarith
    have u1 : k * len fkA ≤ 1.02 * (1.7 / 10 ^ 6) := mul_le_mul k1 fa fa0 (by norm_num)
    have u2 : |dot P2 fkA| ≤ 1.01 * (1.7 / 10 ^ 6) := dl.trans (mul_le_mul p1 fa fa0 (by norm_num))
    have u3 : |dot P2 fkA| * len P2 ≤ 1.01 * (1.7 / 10 ^ 6) * 1.01 := mul_le_mul u2 p1 p0 (by norm_num)
    have r' := abs_le.1 (r.trans (add_le_add u1 u3))
    rw [abs_le]; constructor <;> norm_num at b' r' ⊢ <;> linarith
  have b' := abs_le.1 b
  have s1 := step (len P2) (len_nonneg _) (by norm_num at b' ⊢; linarith)
  have s1' := abs_le.1 s1
  exact ⟨b, s1, step _ (len_nonneg _) (by norm_num at s1' ⊢; linarith)⟩

/-- The E-terms applied to the position, in double precision. -/
theorem flFkPos_err (R : Rounding fl) {p P : Vec3} {k k' : ℝ} (hp : ∀ i, |p i - P i| ≤ 1.45e-15) (hP : len P ≤ 1.0098) (hk : |k - k'| ≤ 4e-15) (hk' : |k'| ≤ 1.01) (i : Fin 3) :
    |flFkPos fl p k i - withEterms P fkA k' i| ≤ 1.57e-15 := by
  have Pb : ∀ i, |P i| ≤ 1.0098 := fun i => (comp_le_len P i).trans hP
  have ab : ∀ i, |fkA i| ≤ 1.63e-6 := fun i => by fin_cases i <;> norm_num [fkA, abs_le]
  have aa := fun i => R.cst (fkA i) (M := 1.63e-6) (ab i) (by norm_num) (by norm_num)
  have m := fun i => R.mulB 2.9e-21 (hp i) (aa i) (Pb i) (ab i) (by norm_num) (by norm_num)
  have mb := fun i => mul_bd (Pb i) (ab i)
  obtain ⟨s1, s1b⟩ := R.addB 6.3e-21 (m 0) (m 1) (mb 0) (mb 1) (by norm_num) (by norm_num)
  obtain ⟨s2, s2b⟩ := R.addB 1e-20 s1 (m 2) s1b (mb 2) (by norm_num) (by norm_num)
  have n1 := R.mulB 2e-20 s2 (hp i) s2b (Pb i) (by norm_num) (by norm_num)
  have n1b := mul_bd s2b (Pb i)
  have n2 := R.mulB 1e-20 (aa i) hk (ab i) hk' (by norm_num) (by norm_num)
  have n2b := mul_bd (ab i) hk'
  obtain ⟨n3, n3b⟩ := R.subB 4e-20 n2 n1 n2b n1b (by norm_num) (by norm_num)
  obtain ⟨n4, -⟩ := R.addB 1.57e-15 (hp i) n3 (Pb i) n3b (by norm_num) (by norm_num)
  have e : withEterms P fkA k' i = P i + (fkA i * k' - (P 0 * fkA 0 + P 1 * fkA 1 + P 2 * fkA 2) * P i) := by unfold withEterms; rw [dot_eq]; ring
  rw [e]
  exact n4

theorem flRxyz_err (R : Rounding fl) {p P : Vec3} {e : ℝ} (hp : ∀ i, |p i - P i| ≤ e) (he : e ≤ 1.57e-15) (hP : len P ≤ 1.0099) : |flRxyz fl p - len P| ≤ 1.7321 * e + 5.3e-16 := by
  have l := len_le_of_comp hp
  have e0 := (abs_nonneg _).trans (hp 0)
  have t := abs_le.1 ((len_rev_tri p P).trans l)
  have b : len p ≤ 1.00991 := by norm_num at t he hP ⊢; linarith
  obtain ⟨-, h⟩ := flPm_err R p (b.trans (by norm_num))
  have h' : |flRxyz fl p - len p| ≤ 5.2e-16 * len p + 1 / 10 ^ 96 := h
  have h'' := abs_le.1 h'
  rw [abs_le]
  constructor <;> norm_num at t h'' b ⊢ <;> linarith

/-- Position, velocity and distance after the E-terms, in double precision. -/
theorem flFk524Vec_err (R : Rounding fl) (hL : LibmOK L) (s : Star) {kr kd kw K : ℝ} (h1 : |s.dr * palPMF| ≤ kr) (h2 : |s.dd * palPMF| ≤ kd) (h3 : |21.095 * s.rv * s.px| ≤ kw) (hK : K = kr + kd + kw) (hK1 : K ≤ 3900)
    (hv : |s.rv| ≤ 10 ^ 10) (hp : |s.px| ≤ 10 ^ 10) :
    (∀ i, |(flFk524Vec fl L s).1 i - (fk524Vec s).1 i| ≤ 1.57e-15) ∧ (∀ i, |(flFk524Vec fl L s).2.1 i - (fk524Vec s).2.1 i| ≤ 2.2e-15 + 2.2e-15 * K ∧ |(fk524Vec s).2.1 i| ≤ 1.32 + 1.03 * K) ∧
      |(flFk524Vec fl L s).2.2 - (fk524Vec s).2.2| ≤ 3.3e-15 ∧ |len (fk524Vec s).1 - 1| ≤ 0.0099 ∧ |(fk524Vec s).2.2 - 1| ≤ 0.0099 := by
  obtain ⟨P2, hP2⟩ : ∃ P2 : Vec3, P2 = emiPP.mulVec (dir s.r s.d) + emiPV.mulVec (centuryMotion s) := ⟨_, rfl⟩
  obtain ⟨Q2, hQ2⟩ : ∃ Q2 : Vec3, Q2 = emiVP.mulVec (dir s.r s.d) + emiVV.mulVec (centuryMotion s) := ⟨_, rfl⟩
  obtain ⟨k, hk⟩ : ∃ k, k = len (withEterms P2 fkA (len P2)) := ⟨_, rfl⟩
  obtain ⟨b1, b2, b3⟩ := fk524_sizes s hP2 ((centuryMotion_len s h1 h2 h3).trans hK.ge) hK1
  rw [← hk] at b2 b3
  rw [fk524Vec_eq s hP2 hQ2 hk]
  have mo := flFkMotion_err R hL s h1 h2 h3 (by rw [← hK]; exact hK1.trans (by norm_num)) hv hp
  rw [← hK] at mo
  have sc := flS2c_err R hL s.r s.d
  have K0 := (abs_nonneg _).trans (mo 0).2
  have p2 := flRow6_pos R sc (dir_le s.r s.d) (fun i => (mo i).1) (fun i => (mo i).2) hK1
  have q2 := flRow6_vel R sc (dir_le s.r s.d) (fun i => (mo i).1) (fun i => (mo i).2) hK1
  rw [← hP2] at p2
  rw [← hQ2] at q2
  obtain ⟨x, hx⟩ : ∃ x, x = flRow6 fl emiPP emiPV (flS2c fl L s.r s.d) (flFkMotion fl L s) := ⟨_, rfl⟩
  obtain ⟨y, hy⟩ : ∃ y, y = flRow6 fl emiVP emiVV (flS2c fl L s.r s.d) (flFkMotion fl L s) := ⟨_, rfl⟩
  rw [← hx] at p2
  rw [← hy] at q2
  have b1' := abs_le.1 b1
  have b2' := abs_le.1 b2
  have P1 : len P2 ≤ 1.0098 := by norm_num at b1' ⊢; linarith
  have r1 := flRxyz_err R p2 (by norm_num) (P1.trans (by norm_num))
  have lb : |len P2| ≤ 1.01 := by rw [abs_of_nonneg (len_nonneg _)]; exact P1.trans (by norm_num)
  have t1 := flFkPos_err R p2 P1 (r1.trans (by norm_num)) lb
  have r2 := flRxyz_err R t1 (by norm_num) (by rw [← hk]; norm_num at b2' ⊢; linarith)
  rw [← hk] at r2
  obtain ⟨m, hm⟩ : ∃ m, m = flRxyz fl (flFkPos fl x (flRxyz fl x)) := ⟨_, rfl⟩
  rw [← hm] at r2
  have kb : |k| ≤ 1.01 := by rw [abs_le]; constructor <;> norm_num at b2' ⊢ <;> linarith
  have r2' : |m - k| ≤ 3.3e-15 := r2.trans (by norm_num)
  have t2 := flFkPos_err R p2 P1 (r2'.trans (by norm_num)) kb
  have ev : flFk524Vec fl L s = (flFkPos fl x m, fun i => fl (fl (y i + fl (fl (fkAd i) * m)) - fl (flDot3 fl x (fun i => fl (fkAd i)) * flFkPos fl x m i)), m) := by
    rw [hm, hx, hy]; rfl
  rw [ev]
  refine ⟨t2, fun i => ?_, r2', b3, b2⟩
  have Pb : ∀ i, |P2 i| ≤ 1.0098 := fun i => (comp_le_len P2 i).trans P1
  have adb : ∀ i, |fkAd i| ≤ 1.58e-3 := fun i => by fin_cases i <;> norm_num [fkAd, abs_le]
  have ad := fun i => R.cst (fkAd i) (M := 1.58e-3) (adb i) (by norm_num) (by norm_num)
  have mm := fun i => R.mulB 2.7e-18 (p2 i) (ad i) (Pb i) (adb i) (by norm_num) (by norm_num)
  have mb := fun i => mul_bd (Pb i) (adb i)
  obtain ⟨s1, s1b⟩ := R.addB 5.8e-18 (mm 0) (mm 1) (mb 0) (mb 1) (by norm_num) (by norm_num)
  obtain ⟨s2, s2b⟩ := R.addB 9.1e-18 s1 (mm 2) s1b (mb 2) (by norm_num) (by norm_num)
  have wb : |withEterms P2 fkA k i| ≤ 1.0099 := (comp_le_len _ i).trans (by have := abs_le.1 b3; norm_num at this ⊢; linarith)
  have n1 := R.mulB 1.8e-17 s2 (t2 i) s2b wb (by norm_num) (by norm_num)
  have n1b := mul_bd s2b wb
  have n2 := R.mulB 5.8e-18 (ad i) r2' (adb i) kb (by norm_num) (by norm_num)
  have n2b := mul_bd (adb i) kb
  obtain ⟨n3, n3b⟩ := R.addB (1.92e-15 + 2.04e-15 * K) (q2 i).1 n2 (q2 i).2 n2b (by norm_num at hK1 ⊢; linarith) (by norm_num at hK1 ⊢; linarith)
  obtain ⟨n4, n4b⟩ := R.subB (2.2e-15 + 2.2e-15 * K) n3 n1 n3b n1b (by norm_num at hK1 ⊢; linarith) (by norm_num at hK1 ⊢; linarith)
  have e : Q2 i + k * fkAd i - dot P2 fkAd * withEterms P2 fkA k i = Q2 i + fkAd i * k - (P2 0 * fkAd 0 + P2 1 * fkAd 1 + P2 2 * fkAd 2) * withEterms P2 fkA k i := by rw [dot_eq]; ring
  show |_ - (Q2 i + k * fkAd i - dot P2 fkAd * withEterms P2 fkA k i)| ≤ _ ∧ |Q2 i + k * fkAd i - dot P2 fkAd * withEterms P2 fkA k i| ≤ _
  rw [e]
  exact ⟨n4, n4b.trans (by norm_num; linarith)⟩

end Pal
