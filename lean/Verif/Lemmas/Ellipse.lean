import Verif.Lemmas.Stumpff
import Verif.Lemmas.Orbit

/-! # The universal functions of palUe2pv on elliptic orbits -/

namespace Pal.Ellipse
open Real Pal.Orbit Pal.Stumpff

theorem sin_t17 : ∀ x : ℝ, 0 ≤ x → sin x ≤ x - x ^ 3 / 6 + x ^ 5 / 120 - x ^ 7 / 5040 + x ^ 9 / 362880 - x ^ 11 / 39916800 + x ^ 13 / 6227020800 - x ^ 15 / 1307674368000 + x ^ 17 / 355687428096000 := by
  intro x hx
  have := taylor_step (f := fun x => x - x ^ 3 / 6 + x ^ 5 / 120 - x ^ 7 / 5040 + x ^ 9 / 362880 - x ^ 11 / 39916800 + x ^ 13 / 6227020800 - x ^ 15 / 1307674368000 + x ^ 17 / 355687428096000 - sin x) (f' := fun x => 1 - x ^ 2 / 2 + x ^ 4 / 24 - x ^ 6 / 720 + x ^ 8 / 40320 - x ^ 10 / 3628800 + x ^ 12 / 479001600 - x ^ 14 / 87178291200 + x ^ 16 / 20922789888000 - cos x) (by simp) (fun x => ?_)
    (fun x hx => by linarith [cos_t16 x hx]) x hx
  · linarith
  · have := (((((((((hasDerivAt_id x).sub (hpow 3 6 x)).add (hpow 5 120 x)).sub (hpow 7 5040 x)).add (hpow 9 362880 x)).sub (hpow 11 39916800 x)).add (hpow 13 6227020800 x)).sub (hpow 15 1307674368000 x)).add (hpow 17 355687428096000 x)).sub (Real.hasDerivAt_sin x)
    exact this.congr_deriv (by norm_num; ring)

/-- The series for the cosine and sine. -/
theorem base_cos {x : ℝ} (hx : 0 ≤ x) : 1 - x ^ 2 * cB (-x ^ 2) ≤ cos x ∧ cos x ≤ 1 - x ^ 2 * cB (-x ^ 2) + x ^ 16 / 20922789888000 := by
  have h1 := cos_t14 x hx
  have h2 := cos_t16 x hx
  have e : 1 - x ^ 2 * cB (-x ^ 2) = 1 - x ^ 2 / 2 + x ^ 4 / 24 - x ^ 6 / 720 + x ^ 8 / 40320 - x ^ 10 / 3628800 + x ^ 12 / 479001600 - x ^ 14 / 87178291200 := by
    unfold cB; ring
  rw [e]; exact ⟨h1, h2⟩

theorem base_sin {x : ℝ} (hx : 0 ≤ x) : x * (1 - x ^ 2 * cC (-x ^ 2)) ≤ sin x ∧ sin x ≤ x * (1 - x ^ 2 * cC (-x ^ 2)) + x ^ 17 / 355687428096000 := by
  have h1 := sin_t15 x hx
  have h2 := sin_t17 x hx
  have e : x * (1 - x ^ 2 * cC (-x ^ 2)) = x - x ^ 3 / 6 + x ^ 5 / 120 - x ^ 7 / 5040 + x ^ 9 / 362880 - x ^ 11 / 39916800 + x ^ 13 / 6227020800 - x ^ 15 / 1307674368000 := by
    unfold cC; ring
  rw [e]; exact ⟨h1, h2⟩

theorem pow14 {x : ℝ} (h : x ^ 2 ≤ 7 / 10) : x ^ 14 ≤ 0.0824 := by
  have : (x ^ 2) ^ 7 ≤ (7 / 10) ^ 7 := pow_le_pow_left₀ (sq_nonneg x) h 7
  have e : x ^ 14 = (x ^ 2) ^ 7 := by ring
  rw [e]; norm_num at this ⊢; linarith

/-- Without halvings. -/
theorem small_err {k ψ : ℝ} (hk : 0 < k) (hψ : 0 ≤ ψ) (h : (k * ψ) ^ 2 ≤ 7 / 10) :
    let S := ueFun (-k ^ 2) ψ
    k ^ 2 * |S.s2 - U2 (-k ^ 2) ψ| ≤ 4e-15 * (k * ψ) ^ 2 ∧ k ^ 3 * |S.s3 - U3 (-k ^ 2) ψ| ≤ 4e-15 * (k * ψ) ^ 3 ∧
    S.s0 = 1 + (-k ^ 2) * S.s2 ∧ S.s1 = ψ + (-k ^ 2) * S.s3 ∧ S.tol = 1 / 10 ^ 13 := by
  have hu : ueFun (-k ^ 2) ψ = ueSeries (-k ^ 2) ψ (ψ * ψ) (-k ^ 2 * (ψ * ψ)) := by
    unfold ueFun
    obtain ⟨j, hj, -, hz, -⟩ := halve_spec 0 ψ (ψ * ψ) (-k ^ 2 * (ψ * ψ))
    have : j = 0 := hz (by
      have e : -k ^ 2 * (ψ * ψ) = -(k * ψ) ^ 2 := by ring
      rw [e, abs_neg, abs_of_nonneg (sq_nonneg _)]; exact h)
    subst this
    rw [hj]
    simp [ueUndo]
  have eb : -k ^ 2 * (ψ * ψ) = -(k * ψ) ^ 2 := by ring
  intro S
  have hS : S = _ := hu
  rw [series_def, eb] at hS
  have hx : 0 ≤ k * ψ := mul_nonneg hk.le hψ
  obtain ⟨c1, c2⟩ := base_cos hx
  obtain ⟨s1, s2⟩ := base_sin hx
  have hp := pow14 h
  have e2 : k ^ 2 * U2 (-k ^ 2) ψ = 1 - cos (k * ψ) := by
    have := id0 (-k ^ 2) ψ
    rw [U0_neg hk] at this; linarith
  have e3 : k ^ 3 * U3 (-k ^ 2) ψ = k * ψ - sin (k * ψ) := by
    have := id1 (-k ^ 2) ψ
    rw [U1_neg hk] at this
    field_simp at this
    linear_combination this
  have hx2 : 0 ≤ (k * ψ) ^ 2 := sq_nonneg _
  have hx3 : 0 ≤ (k * ψ) ^ 3 := pow_nonneg hx 3
  have b16 : (k * ψ) ^ 16 ≤ 0.0824 * (k * ψ) ^ 2 := by nlinarith [hp]
  have b17 : (k * ψ) ^ 17 ≤ 0.0824 * (k * ψ) ^ 3 := by nlinarith [hp]
  rw [hS]
  dsimp only
  have a2 : k ^ 2 * |ψ * ψ * cB (-(k * ψ) ^ 2) - U2 (-k ^ 2) ψ| = |cos (k * ψ) - (1 - (k * ψ) ^ 2 * cB (-(k * ψ) ^ 2))| := by
    rw [← abs_of_pos (pow_pos hk 2), ← abs_mul]
    congr 1
    rw [abs_of_pos (pow_pos hk 2)]
    linear_combination -e2
  have a3 : k ^ 3 * |ψ * (ψ * ψ) * cC (-(k * ψ) ^ 2) - U3 (-k ^ 2) ψ| = |sin (k * ψ) - (k * ψ) * (1 - (k * ψ) ^ 2 * cC (-(k * ψ) ^ 2))| := by
    rw [← abs_of_pos (pow_pos hk 3), ← abs_mul]
    congr 1
    try rw [abs_of_pos (pow_pos hk 3)]
    linear_combination -e3
  rw [a2, a3]
  refine ⟨?_, ?_, rfl, rfl, rfl⟩
  · rw [abs_of_nonneg (by linarith)]; nlinarith
  · rw [abs_of_nonneg (by linarith)]; nlinarith

/-- The doubling loop is exact in terms of a slightly different angle and constant. -/
theorem undo_angle {k' : ℝ} (hk : k' ≠ 0) (n : ℕ) : ∀ (psj φ Δ : ℝ) (f : UeFun), f.s0 = cos φ → f.s1 = sin φ / k' → f.s2 = (1 - cos φ) / k' ^ 2 →
    f.s3 = (psj - f.s1) / k' ^ 2 + Δ →
    ∃ Δ', |Δ'| ≤ 2 ^ n * |Δ| ∧ (ueUndo n psj f).s0 = cos (2 ^ n * φ) ∧ (ueUndo n psj f).s1 = sin (2 ^ n * φ) / k' ∧
      (ueUndo n psj f).s2 = (1 - cos (2 ^ n * φ)) / k' ^ 2 ∧ (ueUndo n psj f).s3 = (2 ^ n * psj - (ueUndo n psj f).s1) / k' ^ 2 + Δ' ∧
      (ueUndo n psj f).tol = 2 ^ n * f.tol := by
  induction n with
  | zero => intro psj φ Δ f h0 h1 h2 h3; exact ⟨Δ, by simp, by simpa [ueUndo] using h0, by simpa [ueUndo] using h1, by simpa [ueUndo] using h2,
      by simpa [ueUndo] using h3, by simp [ueUndo]⟩
  | succ n ih =>
    intro psj φ Δ f h0 h1 h2 h3
    obtain ⟨Δ', hΔ, e0, e1, e2, e3, e4⟩ := ih (psj + psj) (2 * φ) (2 * cos φ * Δ)
      { s0 := 2 * f.s0 * f.s0 - 1, s1 := 2 * f.s0 * f.s1, s2 := 2 * f.s1 * f.s1, s3 := 2 * (f.s0 * f.s3 + psj * f.s2), tol := f.tol + f.tol }
      (by simp only; rw [h0, cos_two_mul]; ring) (by simp only; rw [h0, h1, sin_two_mul]; ring)
      (by simp only; rw [h1, cos_two_mul, cos_sq']; field_simp; ring)
      (by simp only; rw [h3, h2, h0]; field_simp; ring)
    have ep : (2 : ℝ) ^ (n + 1) * φ = 2 ^ n * (2 * φ) := by ring
    refine ⟨Δ', hΔ.trans ?_, ?_, ?_, ?_, ?_, ?_⟩
    · rw [abs_mul, abs_mul, abs_of_pos (by norm_num : (0 : ℝ) < 2), pow_succ]
      have := abs_cos_le_one φ
      have h2n : (0 : ℝ) < 2 ^ n := by positivity
      nlinarith [abs_nonneg Δ, mul_le_mul_of_nonneg_right this (abs_nonneg Δ), mul_le_mul_of_nonneg_left (mul_le_mul_of_nonneg_right this (abs_nonneg Δ)) h2n.le]
    · rw [ueUndo, ep]; exact e0
    · rw [ueUndo, ep]; exact e1
    · rw [ueUndo, ep]; exact e2
    · rw [ueUndo]; rw [e3, pow_succ]; ring
    · rw [ueUndo]; rw [e4, pow_succ]; ring

/-- The angle whose cosine the series gives. -/
theorem base_angle {θ : ℝ} (h1 : 0.418 ≤ θ) (h2 : θ ^ 2 ≤ 7 / 10) :
    ∃ φ, cos φ = 1 - θ ^ 2 * cB (-θ ^ 2) ∧ θ ≤ φ ∧ φ ≤ θ * (1 + 2e-14) ∧ φ < 0.84 := by
  have h0 : 0 ≤ θ := by linarith
  have hu : θ < 0.8367 := by nlinarith
  obtain ⟨c1, c2⟩ := base_cos h0
  have hp := pow14 h2
  have b16 : θ ^ 16 ≤ 0.0824 * (7 / 10) := by
    have e : θ ^ 16 = θ ^ 14 * θ ^ 2 := by ring
    rw [e]; exact mul_le_mul hp h2 (sq_nonneg _) (by norm_num)
  have hpi := Real.pi_gt_d2
  set S := 1 - θ ^ 2 * cB (-θ ^ 2) with hS
  have hSle : S ≤ 1 := c1.trans (cos_le_one θ)
  set η := θ * 2e-14 with hη
  have hη0 : 0 ≤ η := by rw [hη]; positivity
  have hη1 : η ≤ 1.7e-14 := by rw [hη]; linarith
  have hηl : 0.836e-14 ≤ η := by rw [hη]; linarith
  have hcη : cos (θ + η) ≤ S := by
    have hs : 0.4 ≤ sin θ := by
      have := sin_ge_sub_cube h0
      nlinarith [this]
    have hsη : 0.99 * η ≤ sin η := by
      have := sin_ge_sub_cube hη0
      have q : η ^ 2 ≤ 0.01 := by nlinarith
      have q3 : η ^ 3 ≤ 0.01 * η := by
        have e : η ^ 3 = η ^ 2 * η := by ring
        rw [e]; exact mul_le_mul_of_nonneg_right q hη0
      linarith
    have hc0 : 0 ≤ cos θ := cos_nonneg_of_neg_pi_div_two_le_of_le (by linarith) (by linarith)
    rw [cos_add]
    have q1 : cos θ * cos η ≤ cos θ := by nlinarith [cos_le_one η]
    have q2 : 0.4 * (0.99 * η) ≤ sin θ * sin η := mul_le_mul hs hsη (by positivity) (by linarith)
    linarith
  have hS1 : -1 ≤ S := (neg_one_le_cos _).trans hcη
  refine ⟨arccos S, cos_arccos hS1 hSle, ?_, ?_, ?_⟩
  · have := arccos_le_arccos c1
    rwa [arccos_cos h0 (by linarith)] at this
  · have := arccos_le_arccos hcη
    rw [arccos_cos (by linarith) (by linarith)] at this
    linarith
  · have := arccos_le_arccos hcη
    rw [arccos_cos (by linarith) (by linarith)] at this
    linarith

set_option maxHeartbeats 2000000 in
/-- With halvings: what the code has computed. -/
theorem large_form {k ψ : ℝ} (hk : 0 < k) (hψ : 0 ≤ ψ) (h : 7 / 10 < (k * ψ) ^ 2) :
    let S := ueFun (-k ^ 2) ψ
    ∃ k' Θ Δ : ℝ, k ≤ k' ∧ k' ≤ k * (1 + 2.4e-14) ∧ |Θ - k * ψ| ≤ 2e-14 * (k * ψ) ∧ k ^ 3 * |Δ| ≤ 2.5e-14 * (k * ψ) ∧
      S.s0 = cos Θ ∧ S.s1 = sin Θ / k' ∧ S.s2 = (1 - cos Θ) / k' ^ 2 ∧ S.s3 = (ψ - S.s1) / k' ^ 2 + Δ ∧
      1 / 10 ^ 13 ≤ S.tol ∧ S.tol ≤ 2.4e-13 * (k * ψ) := by
  obtain ⟨n, hn, hb, hz, hl⟩ := halve_spec 0 ψ (ψ * ψ) (-k ^ 2 * (ψ * ψ))
  have hu : ueFun (-k ^ 2) ψ = ueUndo n (ψ / 2 ^ n) (ueSeries (-k ^ 2) (ψ / 2 ^ n) (ψ * ψ / 4 ^ n) (-k ^ 2 * (ψ * ψ) / 4 ^ n)) := by
    unfold ueFun; rw [hn]; simp
  have h4 : (4 : ℝ) ^ n = 2 ^ n * 2 ^ n := by rw [← mul_pow]; norm_num
  have h2n : (0 : ℝ) < 2 ^ n := by positivity
  have hn1 : 1 ≤ n := by
    by_contra h0
    have : n = 0 := by omega
    subst this
    have e : -k ^ 2 * (ψ * ψ) / 4 ^ 0 = -(k * ψ) ^ 2 := by ring
    rw [e, abs_neg, abs_of_nonneg (sq_nonneg _)] at hb
    linarith
  have hlo := hl hn1
  set p := ψ / 2 ^ n with hp
  have hpψ : ψ = 2 ^ n * p := by rw [hp]; field_simp
  have hp0 : 0 ≤ p := by rw [hp]; positivity
  have e2 : ψ * ψ / 4 ^ n = p * p := by rw [h4, hp]; field_simp
  set θ := k * p with hθ
  have eb : -k ^ 2 * (ψ * ψ) / 4 ^ n = -θ ^ 2 := by rw [mul_div_assoc, e2, hθ]; ring
  rw [eb, abs_neg, abs_of_nonneg (sq_nonneg _)] at hb hlo
  have hθ0 : 0 ≤ θ := mul_nonneg hk.le hp0
  have hθ1 : 0.418 ≤ θ := by nlinarith
  have hθ2 : θ < 0.8367 := by nlinarith
  have hkψ : k * ψ = 2 ^ n * θ := by rw [hpψ, hθ]; ring
  rw [eb, e2, series_def] at hu
  obtain ⟨φ, hφ, hφ1, hφ2, hφ3⟩ := base_angle hθ1 hb
  have hBb := cB_bounds (b := -θ ^ 2) (by rw [abs_neg, abs_of_nonneg (sq_nonneg _)]; exact hb)
  have hCb := cC_bounds (b := -θ ^ 2) (by rw [abs_neg, abs_of_nonneg (sq_nonneg _)]; exact hb)
  obtain ⟨s1, s2⟩ := base_sin hθ0
  have hp14 := pow14 hb
  have hpi := Real.pi_gt_d2
  set B := cB (-θ ^ 2) with hB
  set C := cC (-θ ^ 2) with hC
  have b17 : θ ^ 17 ≤ 0.0577 * θ := by
    have e : θ ^ 17 = θ ^ 14 * θ ^ 2 * θ := by ring
    rw [e]
    refine mul_le_mul_of_nonneg_right ((mul_le_mul hp14 hb (sq_nonneg _) (by norm_num)).trans (by norm_num)) hθ0
  have hq : 0.87 ≤ 1 - θ ^ 2 * C := by nlinarith [hCb.1, hCb.2, sq_nonneg θ]
  have hS1 : 0 < p * (1 - θ ^ 2 * C) := by
    have : 0 < p := by
      rcases hp0.lt_or_eq with h | h
      · exact h
      · rw [hθ, ← h] at hθ1; norm_num at hθ1
    nlinarith
  have hsφ : sin θ ≤ sin φ := sin_le_sin_of_le_of_le_pi_div_two (by linarith) (by linarith) hφ1
  have hsφ2 : sin φ ≤ sin θ + θ * 2e-14 := by
    have := abs_le.1 (abs_sin_sub_le φ θ)
    have e : |φ - θ| ≤ θ * 2e-14 := by rw [abs_of_nonneg (by linarith)]; linarith
    linarith
  set k' := sin φ / (p * (1 - θ ^ 2 * C)) with hk'
  have hkS : k * (p * (1 - θ ^ 2 * C)) = θ * (1 - θ ^ 2 * C) := by rw [hθ]; ring
  have hk1 : k ≤ k' := by rw [hk', le_div_iff₀ hS1, hkS]; linarith
  have hk2 : k' ≤ k * (1 + 2.4e-14) := by
    rw [hk', div_le_iff₀ hS1, show k * (1 + 2.4e-14) * (p * (1 - θ ^ 2 * C)) = (1 + 2.4e-14) * (k * (p * (1 - θ ^ 2 * C))) by ring, hkS]
    have : θ * 0.87 ≤ θ * (1 - θ ^ 2 * C) := mul_le_mul_of_nonneg_left hq hθ0
    linarith
  have hk'0 : 0 < k' := hk.trans_le hk1
  have hsin : sin φ / k' = p * (1 - θ ^ 2 * C) := by
    rw [div_eq_iff hk'0.ne', hk', mul_div_assoc', mul_div_cancel_left₀ _ hS1.ne']
  obtain ⟨m, rfl⟩ : ∃ m, n = m + 1 := ⟨n - 1, by omega⟩
  rw [ueUndo] at hu
  dsimp only at hu
  have f0 : 1 + -k ^ 2 * (p * p * B) = cos φ := by rw [hφ, hθ]; ring
  have f1 : p + -k ^ 2 * (p * (p * p) * C) = sin φ / k' := by rw [hsin, hθ]; ring
  have g2 : 2 * (sin φ / k') * (sin φ / k') = (1 - cos (2 * φ)) / k' ^ 2 := by rw [cos_two_mul, cos_sq']; field_simp; ring
  have g3 : 2 * (cos φ * (p * (p * p) * C) + p * (p * p * B)) = (p + p - 2 * cos φ * (sin φ / k')) / k ^ 2 := by
    rw [eq_div_iff (by positivity), ← f1, ← f0]; ring
  set s3 := 2 * (cos φ * (p * (p * p) * C) + p * (p * p * B)) with hs3
  have hs3b : |s3| ≤ 1.44 * p ^ 3 := by
    have hc0 : 0 ≤ cos φ := cos_nonneg_of_neg_pi_div_two_le_of_le (by linarith) (by linarith)
    have hc1 := cos_le_one φ
    have e : s3 = 2 * (cos φ * C + B) * p ^ 3 := by rw [hs3]; ring
    have hp3 : 0 ≤ p ^ 3 := pow_nonneg hp0 3
    have q : 0 ≤ cos φ * C := mul_nonneg hc0 (by linarith [hCb.1])
    have q' : cos φ * C ≤ 1 * 0.18 := mul_le_mul hc1 (by linarith [hCb.2]) (by linarith [hCb.1]) (by norm_num)
    rw [e, abs_of_nonneg (mul_nonneg (by linarith [hBb.1]) hp3)]
    exact mul_le_mul_of_nonneg_right (by linarith [hBb.2]) hp3
  rw [f0, f1] at hu
  set S1 : UeFun := { s0 := 2 * cos φ * cos φ - 1, s1 := 2 * cos φ * (sin φ / k'), s2 := 2 * (sin φ / k') * (sin φ / k'), s3 := s3, tol := 1 / 10 ^ 13 + 1 / 10 ^ 13 }
    with hS1d
  obtain ⟨Δ, hΔ, r0, r1, r2, r3, r4⟩ := undo_angle (k' := k') hk'0.ne' m (p + p) (2 * φ) (s3 * (1 - k ^ 2 / k' ^ 2)) S1
    (by simp only [hS1d]; rw [cos_two_mul]; ring) (by simp only [hS1d]; rw [sin_two_mul]; ring) (by simp only [hS1d]; exact g2)
    (by simp only [hS1d]; rw [g3]; field_simp; ring)
  have hu' : ueFun (-k ^ 2) ψ = ueUndo m (p + p) S1 := hu
  intro S
  have hS : S = ueUndo m (p + p) S1 := hu'
  have et : (2 : ℝ) ^ m * (2 * φ) = 2 ^ (m + 1) * φ := by ring
  have ep : (2 : ℝ) ^ m * (p + p) = ψ := by rw [hpψ]; ring
  rw [← hS, et] at r0 r1 r2
  rw [← hS, ep] at r3
  rw [← hS] at r4
  have hm1 : (1 : ℝ) ≤ 2 ^ (m + 1) := one_le_pow₀ (by norm_num)
  refine ⟨k', 2 ^ (m + 1) * φ, Δ, hk1, hk2, ?_, ?_, r0, r1, r2, r3, ?_, ?_⟩
  · rw [hkψ, ← mul_sub, abs_mul, abs_of_pos h2n, abs_of_nonneg (by linarith)]
    rw [show (2e-14 : ℝ) * (2 ^ (m + 1) * θ) = 2 ^ (m + 1) * (θ * 2e-14) by ring]
    exact mul_le_mul_of_nonneg_left (by linarith) h2n.le
  · have hr : |1 - k ^ 2 / k' ^ 2| ≤ 4.81e-14 := by
      rw [abs_of_nonneg (by rw [sub_nonneg, div_le_one (by positivity)]; exact pow_le_pow_left₀ hk.le hk1 2), sub_le_comm, le_div_iff₀ (by positivity)]
      have : k' ^ 2 ≤ (k * (1 + 2.4e-14)) ^ 2 := pow_le_pow_left₀ hk'0.le hk2 2
      nlinarith [this, sq_nonneg k]
    have hk3 : 0 < k ^ 3 := by positivity
    have q1 : |s3 * (1 - k ^ 2 / k' ^ 2)| ≤ 1.44 * p ^ 3 * 4.81e-14 := by
      rw [abs_mul]; exact mul_le_mul hs3b hr (abs_nonneg _) (by positivity)
    have q2 : k ^ 3 * |Δ| ≤ k ^ 3 * (2 ^ m * (1.44 * p ^ 3 * 4.81e-14)) :=
      mul_le_mul_of_nonneg_left (hΔ.trans (mul_le_mul_of_nonneg_left q1 (by positivity))) hk3.le
    have q3 : k ^ 3 * (2 ^ m * (1.44 * p ^ 3 * 4.81e-14)) = θ ^ 2 * (2 ^ (m + 1) * θ) * (0.72 * 4.81e-14) := by rw [hθ]; ring
    have q4 : θ ^ 2 * (2 ^ (m + 1) * θ) ≤ 7 / 10 * (2 ^ (m + 1) * θ) := mul_le_mul_of_nonneg_right hb (by positivity)
    rw [hkψ]
    have q5 : 0 ≤ 2 ^ (m + 1) * θ := by positivity
    linarith
  · rw [r4, hS1d]; simp only
    have : (2 : ℝ) ^ m * (1 / 10 ^ 13 + 1 / 10 ^ 13) = 2 ^ (m + 1) * (1 / 10 ^ 13) := by ring
    rw [this]; linarith
  · rw [r4, hS1d, hkψ]; simp only
    have e : (2 : ℝ) ^ m * (1 / 10 ^ 13 + 1 / 10 ^ 13) = 2 ^ (m + 1) * (1 / 10 ^ 13) := by ring
    rw [e, show (2.4e-13 : ℝ) * (2 ^ (m + 1) * θ) = 2 ^ (m + 1) * (2.4e-13 * θ) by ring]
    exact mul_le_mul_of_nonneg_left (by linarith) h2n.le

/-- How well the code knows the universal functions, for a non-negative anomaly. -/
theorem fun_err_nonneg {k ψ : ℝ} (hk : 0 < k) (hψ : 0 ≤ ψ) :
    let S := ueFun (-k ^ 2) ψ
    |S.s0 - U0 (-k ^ 2) ψ| ≤ 2e-13 * (k * ψ) ∧ k * |S.s1 - U1 (-k ^ 2) ψ| ≤ 2e-13 * (k * ψ) ∧ k ^ 2 * |S.s2 - U2 (-k ^ 2) ψ| ≤ 2e-13 * (k * ψ) ∧
    k ^ 3 * |S.s3 - U3 (-k ^ 2) ψ| ≤ 2e-13 * (k * ψ) ∧ 1 / 10 ^ 13 ≤ S.tol ∧ S.tol ≤ 1e-13 * (1 + 2.4 * (k * ψ)) := by
  intro S
  have hx : 0 ≤ k * ψ := mul_nonneg hk.le hψ
  rcases le_or_gt ((k * ψ) ^ 2) (7 / 10) with h | h
  · obtain ⟨h2, h3, h0, h1, ht⟩ := small_err hk hψ h
    have hS : S = ueFun (-k ^ 2) ψ := rfl
    rw [← hS] at h0 h1 h2 h3 ht
    have hx1 : k * ψ ≤ 1 := by nlinarith
    have hx2 : (k * ψ) ^ 2 ≤ k * ψ := by nlinarith
    have hx3 : (k * ψ) ^ 3 ≤ k * ψ := by nlinarith
    have i0 := id0 (-k ^ 2) ψ
    have i1 := id1 (-k ^ 2) ψ
    have e0 : |S.s0 - U0 (-k ^ 2) ψ| = k ^ 2 * |S.s2 - U2 (-k ^ 2) ψ| := by
      rw [h0, i0, show 1 + -k ^ 2 * S.s2 - (1 + -k ^ 2 * U2 (-k ^ 2) ψ) = -(k ^ 2 * (S.s2 - U2 (-k ^ 2) ψ)) by ring, abs_neg, abs_mul, abs_of_pos (pow_pos hk 2)]
    have e1 : k * |S.s1 - U1 (-k ^ 2) ψ| = k ^ 3 * |S.s3 - U3 (-k ^ 2) ψ| := by
      rw [h1, i1, show ψ + -k ^ 2 * S.s3 - (ψ + -k ^ 2 * U3 (-k ^ 2) ψ) = -(k ^ 2 * (S.s3 - U3 (-k ^ 2) ψ)) by ring, abs_neg, abs_mul, abs_of_pos (pow_pos hk 2)]
      ring
    rw [e0, e1, ht]
    refine ⟨?_, ?_, ?_, ?_, le_refl _, ?_⟩ <;> linarith
  · obtain ⟨k', Θ, Δ, k1, k2, hΘ, hΔ, h0, h1, h2, h3, t1, t2⟩ := large_form hk hψ h
    have hS : S = ueFun (-k ^ 2) ψ := rfl
    rw [← hS] at h0 h1 h2 h3 t1 t2
    have hx1 : 0.8366 ≤ k * ψ := by nlinarith
    have hk' : 0 < k' := hk.trans_le k1
    set x := k * ψ with hxd
    -- the ratio of the two constants
    set ρ := k / k' with hρ
    have hρ1 : ρ ≤ 1 := (div_le_one hk').2 k1
    have hρ0 : 1 - 2.4e-14 ≤ ρ := by
      rw [hρ, le_div_iff₀ hk']
      nlinarith
    have hρ2 : 1 - 4.8e-14 ≤ ρ ^ 2 := by nlinarith
    have hρ2' : ρ ^ 2 ≤ 1 := by nlinarith
    have c0 := U0_neg hk ψ
    have c1 := U1_neg hk ψ
    rw [← hxd] at c0 c1
    have dc : |cos Θ - cos x| ≤ 2e-14 * x := (abs_cos_sub_le Θ x).trans hΘ
    have ds : |sin Θ - sin x| ≤ 2e-14 * x := (abs_sin_sub_le Θ x).trans hΘ
    have E1 : k * (S.s1 - U1 (-k ^ 2) ψ) = (sin Θ - sin x) - sin Θ * (1 - ρ) := by
      rw [h1, c1, hρ]; field_simp; ring
    have B1 : |k * (S.s1 - U1 (-k ^ 2) ψ)| ≤ 5e-14 * x := by
      rw [E1]
      refine (abs_sub _ _).trans ?_
      rw [abs_mul, abs_of_nonneg (by linarith : (0 : ℝ) ≤ 1 - ρ)]
      have : |sin Θ| * (1 - ρ) ≤ 1 * 2.4e-14 := mul_le_mul (abs_sin_le_one Θ) (by linarith) (by linarith) (by norm_num)
      linarith
    have E2 : k ^ 2 * (S.s2 - U2 (-k ^ 2) ψ) = -(cos Θ - cos x) - (1 - cos Θ) * (1 - ρ ^ 2) := by
      have i0 := id0 (-k ^ 2) ψ
      rw [c0] at i0
      rw [h2, hρ]
      field_simp
      linear_combination (-k' ^ 2) * i0
    have E3 : k ^ 3 * (S.s3 - U3 (-k ^ 2) ψ) = -(k * (S.s1 - U1 (-k ^ 2) ψ)) * ρ ^ 2 - (x - sin x) * (1 - ρ ^ 2) + k ^ 3 * Δ := by
      have i1 := id1 (-k ^ 2) ψ
      have hU1 : k * U1 (-k ^ 2) ψ = sin x := by rw [c1]; field_simp
      rw [h3, hρ, ← hU1, hxd]
      field_simp
      linear_combination (-k' ^ 2) * i1
    refine ⟨?_, ?_, ?_, ?_, t1, ?_⟩
    · rw [h0, c0]; linarith
    · rw [← abs_of_pos hk, ← abs_mul, abs_of_pos hk]; linarith
    · rw [← abs_of_pos (pow_pos hk 2), ← abs_mul, abs_of_pos (pow_pos hk 2), E2]
      refine (abs_sub _ _).trans ?_
      rw [abs_neg, abs_mul, abs_of_nonneg (by linarith : (0 : ℝ) ≤ 1 - ρ ^ 2), abs_of_nonneg (by linarith [cos_le_one Θ] : (0 : ℝ) ≤ 1 - cos Θ)]
      have : (1 - cos Θ) * (1 - ρ ^ 2) ≤ 2 * 4.8e-14 := mul_le_mul (by linarith [neg_one_le_cos Θ]) (by linarith) (by linarith) (by norm_num)
      linarith
    · have hd : k ^ 3 * |S.s3 - U3 (-k ^ 2) ψ| = |k ^ 3 * (S.s3 - U3 (-k ^ 2) ψ)| := by rw [abs_mul, abs_of_pos (pow_pos hk 3)]
      rw [hd, E3]
      have q1 : |-(k * (S.s1 - U1 (-k ^ 2) ψ)) * ρ ^ 2| ≤ 5e-14 * x := by
        rw [abs_mul, abs_neg, abs_of_nonneg (sq_nonneg ρ)]
        exact (mul_le_of_le_one_right (abs_nonneg _) hρ2').trans B1
      have q2 : |(x - sin x) * (1 - ρ ^ 2)| ≤ 2 * x * 4.8e-14 := by
        have hs := abs_le.1 (Real.abs_sin_le_abs (x := x))
        rw [abs_of_nonneg hx] at hs
        rw [abs_mul, abs_of_nonneg (by linarith : (0 : ℝ) ≤ 1 - ρ ^ 2), abs_of_nonneg (by linarith : 0 ≤ x - sin x)]
        exact mul_le_mul (by linarith) (by linarith) (by linarith) (by linarith)
      have q3 : |k ^ 3 * Δ| ≤ 2.5e-14 * x := by rw [abs_mul, abs_of_pos (pow_pos hk 3)]; exact hΔ
      refine (abs_add_le _ _).trans ?_
      have := abs_sub (-(k * (S.s1 - U1 (-k ^ 2) ψ)) * ρ ^ 2) ((x - sin x) * (1 - ρ ^ 2))
      linarith
    · linarith

theorem halve_neg (n : ℕ) (p q b : ℝ) : ueHalve n (-p) q b = ((ueHalve n p q b).1, -(ueHalve n p q b).2.1, (ueHalve n p q b).2.2) := by
  induction n, p, q, b using ueHalve.induct with
  | case1 n p q b h ih =>
    have e1 : ueHalve n p q b = ueHalve (n + 1) (p / 2) (q / 4) (b / 4) := by rw [ueHalve, if_pos h]
    have e2 : ueHalve n (-p) q b = ueHalve (n + 1) (-p / 2) (q / 4) (b / 4) := by rw [ueHalve, if_pos h]
    rw [e1, ← ih, e2, neg_div]
  | case2 n p q b h =>
    have e1 : ueHalve n p q b = (n, p, q, b) := by rw [ueHalve, if_neg h]
    have e2 : ueHalve n (-p) q b = (n, -p, q, b) := by rw [ueHalve, if_neg h]
    rw [e1, e2]

theorem undo_neg (n : ℕ) : ∀ (p : ℝ) (f : UeFun), ueUndo n (-p) { f with s1 := -f.s1, s3 := -f.s3 } = { ueUndo n p f with s1 := -(ueUndo n p f).s1, s3 := -(ueUndo n p f).s3 } := by
  induction n with
  | zero => intro p f; rfl
  | succ n ih =>
    intro p f
    rw [ueUndo, ueUndo, ← ih]
    congr 1
    · ring
    · simp only [UeFun.mk.injEq]
      refine ⟨trivial, ?_, ?_, ?_, trivial⟩ <;> ring

/-- The functions of the code have the parity of the true ones. -/
theorem fun_neg (a ψ : ℝ) : ueFun a (-ψ) = { ueFun a ψ with s1 := -(ueFun a ψ).s1, s3 := -(ueFun a ψ).s3 } := by
  unfold ueFun
  dsimp only
  rw [neg_mul_neg, halve_neg]
  dsimp only
  rw [← undo_neg]
  congr 1
  unfold ueSeries
  simp only [UeFun.mk.injEq]
  refine ⟨trivial, ?_, trivial, ?_, trivial⟩ <;> ring

theorem U0_even (a s : ℝ) : U0 a (-s) = U0 a s := by unfold U0; simp
theorem U1_odd (a s : ℝ) : U1 a (-s) = -U1 a s := by unfold U1; split_ifs <;> simp [neg_div]
theorem U2_even (a s : ℝ) : U2 a (-s) = U2 a s := by unfold U2; rw [U0_even]; simp
theorem U3_odd (a s : ℝ) : U3 a (-s) = -U3 a s := by
  unfold U3; rw [U1_odd]; split_ifs
  · ring
  · ring

/-- How well the code knows the universal functions of an ellipse. -/
theorem fun_err {k : ℝ} (hk : 0 < k) (ψ : ℝ) :
    let S := ueFun (-k ^ 2) ψ
    |S.s0 - U0 (-k ^ 2) ψ| ≤ 2e-13 * (k * |ψ|) ∧ k * |S.s1 - U1 (-k ^ 2) ψ| ≤ 2e-13 * (k * |ψ|) ∧ k ^ 2 * |S.s2 - U2 (-k ^ 2) ψ| ≤ 2e-13 * (k * |ψ|) ∧
    k ^ 3 * |S.s3 - U3 (-k ^ 2) ψ| ≤ 2e-13 * (k * |ψ|) ∧ 1 / 10 ^ 13 ≤ S.tol ∧ S.tol ≤ 1e-13 * (1 + 2.4 * (k * |ψ|)) := by
  rcases le_total 0 ψ with h | h
  · rw [abs_of_nonneg h]; exact fun_err_nonneg hk h
  · have := fun_err_nonneg hk (ψ := -ψ) (by linarith)
    rw [fun_neg, U0_even, U1_odd, U2_even, U3_odd] at this
    dsimp only at this ⊢
    rw [abs_of_nonpos h]
    simpa only [neg_sub_neg, abs_sub_comm] using this

theorem fun_bdd_nonneg {k ψ : ℝ} (hk : 0 < k) (hψ : 0 ≤ ψ) :
    let S := ueFun (-k ^ 2) ψ
    |S.s0| ≤ 1 ∧ k * |S.s1| ≤ 1 ∧ k ^ 2 * |S.s2| ≤ 2 := by
  intro S
  have hx : 0 ≤ k * ψ := mul_nonneg hk.le hψ
  rcases le_or_gt ((k * ψ) ^ 2) (7 / 10) with h | h
  · have hx1 : k * ψ ≤ 1 := by nlinarith
    have hu : S = ueSeries (-k ^ 2) ψ (ψ * ψ) (-k ^ 2 * (ψ * ψ)) := by
      show ueFun (-k ^ 2) ψ = _
      unfold ueFun
      obtain ⟨j, hj, -, hz, -⟩ := halve_spec 0 ψ (ψ * ψ) (-k ^ 2 * (ψ * ψ))
      have : j = 0 := hz (by
        have e : -k ^ 2 * (ψ * ψ) = -(k * ψ) ^ 2 := by ring
        rw [e, abs_neg, abs_of_nonneg (sq_nonneg _)]; exact h)
      subst this
      rw [hj]
      simp [ueUndo]
    rw [series_def, show -k ^ 2 * (ψ * ψ) = -(k * ψ) ^ 2 by ring] at hu
    have hb : |-(k * ψ) ^ 2| ≤ 7 / 10 := by rw [abs_neg, abs_of_nonneg (sq_nonneg _)]; exact h
    have hB := cB_bounds hb
    have hC := cC_bounds hb
    have hx2 := sq_nonneg (k * ψ)
    rw [hu]
    dsimp only
    set x := k * ψ with hxd
    have q1 : 0 ≤ x ^ 2 * cB (-x ^ 2) := mul_nonneg hx2 (by linarith [hB.1])
    have q2 : x ^ 2 * cB (-x ^ 2) ≤ 7 / 10 * (54 / 100) := mul_le_mul h hB.2 (by linarith [hB.1]) (by norm_num)
    have q3 : 0 ≤ x ^ 2 * cC (-x ^ 2) := mul_nonneg hx2 (by linarith [hC.1])
    have q4 : x ^ 2 * cC (-x ^ 2) ≤ 7 / 10 * (18 / 100) := mul_le_mul h hC.2 (by linarith [hC.1]) (by norm_num)
    refine ⟨?_, ?_, ?_⟩
    · rw [show 1 + -k ^ 2 * (ψ * ψ * cB (-x ^ 2)) = 1 - x ^ 2 * cB (-x ^ 2) by rw [hxd]; ring, abs_le]
      constructor <;> linarith
    · rw [← abs_of_pos hk, ← abs_mul, abs_of_pos hk, show k * (ψ + -k ^ 2 * (ψ * (ψ * ψ) * cC (-x ^ 2))) = x * (1 - x ^ 2 * cC (-x ^ 2)) by rw [hxd]; ring,
        abs_of_nonneg (mul_nonneg hx (by linarith))]
      exact mul_le_one₀ hx1 (by linarith) (by linarith)
    · rw [← abs_of_pos (pow_pos hk 2), ← abs_mul, show k ^ 2 * (ψ * ψ * cB (-x ^ 2)) = x ^ 2 * cB (-x ^ 2) by rw [hxd]; ring,
        abs_of_nonneg q1]
      linarith
  · obtain ⟨k', Θ, Δ, k1, k2, hΘ, hΔ, h0, h1, h2, h3, t1, t2⟩ := large_form hk hψ h
    have hS : S = ueFun (-k ^ 2) ψ := rfl
    rw [← hS] at h0 h1 h2
    have hk' : 0 < k' := hk.trans_le k1
    rw [h0, h1, h2]
    refine ⟨abs_cos_le_one _, ?_, ?_⟩
    · rw [abs_div, abs_of_pos hk', mul_div_assoc', div_le_one hk']
      exact (mul_le_of_le_one_right hk.le (abs_sin_le_one _)).trans k1
    · rw [abs_div, abs_of_pos (pow_pos hk' 2), mul_div_assoc', div_le_iff₀ (by positivity)]
      have a1 : |1 - cos Θ| ≤ 2 := by rw [abs_le]; constructor <;> linarith [cos_le_one Θ, neg_one_le_cos Θ]
      have a2 : k ^ 2 ≤ k' ^ 2 := pow_le_pow_left₀ hk.le k1 2
      calc k ^ 2 * |1 - cos Θ| ≤ k' ^ 2 * 2 := mul_le_mul a2 a1 (abs_nonneg _) (by positivity)
        _ = 2 * k' ^ 2 := by ring

/-- The functions of the code are bounded like the true ones. -/
theorem fun_bdd {k : ℝ} (hk : 0 < k) (ψ : ℝ) : |(ueFun (-k ^ 2) ψ).s0| ≤ 1 ∧ k * |(ueFun (-k ^ 2) ψ).s1| ≤ 1 ∧ k ^ 2 * |(ueFun (-k ^ 2) ψ).s2| ≤ 2 := by
  rcases le_total 0 ψ with h | h
  · exact fun_bdd_nonneg hk h
  · have := fun_bdd_nonneg hk (ψ := -ψ) (by linarith)
    rw [fun_neg] at this
    dsimp only at this
    rwa [abs_neg] at this

end Pal.Ellipse
