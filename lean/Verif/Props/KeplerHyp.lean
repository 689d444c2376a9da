import Verif.Lemmas.Hyperbola
import Verif.Props.KeplerEl

/-! # C112: palPlanel on hyperbolas near perihelion -/

namespace Pal.Props
open Real Pal.Spec Pal.Orbit Pal.Stumpff Pal.Kepler Pal.Ellipse Pal.Plane Pal.Hyperbola

/-- Two quotients whose terms agree to a small relative amount. -/
theorem quot_rel {A B R r ε : ℝ} (hε : ε ≤ 1 / 2) (hr : 0 < r) (h1 : |A - B| ≤ ε * |B|) (h2 : (1 - ε) * r ≤ R) (h3 : R ≤ r) (hAB : |A| ≤ |B|) :
    |A / R - B / r| ≤ 3 * ε * (|B| / r) := by
  have hε0 : 0 ≤ ε ∨ B = 0 := by
    by_contra hc
    push Not at hc
    have hB := abs_pos.2 hc.2
    nlinarith [abs_nonneg (A - B)]
  have hR : 0 < R := by nlinarith
  rcases hε0 with h0 | h0
  · have hR2 : 1 / 2 * r ≤ R := by nlinarith
    have e2 : A / R - B / r = (A - B) / r + A * (r - R) / (R * r) := by field_simp; ring
    rw [e2]
    refine (abs_add_le _ _).trans ?_
    rw [abs_div, abs_div, abs_of_pos hr, abs_of_pos (mul_pos hR hr), abs_mul, abs_of_nonneg (by linarith : 0 ≤ r - R)]
    have t1 : |A - B| / r ≤ ε * (|B| / r) := by rw [mul_div_assoc']; exact div_le_div_of_nonneg_right h1 hr.le
    have t2 : |A| * (r - R) / (R * r) ≤ 2 * ε * (|B| / r) := by
      rw [mul_div_assoc', div_le_div_iff₀ (mul_pos hR hr) hr]
      have q1 : r - R ≤ ε * r := by linarith
      have q2 : |A| * (r - R) ≤ |B| * (ε * r) := mul_le_mul hAB q1 (by linarith) (abs_nonneg _)
      have q3 : |B| * (ε * r) ≤ |B| * (ε * (2 * R)) := mul_le_mul_of_nonneg_left (mul_le_mul_of_nonneg_left (by linarith) h0) (abs_nonneg _)
      have := mul_le_mul_of_nonneg_right (q2.trans q3) hr.le
      linarith
    linarith
  · rw [h0, abs_zero] at hAB
    have : A = 0 := abs_eq_zero.1 (le_antisymm hAB (abs_nonneg _))
    rw [this, h0]; simp

/-! Inequalities used below. -/

theorem hy_one_sq {e : ℝ} (h : 1 < e) : 0 ≤ e ^ 2 - 1 := by nlinarith
theorem hy_scale {e d : ℝ} (h : 1 < e) (hd : 0 ≤ d) : d ≤ e * d := by nlinarith
theorem hy_guess {e f g : ℝ} (he : 1 < e) (h : (0 ≤ f ∧ 0 ≤ g) ∨ (f ≤ 0 ∧ g ≤ 0)) : |(1 - e) * (f + g) + e * f| ≤ e * |f + g| := by
  rcases h with ⟨h0, hg⟩ | ⟨h0, hg⟩
  · rw [abs_of_nonneg (by linarith : 0 ≤ f + g), abs_le]
    constructor <;> nlinarith
  · rw [abs_of_nonpos (by linarith : f + g ≤ 0), abs_le]
    constructor <;> nlinarith
theorem hy_cube {Z : ℝ} (h : 0 ≤ Z) : 1 + Z ≤ (1 + Z) ^ 3 := by nlinarith [sq_nonneg Z, pow_nonneg h 3]
theorem hy_eps {Z : ℝ} (h : 0 ≤ Z) : 1e-14 * (1 + 6 * Z ^ 2) * (1 + Z) ≤ 6e-14 * (1 + Z) ^ 3 := by nlinarith [sq_nonneg Z, pow_nonneg h 3]
theorem hy_sum {k Z P εZ : ℝ} (h4 : k * (1 + Z) ≤ k * P) (_h5 : 0 ≤ k * Z) (h6 : 0 ≤ k) (h7 : εZ ≤ 6e-14 * P) (hP : 0 ≤ P) :
    1e-13 * (k + 2.4 * (k * Z)) + 3 * εZ ≤ 2.4e-13 * (P + k * P) := by
  nlinarith

set_option maxHeartbeats 4000000 in
/-- **C112** (hyperbolas, near perihelion) For every set of elements with an eccentricity above one that palPlanel accepts, the state it returns is the Keplerian one for the date,
within amounts that are small as long as `Z = e |M| / (e - 1)` is moderate: `a` is the (positive) semi-axis, `n` the mean motion (radians per day) of Kepler's third law, and
`M` the mean anomaly at the date asked for.  What is missing: far from perihelion the bound becomes useless, and `C112_hyperbola_refuted` shows that no better can be expected. -/
theorem C112_hyperbola_partial (date : ℝ) (jform : ℤ) (epoch orbinc anode perih aorq e aorl dm : ℝ) (u : Univ) (pv pv' : PV)
    (h : palPlanel date jform epoch orbinc anode perih aorq e aorl dm u pv = some (pv', 0)) (he1 : 1 < e) (pht argph q mu : ℝ)
    (hs : standardForm jform epoch anode perih aorq e aorl dm = (pht, argph, q, mu))
    (a n M N Z κ : ℝ) (ha : a = q / (e - 1)) (hn : n = gcon * √(mu / a ^ 3)) (hM : M = n * (date - pht)) (hZ : Z = e * |M| / (e - 1))
    (hN : N = (1 + √(mu / a)) * (1 + Z) ^ 3) (hκ : κ = √((e + 1) / (e - 1))) :
    ∃ x y xd yd, KeplerHyperbola a e n M x y xd yd ∧
      len (fun i => pv'.p i - fromOrbit obSE obCE argph orbinc anode x y i) ≤ 8e-13 * N * κ * (a * (e * cosh Z - 1)) ∧
      (Z ≤ 10 ^ 6 → len (fun i => 86400 * pv'.v i - fromOrbit obSE obCE argph orbinc anode xd yd i) ≤ 1e-12 * N * κ * (n * a * (e * cosh Z - 1)) * (e / (e - 1) ^ 2)) := by
  obtain ⟨hg, hq, hmu, ul', hue⟩ := planel_ue h hs
  have h1e : 0 < e - 1 := by linarith
  have ha0 : 0 < a := by rw [ha]; positivity
  have hqa : q = a * (e - 1) := by rw [ha]; field_simp
  set k := √(mu / a) with hk
  have hk0 : 0 < k := Real.sqrt_pos.2 (by positivity)
  have hk2 : k ^ 2 = mu / a := Real.sq_sqrt (by positivity)
  have hmuk : mu = a * k ^ 2 := by rw [hk2]; field_simp
  have hsq3 : √(mu / a ^ 3) = k / a := by
    rw [hmuk, show a * k ^ 2 / a ^ 3 = (k / a) ^ 2 by field_simp, Real.sqrt_sq (by positivity)]
  have hnk : n = gcon * (k / a) := by rw [hn, hsq3]
  have hκ1 : 1 ≤ κ := by rw [hκ]; exact hkappa_ge he1
  have hκ0 : 0 < κ := by linarith
  have hκ2 : κ ^ 2 * (e - 1) = e + 1 := by rw [hκ, Real.sq_sqrt (by positivity)]; field_simp
  set β := √(e ^ 2 - 1) with hβ
  have hβ2 : β ^ 2 = e ^ 2 - 1 := Real.sq_sqrt (hy_one_sq he1)
  have hβ0 : 0 ≤ β := Real.sqrt_nonneg _
  have hβκ : β = κ * (e - 1) := by
    refine (pow_left_inj₀ hβ0 (by positivity) (by norm_num : (2 : ℕ) ≠ 0)).1 ?_
    rw [hβ2, mul_pow]; linear_combination (-(e - 1)) * hκ2
  set ul := elPerihelion date pht argph q mu orbinc anode e with hul
  have hal : ul.alpha = k ^ 2 := by
    show mu * (e - 1) / q = k ^ 2
    rw [hmuk, hqa]; field_simp
  set phs := √(mu * (e - 1) / q + 2 * mu / q) with hphs
  have hphs' : phs = k * κ := by
    have e1 : mu * (e - 1) / q + 2 * mu / q = (k * κ) ^ 2 := by
      rw [mul_pow, hmuk, hqa]; field_simp; linear_combination (-1 : ℝ) * hκ2
    rw [hphs, e1, Real.sqrt_sq (by positivity)]
  have hp0 : ul.p0 = fromOrbit obSE obCE argph orbinc anode q 0 := by rw [← orbitToEqu_eq]; rfl
  have hv0 : ul.v0 = fromOrbit obSE obCE argph orbinc anode 0 phs := by rw [← orbitToEqu_eq]; rfl
  have hcm : ul.cm = mu := rfl
  have hr0 : ul.r0 = q := rfl
  have hsg : ul.sigma = 0 := rfl
  have ht0 : ul.t0 = pht := rfl
  obtain ⟨dt, hdt⟩ : ∃ dt, dt = (date - pht) * gcon := ⟨_, rfl⟩
  obtain ⟨X, hX⟩ : ∃ X, X = e * |dt| / q := ⟨_, rfl⟩
  have hX0 : 0 ≤ X := by rw [hX]; positivity
  have hMdt : k / a * dt = M := by rw [hM, hnk, hdt]; ring
  have hMabs : k / a * |dt| = |M| := by rw [← hMdt, abs_mul, abs_of_pos (by positivity : 0 < k / a)]
  have hZX : k * X = Z := by rw [hX, hZ, ← hMabs, hqa]; field_simp
  have hZ0 : 0 ≤ Z := by rw [← hZX]; positivity
  have hdtX : |dt| ≤ q * X := by
    rw [hX, mul_div_cancel₀ _ hq.ne']
    exact hy_scale he1 (abs_nonneg dt)
  -- the first approximation
  have hguess : |ul.psi + (date - ul.t) * gcon / ul.r0 - 0| ≤ X := by
    obtain ⟨f, hf, hfe⟩ := parabola_guess hq dt
    have hpsi : ul.psi = (1 - e) * (dt / q) + e * f := by rw [hf, hdt]; rfl
    have htt : ul.t = date := rfl
    rw [htt, sub_self, zero_mul, zero_div, add_zero, sub_zero, hpsi]
    have hd : dt / q = f + f ^ 3 / (6 * q) := by rw [← hfe]; field_simp
    have hmm : |dt / q| = |dt| / q := by rw [abs_div, abs_of_pos hq]
    have hXe : X = e * |dt / q| := by rw [hmm, hX]; ring
    rw [hXe]
    obtain ⟨g, hgg⟩ : ∃ g, g = f ^ 3 / (6 * q) := ⟨_, rfl⟩
    rw [← hgg] at hd
    rw [hd]
    refine hy_guess he1 ?_
    rcases le_total 0 f with h0 | h0
    · exact Or.inl ⟨h0, by rw [hgg]; positivity⟩
    · refine Or.inr ⟨h0, ?_⟩
      rw [hgg]
      exact div_nonpos_of_nonpos_of_nonneg (by rw [show f ^ 3 = f * f ^ 2 by ring]; exact mul_nonpos_of_nonpos_of_nonneg h0 (sq_nonneg f)) (by positivity)
  have hnewton : ∀ ψ, |ψ - 0| ≤ X → ueR ul (ueFun ul.alpha ψ) ≠ 0 → |ψ - ueFF ul dt (ueFun ul.alpha ψ) / ueR ul (ueFun ul.alpha ψ) - 0| ≤ X := by
    intro ψ hψ _
    rw [sub_zero] at hψ ⊢
    have := newton_any hk0 hq hmu.le hψ hdtX
    unfold ueFF ueR
    rw [hal, hcm, hr0, hsg, zero_mul, zero_mul, add_zero, add_zero]
    exact this
  obtain ⟨ψ, w, hψ, -, hw, hx, hp, hv⟩ := ue2pv_exit_near hue (dt := dt) (by rw [ht0]; exact hdt) hnewton hguess
  rw [sub_zero] at hψ
  rw [hal] at hw hx hp hv
  rw [hcm, hr0, hp0, hv0] at hp hv
  obtain ⟨ε, hε⟩ : ∃ ε, ε = 1e-14 * (1 + 6 * (k * X) ^ 2) := ⟨_, rfl⟩
  have hε0 : 0 ≤ ε := by rw [hε]; positivity
  obtain ⟨u0, l0, o0, u2, l2, n2, c1, b1, c3, htol⟩ := fun_near hk0 hψ hε
  obtain ⟨L, hL⟩ : ∃ L, L = rr mu (k ^ 2) q 0 X := ⟨_, rfl⟩
  obtain ⟨E1, E3⟩ := sum_err hk0 hq hmu.le hψ hε
  obtain ⟨rq, rL⟩ := rr_le_X hk0 hq hmu.le hψ
  have hres : |tt mu (k ^ 2) q 0 ψ - dt| ≤ (1e-13 * (1 + 2.4 * Z)) * L + 3 * (ε * (X * L)) := by
    have hRb : |ueR ul (ueFun (k ^ 2) ψ)| ≤ L := by
      have e0 : ueR ul (ueFun (k ^ 2) ψ) = q * (ueFun (k ^ 2) ψ).s0 + mu * (ueFun (k ^ 2) ψ).s2 := by
        unfold ueR; rw [hcm, hr0, hsg]; ring
      rw [e0, hL]
      have a1 := mul_le_mul_of_nonneg_left u0 hq.le
      have a2 := mul_le_mul_of_nonneg_left u2 hmu.le
      have a3 := mul_le_mul_of_nonneg_left o0 hq.le
      have a4 := mul_nonneg hmu.le n2
      rw [abs_of_nonneg (by linarith)]
      refine le_trans ?_ rL
      unfold rr
      linarith
    rw [← hL] at E1
    have hff : ∀ s : UeFun, ueFF ul dt s = (q * s.s1 + 0 * s.s2 + mu * s.s3) - dt := by
      intro s; unfold ueFF; rw [hcm, hr0, hsg]
    have hLn : 0 ≤ L := (abs_nonneg _).trans hRb
    rw [hZX] at htol
    rcases hx with hx | ⟨ψ₁, hψ₁, hx1, hx2⟩
    · exact residual_gen (ψ := 0) (ψ₁ := 0) (F1 := 0) (t1 := 0) E1 hRb (hw.trans_le htol) (by positivity) (Or.inl (by rw [← hff]; exact hx))
    · rw [sub_zero] at hψ₁
      have E2 := (sum_err hk0 hq hmu.le hψ₁ hε).1
      rw [← hL] at E2
      have hlip := tt_lip_X hk0 hq hmu.le hψ₁ hψ
      rw [← hL] at hlip
      refine residual_gen (ψ := ψ) (ψ₁ := ψ₁) (F1 := q * (ueFun (k ^ 2) ψ₁).s1 + 0 * (ueFun (k ^ 2) ψ₁).s2 + mu * (ueFun (k ^ 2) ψ₁).s3) (t1 := tt mu (k ^ 2) q 0 ψ₁)
        E1 hRb (hw.trans_le htol) (by positivity) (Or.inr ⟨E2, hlip, fun h => by rw [h], ?_, ?_⟩)
      · rw [← hff, ← hff]; exact hx1
      · rw [← hff, ← hff]; exact hx2
  rw [← hL] at E3 rL
  have hRR : ueR ul (ueFun (k ^ 2) ψ) = q * (ueFun (k ^ 2) ψ).s0 + mu * (ueFun (k ^ 2) ψ).s2 := by
    unfold ueR; rw [hcm, hr0, hsg]; ring
  rw [hRR] at hv
  clear hx hw hnewton hguess hue hul hp0 hv0 hal hcm hr0 hsg ht0
  generalize (ueFun (k ^ 2) ψ).s0 = s0 at *
  generalize (ueFun (k ^ 2) ψ).s1 = s1 at *
  generalize (ueFun (k ^ 2) ψ).s2 = s2 at *
  generalize (ueFun (k ^ 2) ψ).s3 = s3 at *
  clear htol
  clear_value phs β k ul
  -- in terms of the anomaly of the hyperbola
  obtain ⟨F, hF⟩ : ∃ F, F = k * ψ := ⟨_, rfl⟩
  have v0 : U0 (k ^ 2) ψ = cosh F := by rw [U0_pos hk0, hF]
  have v1 : U1 (k ^ 2) ψ = sinh F / k := by rw [U1_pos hk0, hF]
  have i0 := id0 (k ^ 2) ψ
  have i1 := id1 (k ^ 2) ψ
  rw [v0] at i0
  rw [v1] at i1
  have v2 : mu * U2 (k ^ 2) ψ = a * (cosh F - 1) := by rw [hmuk]; linear_combination (-a) * i0
  have v3 : k ^ 3 * U3 (k ^ 2) ψ = sinh F - F := by
    field_simp at i1
    rw [hF] at i1 ⊢
    linear_combination (-1 : ℝ) * i1
  have iX := id0 (k ^ 2) X
  have hLZ : L = a * (e * cosh Z - 1) := by
    rw [hL]; unfold rr
    have : mu * U2 (k ^ 2) X = a * (cosh Z - 1) := by
      rw [U0_pos hk0, hZX] at iX
      rw [hmuk]; linear_combination (-a) * iX
    rw [U0_pos hk0, hZX, this, hqa]; ring
  have hrF : rr mu (k ^ 2) q 0 ψ = a * (e * cosh F - 1) := by
    unfold rr; rw [v0, v2, hqa]; ring
  have htF : k / a * tt mu (k ^ 2) q 0 ψ = e * sinh F - F := by
    unfold tt; rw [v1]
    have : k / a * (q * (sinh F / k) + 0 * U2 (k ^ 2) ψ + mu * U3 (k ^ 2) ψ) = (e - 1) * sinh F + k ^ 3 * U3 (k ^ 2) ψ := by
      rw [hqa, hmuk]; field_simp; ring
    rw [this, v3]; ring
  obtain ⟨W, hW⟩ : ∃ W, W = e * cosh Z - 1 := ⟨_, rfl⟩
  rw [← hW] at hLZ ⊢
  have hW1 : e - 1 ≤ W := by rw [hW]; exact (hc_pos he1 Z).1
  have hW0 : 0 < W := by linarith
  obtain ⟨F0, hF0⟩ := hmean_surj he1 M
  simp only at hF0
  -- sizes
  obtain ⟨P, hP⟩ : ∃ P, P = (1 + Z) ^ 3 := ⟨_, rfl⟩
  rw [← hP] at hN
  have hP1 : 1 + Z ≤ P := by rw [hP]; exact hy_cube hZ0
  have hP0 : 0 < P := by linarith
  have hkP : 0 ≤ k * P := by positivity
  have hNe : N = P + k * P := by rw [hN]; ring
  have hεP : ε * (1 + Z) ≤ 6e-14 * P := by
    rw [hε, hZX, hP]
    exact hy_eps hZ0
  have hεZ : ε * Z ≤ 6e-14 * P := by linarith only [hεP, hε0]
  have hεp : ε ≤ 6e-14 * P := by linarith [mul_nonneg hε0 hZ0]
  have hdM : |(e * sinh F - F) - (e * sinh F0 - F0)| ≤ 2.4e-13 * N * W := by
    rw [hF0, ← htF, ← hMdt, ← mul_sub, abs_mul, abs_of_pos (by positivity : 0 < k / a)]
    have h3 : k / a * ((1e-13 * (1 + 2.4 * Z)) * L + 3 * (ε * (X * L))) = (1e-13 * (k + 2.4 * (k * Z)) + 3 * (ε * Z)) * W := by
      rw [hLZ, ← hZX]; field_simp
    refine (mul_le_mul_of_nonneg_left hres (by positivity : 0 ≤ k / a)).trans ?_
    rw [h3]
    refine mul_le_mul_of_nonneg_right ?_ hW0.le
    have h4 : k * (1 + Z) ≤ k * P := mul_le_mul_of_nonneg_left hP1 hk0.le
    have h5 : 0 ≤ k * Z := by positivity
    rw [hNe]
    exact hy_sum h4 h5 hk0.le hεZ hP0.le
  have hMv : k / a * |tt mu (k ^ 2) q 0 ψ - dt| ≤ 2.4e-13 * N * W := by
    have e1 : k / a * |tt mu (k ^ 2) q 0 ψ - dt| = |(e * sinh F - F) - (e * sinh F0 - F0)| := by
      rw [hF0, ← htF, ← hMdt, ← mul_sub, abs_mul, abs_of_pos (by positivity : 0 < k / a)]
    rw [e1]; exact hdM
  have hN0 : 0 < N := by rw [hNe]; linarith
  have hPN : P ≤ N := by rw [hNe]; linarith
  obtain ⟨pm1, pm2⟩ := hpos_moves he1 F F0
  obtain ⟨vm1, vm2⟩ := hvel_moves he1 F F0
  rw [← hκ] at pm1 pm2
  rw [← hβ] at pm2 vm2
  have hc0 := (hc_pos he1 F0).2
  have hcE := hc_pos he1 F
  obtain ⟨t, ht⟩ : ∃ t, t = tt mu (k ^ 2) q 0 ψ := ⟨_, rfl⟩
  rw [← ht] at hMv htF E1
  refine ⟨a * (e - cosh F0), a * β * sinh F0, -(a * n * sinh F0) / (e * cosh F0 - 1), a * n * β * cosh F0 / (e * cosh F0 - 1),
    ⟨F0, hF0.symm, rfl, by rw [hβ], by rw [div_mul_cancel₀ _ hc0.ne'], by rw [div_mul_cancel₀ _ hc0.ne', hβ]⟩, ?_, ?_⟩
  · have eq : (fun i => pv'.p i - fromOrbit obSE obCE argph orbinc anode (a * (e - cosh F0)) (a * β * sinh F0) i) =
        fromOrbit obSE obCE argph orbinc anode (-mu * (s2 - U2 (k ^ 2) ψ) - a * (cosh F - cosh F0))
          (phs * (dt - t - mu * (s3 - U3 (k ^ 2) ψ)) + a * (β * sinh F - β * sinh F0)) := by
      funext i
      rw [hp]
      simp only
      rw [fromOrbit_lin, ← one_mul (fromOrbit obSE obCE argph orbinc anode _ _ i), fromOrbit_sub]
      congr 1
      · have : q * (1 - mu * s2 / q) = q - mu * s2 := by field_simp
        rw [one_mul, this, hqa]
        linear_combination (-1 : ℝ) * v2
      · have hy : phs * (t - mu * U3 (k ^ 2) ψ) = a * (β * sinh F) := by
          have : t - mu * U3 (k ^ 2) ψ = q * sinh F / k := by
            rw [ht]; unfold tt; rw [v1]; ring
          rw [this, hphs', hβκ, hqa]; field_simp
        rw [one_mul]
        linear_combination hy
    rw [eq]
    refine (len_fromOrbit _ _ _ _ _).trans ?_
    have y3 : 0 ≤ N * κ * (a * W) := by positivity
    have r1 : ε * L ≤ 6e-14 * P * (a * W) := by rw [hLZ]; exact mul_le_mul_of_nonneg_right hεp (by positivity)
    have d1 : |-mu * (s2 - U2 (k ^ 2) ψ)| ≤ ε * L := by
      rw [abs_mul, abs_neg, abs_of_pos hmu, abs_of_nonpos (by linarith)]
      have z : mu * U2 (k ^ 2) ψ ≤ L := by
        refine le_trans ?_ rL
        unfold rr
        have := mul_pos hq (lt_of_lt_of_le one_pos (U0_ge hk0 ψ))
        linarith
      have z1 := mul_le_mul_of_nonneg_left z hε0
      have z2 := mul_le_mul_of_nonneg_left l2 hmu.le
      linarith
    have d2 : |phs * (dt - t - mu * (s3 - U3 (k ^ 2) ψ))| ≤ κ * a * (2.4e-13 * N * W + ε * Z * W) := by
      have q1 : k / a * |dt - t - mu * (s3 - U3 (k ^ 2) ψ)| ≤ 2.4e-13 * N * W + ε * Z * W := by
        have t1 := abs_sub (dt - t) (mu * (s3 - U3 (k ^ 2) ψ))
        have t2 := mul_le_mul_of_nonneg_left t1 (by positivity : 0 ≤ k / a)
        rw [abs_sub_comm dt t, abs_mul, abs_of_pos hmu, mul_add] at t2
        have t3 := mul_le_mul_of_nonneg_left E3 (by positivity : 0 ≤ k / a)
        have t4 : k / a * (ε * (X * L)) = ε * Z * W := by rw [hLZ, ← hZX]; field_simp
        linarith
      rw [abs_mul, abs_of_pos (by rw [hphs']; positivity), hphs']
      calc k * κ * |dt - t - mu * (s3 - U3 (k ^ 2) ψ)| = κ * a * (k / a * |dt - t - mu * (s3 - U3 (k ^ 2) ψ)|) := by field_simp
        _ ≤ _ := mul_le_mul_of_nonneg_left q1 (by positivity)
    have d3 : |a * (cosh F - cosh F0)| ≤ a * (κ * (2.4e-13 * N * W)) := by
      rw [abs_mul, abs_of_pos ha0]
      exact mul_le_mul_of_nonneg_left (pm1.trans (mul_le_mul_of_nonneg_left hdM (by linarith))) ha0.le
    have d4 : |a * (β * sinh F - β * sinh F0)| ≤ a * (κ * (2.4e-13 * N * W)) := by
      rw [abs_mul, abs_of_pos ha0]
      exact mul_le_mul_of_nonneg_left (pm2.trans (mul_le_mul_of_nonneg_left hdM (by linarith))) ha0.le
    have t1 := (abs_sub (-mu * (s2 - U2 (k ^ 2) ψ)) (a * (cosh F - cosh F0))).trans (add_le_add d1 d3)
    have t2 := (abs_add_le (phs * (dt - t - mu * (s3 - U3 (k ^ 2) ψ))) (a * (β * sinh F - β * sinh F0))).trans (add_le_add d2 d4)
    -- ε L + κ a ε Z W ≤ κ a W ε (1 + Z) ≤ 6e-14 N κ a W
    have y1 : ε * L + κ * a * (ε * Z * W) ≤ 6e-14 * (N * κ * (a * W)) := by
      have z1 : ε * L ≤ κ * (ε * L) := by
        have : 0 ≤ ε * L := by rw [hLZ]; positivity
        exact le_mul_of_one_le_left this hκ1
      have z2 : κ * (ε * L) + κ * a * (ε * Z * W) = (ε * (1 + Z)) * (κ * (a * W)) := by rw [hLZ]; ring
      have z3 : (ε * (1 + Z)) * (κ * (a * W)) ≤ (6e-14 * N) * (κ * (a * W)) := mul_le_mul_of_nonneg_right (by linarith) (by positivity)
      linarith
    linarith
  · intro hZs
    have hεs : ε ≤ 1 / 2 := by
      rw [hε, hZX]
      have : Z ^ 2 ≤ (10 ^ 6) ^ 2 := pow_le_pow_left₀ hZ0 hZs 2
      linarith
    obtain ⟨r, hr⟩ : ∃ r, r = rr mu (k ^ 2) q 0 ψ := ⟨_, rfl⟩
    rw [← hr] at hrF rq
    have hrpos : 0 < r := by linarith
    have hRu : q * s0 + mu * s2 ≤ r := by
      rw [hr]; unfold rr
      have a1 := mul_le_mul_of_nonneg_left u0 hq.le
      have a2 := mul_le_mul_of_nonneg_left u2 hmu.le
      linarith
    have hRl : (1 - ε) * r ≤ q * s0 + mu * s2 := by
      rw [hr]; unfold rr
      have a1 := mul_le_mul_of_nonneg_left l0 hq.le
      have a2 := mul_le_mul_of_nonneg_left l2 hmu.le
      linarith
    obtain ⟨R, hR⟩ : ∃ R, R = q * s0 + mu * s2 := ⟨_, rfl⟩
    rw [← hR] at hRu hRl hv
    have hRpos : 0 < R := by
      have : (1 / 2) * r ≤ (1 - ε) * r := mul_le_mul_of_nonneg_right (by linarith) hrpos.le
      linarith
    have hU2 := U2_ge hk0 ψ
    have q1 := quot_rel hεs hrpos c1 hRl hRu b1
    have q2 := quot_rel (A := s2) (B := U2 (k ^ 2) ψ) hεs hrpos (by rw [abs_of_nonneg hU2, abs_of_nonpos (by linarith)]; linarith) hRl hRu (by rw [abs_of_nonneg hU2, abs_of_nonneg n2]; exact u2)
    have hgc := gcon_pos
    have hrne := hrpos.ne'
    have hna : gcon * k = n * a := by rw [hnk]; field_simp
    have hna0 : 0 < n * a := by rw [← hna]; positivity
    have y1 : mu * |s1 / R - U1 (k ^ 2) ψ / r| ≤ 3 * ε * (k * κ) := by
      have z : mu * (|U1 (k ^ 2) ψ| / r) ≤ k * κ := by
        rw [mul_div_assoc', div_le_iff₀ hrpos, v1, abs_div, abs_of_pos hk0, hrF, hmuk]
        have sp : |sinh F| ≤ κ * (e * cosh F - 1) := by
          refine abs_le_of_sq_le_sq (h := ?_) (mul_nonneg hκ0.le hcE.2.le)
          have g1 := hspeed he1 F
          rw [← hκ, ← hβ] at g1
          have g2 : 0 ≤ β ^ 2 * cosh F ^ 2 := by positivity
          linarith
        have e1 : a * k ^ 2 * (|sinh F| / k) = a * k * |sinh F| := by field_simp
        rw [e1]
        have := mul_le_mul_of_nonneg_left sp (by positivity : 0 ≤ a * k)
        linarith
      have := mul_le_mul_of_nonneg_left q1 hmu.le
      have z2 := mul_le_mul_of_nonneg_left z (by positivity : 0 ≤ 3 * ε)
      linarith
    have y2 : mu * |s2 / R - U2 (k ^ 2) ψ / r| ≤ 3 * ε := by
      have z : mu * (|U2 (k ^ 2) ψ| / r) ≤ 1 := by
        rw [mul_div_assoc', div_le_iff₀ hrpos, abs_of_nonneg hU2, hr]
        unfold rr
        have := mul_pos hq (lt_of_lt_of_le one_pos (U0_ge hk0 ψ))
        linarith
      have := mul_le_mul_of_nonneg_left q2 hmu.le
      have z2 := mul_le_mul_of_nonneg_left z (by positivity : 0 ≤ 3 * ε)
      linarith
    obtain ⟨Q, hQ⟩ : ∃ Q, Q = 1 / (e - 1) ^ 2 := ⟨_, rfl⟩
    have hQ0 : 0 < Q := by rw [hQ]; positivity
    rw [← hQ] at vm1 vm2
    have eq : (fun i => 86400 * pv'.v i - fromOrbit obSE obCE argph orbinc anode (-(a * n * sinh F0) / (e * cosh F0 - 1)) (a * n * β * cosh F0 / (e * cosh F0 - 1)) i) =
        fromOrbit obSE obCE argph orbinc anode (-(gcon * (mu * (s1 / R - U1 (k ^ 2) ψ / r))) - n * a * (sinh F / (e * cosh F - 1) - sinh F0 / (e * cosh F0 - 1)))
          (-(gcon * phs * (mu * (s2 / R - U2 (k ^ 2) ψ / r))) + n * a * (β * cosh F / (e * cosh F - 1) - β * cosh F0 / (e * cosh F0 - 1))) := by
      funext i
      rw [hv]
      simp only
      rw [fromOrbit_lin, ← mul_assoc, show 86400 * cd2s = gcon by unfold cd2s spd; ring, fromOrbit_sub]
      have hce := hcE.2.ne'
      congr 1
      · have f1 : gcon * (mu * (U1 (k ^ 2) ψ / r)) = n * a * (sinh F / (e * cosh F - 1)) := by
          rw [v1, hrF, hmuk, ← hna]; field_simp
        have f2 : gcon * (q * (-mu * s1 / (q * R))) = -(gcon * (mu * (s1 / R))) := by field_simp
        rw [f2]
        linear_combination (-1 : ℝ) * f1
      · have f1 : gcon * phs * (1 - mu * U2 (k ^ 2) ψ / r) = n * a * (β * cosh F / (e * cosh F - 1)) := by
          have f0 : 1 - a * (cosh F - 1) / (a * (e * cosh F - 1)) = (e - 1) * cosh F / (e * cosh F - 1) := by
            rw [mul_div_mul_left _ _ ha0.ne', eq_div_iff hce, sub_mul, div_mul_cancel₀ _ hce]; ring
          rw [v2, hrF, hphs', hβκ, ← hna, f0]; ring
        have f2 : gcon * (phs * (1 - mu * s2 / R)) = gcon * phs - gcon * phs * (mu * (s2 / R)) := by field_simp
        rw [f2]
        have f3 : gcon * phs * (1 - mu * U2 (k ^ 2) ψ / r) = gcon * phs - gcon * phs * (mu * (U2 (k ^ 2) ψ / r)) := by field_simp
        rw [f3] at f1
        linear_combination f1
    rw [eq]
    refine (len_fromOrbit _ _ _ _ _).trans ?_
    have d1 : |gcon * (mu * (s1 / R - U1 (k ^ 2) ψ / r))| ≤ n * a * (3 * ε * κ) := by
      rw [abs_mul, abs_mul, abs_of_pos hgc, abs_of_pos hmu, ← hna]
      have := mul_le_mul_of_nonneg_left y1 hgc.le
      linarith
    have d2 : |gcon * phs * (mu * (s2 / R - U2 (k ^ 2) ψ / r))| ≤ n * a * (3 * ε * κ) := by
      rw [abs_mul, abs_mul mu, abs_of_pos (by rw [hphs']; positivity), abs_of_pos hmu, hphs', ← hna]
      have := mul_le_mul_of_nonneg_left y2 (by positivity : 0 ≤ gcon * (k * κ))
      linarith
    have d3 : |n * a * (sinh F / (e * cosh F - 1) - sinh F0 / (e * cosh F0 - 1))| ≤ n * a * (Q * (2.4e-13 * N * W)) := by
      rw [abs_mul, abs_of_pos hna0]
      exact mul_le_mul_of_nonneg_left (vm1.trans (mul_le_mul_of_nonneg_left hdM hQ0.le)) hna0.le
    have d4 : |n * a * (β * cosh F / (e * cosh F - 1) - β * cosh F0 / (e * cosh F0 - 1))| ≤ n * a * (Q * (2.4e-13 * N * W)) := by
      rw [abs_mul, abs_of_pos hna0]
      exact mul_le_mul_of_nonneg_left (vm2.trans (mul_le_mul_of_nonneg_left hdM hQ0.le)) hna0.le
    have t1 := abs_sub (-(gcon * (mu * (s1 / R - U1 (k ^ 2) ψ / r)))) (n * a * (sinh F / (e * cosh F - 1) - sinh F0 / (e * cosh F0 - 1)))
    have t2 := abs_add_le (-(gcon * phs * (mu * (s2 / R - U2 (k ^ 2) ψ / r)))) (n * a * (β * cosh F / (e * cosh F - 1) - β * cosh F0 / (e * cosh F0 - 1)))
    rw [abs_neg] at t1 t2
    have hfin : 1e-12 * N * κ * (n * a * W) * (e / (e - 1) ^ 2) = 1e-12 * (n * a * κ * N * (W * (e * Q))) := by rw [hQ]; ring
    rw [hfin]
    have hWQ : 1 ≤ W * (e * Q) := by
      have : (e - 1) * (e * Q) ≤ W * (e * Q) := mul_le_mul_of_nonneg_right hW1 (by positivity)
      have z : (e - 1) * (e * Q) = e / (e - 1) := by rw [hQ]; field_simp
      have z2 : 1 ≤ e / (e - 1) := by rw [le_div_iff₀ h1e]; linarith
      linarith
    have g1 : n * a * (3 * ε * κ) ≤ 1.8e-13 * (n * a * κ * N * (W * (e * Q))) := by
      have z1 : n * a * (3 * ε * κ) ≤ n * a * (3 * (6e-14 * N) * κ) := by
        refine mul_le_mul_of_nonneg_left (mul_le_mul_of_nonneg_right ?_ hκ0.le) hna0.le
        linarith
      have z2 : n * a * κ * N * 1 ≤ n * a * κ * N * (W * (e * Q)) := mul_le_mul_of_nonneg_left hWQ (by positivity)
      linarith
    have g2 : n * a * (Q * (2.4e-13 * N * W)) ≤ 2.4e-13 * (n * a * κ * N * (W * (e * Q))) := by
      have z : 1 ≤ κ * e := one_le_mul_of_one_le_of_one_le hκ1 he1.le
      have := mul_le_mul_of_nonneg_left z (by positivity : 0 ≤ n * a * (Q * (N * W)))
      linarith
    have g0 : 0 ≤ n * a * κ * N * (W * (e * Q)) := by positivity
    linarith

/-- A run of palPlanel on a hyperbola: eccentricity 2, perihelion at 1 AU, shortly after perihelion. -/
theorem hyperbola_runs (u : Univ) (pv : PV) : ∃ pv', palPlanel ((1 / 1000 + 1 / 6000000000) / gcon) 3 0 0 0 0 1 2 0 0 u pv = some (pv', 0) := by
  have hg0 : 0 < gcon := by unfold gcon; norm_num
  obtain ⟨dt, hdt⟩ : ∃ dt : ℝ, dt = 1 / 1000 + 1 / 6000000000 := ⟨_, rfl⟩
  rw [← hdt]
  have hdate : (dt / gcon - 0) * gcon = dt := by rw [sub_zero, div_mul_cancel₀ _ hg0.ne']
  obtain ⟨f, hf, hfe⟩ := parabola_guess one_pos dt
  have hf1 : f = 1 / 1000 := by
    by_contra hne
    have : (f - 1 / 1000) * (6 + f ^ 2 + f / 1000 + 1 / 1000000) = 0 := by rw [hdt] at hfe; linarith
    rcases mul_eq_zero.1 this with h | h
    · exact hne (by linarith)
    · nlinarith [sq_nonneg (f + 1 / 2000)]
  obtain ⟨ψ, hψ⟩ : ∃ ψ : ℝ, ψ = 1 / 1000 - 1 / 6000000000 := ⟨_, rfl⟩
  obtain ⟨phs, hphs⟩ : ∃ s, s = √(1 * (2 - 1) / 1 + 2 * 1 / (1 : ℝ)) := ⟨_, rfl⟩
  have hphs1 : 1.7 ≤ phs := by rw [hphs]; exact Real.le_sqrt_of_sq_le (by norm_num)
  have hul : elPerihelion (dt / gcon) 0 0 1 1 0 0 2 =
      ⟨1, 1, 0, fromOrbit obSE obCE 0 0 0 1 0, fromOrbit obSE obCE 0 0 0 0 phs, 1, 0, dt / gcon, ψ⟩ := by
    unfold elPerihelion
    dsimp only
    rw [orbitToEqu_eq, orbitToEqu_eq, hdate, ← hf, hf1, ← hphs]
    have : (1 - 2) * (dt / 1) + 2 * (1 / 1000) = ψ := by rw [hdt, hψ]; norm_num
    rw [this]
    norm_num
  obtain ⟨S, hS⟩ : ∃ S, S = ueFun 1 ψ := ⟨_, rfl⟩
  have hsm : S = ueSeries 1 ψ (ψ * ψ) (1 * (ψ * ψ)) := by
    rw [hS]; exact ueFun_small (by rw [hψ]; norm_num [abs_le])
  have tolS : S.tol = 1 / 10 ^ 13 := by rw [hsm]; rfl
  have b2 : 0 ≤ S.s2 ∧ S.s2 ≤ 1 / 10 := by rw [hsm, hψ]; unfold ueSeries; norm_num
  have b0 : S.s0 = 1 + S.s2 := by rw [hsm]; unfold ueSeries; ring
  have b1 : S.s1 = ψ + S.s3 := by rw [hsm]; unfold ueSeries; ring
  have bF : |ψ + 2 * S.s3 - dt| ≤ 1 / 10 ^ 15 := by rw [hsm, hψ, hdt]; unfold ueSeries; norm_num [abs_le]
  have b3 : S.s3 ≤ 1 / 10 ^ 6 := by rw [hsm, hψ]; unfold ueSeries; norm_num
  obtain ⟨R, hR⟩ : ∃ R, R = 1 + 2 * S.s2 := ⟨_, rfl⟩
  have hR1 : 1 ≤ R := by rw [hR]; linarith [b2.1]
  have hl : ueLoop ⟨1, 1, 0, fromOrbit obSE obCE 0 0 0 1 0, fromOrbit obSE obCE 0 0 0 0 phs, 1, 0, dt / gcon, ψ⟩ dt 1 ψ 0 0 = .done (ψ - (ψ + 2 * S.s3 - dt) / R) S R := by
    rw [ueLoop]
    dsimp only
    rw [← hS]
    simp only [ueFF, ueR]
    have e1 : 1 * S.s1 + 0 * S.s2 + 1 * S.s3 - dt = ψ + 2 * S.s3 - dt := by rw [b1]; ring
    have e2 : 1 * S.s0 + 0 * S.s1 + 1 * S.s2 = R := by rw [b0, hR]; ring
    rw [e1, e2, tolS, if_pos trivial]
    have nn : ¬ (ψ + 2 * S.s3 - dt) * (ψ + 2 * S.s3 - dt) < 0 := not_lt.2 (mul_self_nonneg _)
    rw [if_neg (by rintro ⟨-, h⟩; linarith), if_neg nn, if_neg (by norm_num), if_neg]
    rw [not_le, abs_div, abs_of_pos (by linarith : 0 < R), div_lt_iff₀ (by linarith)]
    refine bF.trans_lt ?_
    have : (1 : ℝ) / 10 ^ 13 * 1 ≤ 1 / 10 ^ 13 * R := mul_le_mul_of_nonneg_left hR1 (by norm_num)
    refine lt_of_lt_of_le ?_ this
    norm_num
  refine ⟨⟨fromOrbit obSE obCE 0 0 0 (1 * (1 - 1 * S.s2 / 1)) (phs * (dt - 1 * S.s3)), fun i => cd2s * fromOrbit obSE obCE 0 0 0 (1 * (-1 * S.s1 / (1 * R))) (phs * (1 - 1 * S.s2 / R)) i⟩,
    planel_of_ue (pht := 0) (argph := 0) (q := 1) (mu := 1)
      u ⟨1, 1, 0, fromOrbit obSE obCE 0 0 0 1 0, fromOrbit obSE obCE 0 0 0 0 phs, 1, 0, dt / gcon, ψ - (ψ + 2 * S.s3 - dt) / R⟩ pv _ ⟨by norm_num, by norm_num, by norm_num, by norm_num, Or.inr rfl, by norm_num, fun h => absurd h (by norm_num)⟩ (by unfold elStd; simp) le_rfl ?_ ?_ ?_⟩
  · rw [hul]
    unfold palUe2pv
    dsimp only
    rw [if_neg one_ne_zero, hdate, sub_self, zero_mul, zero_div, add_zero, hl]
    dsimp only
    rw [if_neg (by linarith)]
    simp only [fromOrbit_lin]
  · refine len_zero_ge _ _ _ (by norm_num) ?_
    have : 0.0009 ≤ dt - 1 * S.s3 := by rw [hdt]; linarith
    nlinarith
  · simp only [mul_div_cancel_left₀ _ cd2s_ne]
    refine len_zero_ge _ _ _ (by norm_num) ?_
    have : 1 * S.s2 / R ≤ 1 / 10 := by rw [div_le_iff₀ (by linarith)]; linarith [b2.2]
    nlinarith

/-- The hypotheses of C112_hyperbola_partial are met. -/
example : ∃ (date : ℝ) (pv' : PV), 0 < date ∧
    palPlanel date 3 0 0 0 0 1 2 0 0 ⟨0, 0, 0, fun _ => 0, fun _ => 0, 0, 0, 0, 0⟩ ⟨fun _ => 0, fun _ => 0⟩ = some (pv', 0) ∧ (1 : ℝ) < 2 ∧
    standardForm 3 0 0 0 1 2 0 0 = (0, 0, 1, 1) := by
  obtain ⟨pv', h⟩ := hyperbola_runs ⟨0, 0, 0, fun _ => 0, fun _ => 0, 0, 0, 0, 0⟩ ⟨fun _ => 0, fun _ => 0⟩
  have hg0 : 0 < gcon := by unfold gcon; norm_num
  exact ⟨_, pv', by positivity, h, by norm_num, by simp [standardForm]⟩

end Pal.Props
