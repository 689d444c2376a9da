import Verif.Lemmas.KeplerPlane

/-! # C112: palPlanel (and palEl2ue) follow Kepler's laws -/

namespace Pal.Props
open Real Pal.Spec Pal.Orbit Pal.Stumpff Pal.Kepler Pal.Ellipse Pal.Plane

set_option maxHeartbeats 4000000 in
/-- **C112** (ellipses) For every set of elements with an eccentricity below one that palPlanel accepts, whatever their form, the state it returns is the Keplerian one for the
date: `a` is the semi-major axis, `n` the mean motion (radians per day) of Kepler's third law, and `M` the mean anomaly at the date asked for; position and
velocity (AU per day) are those of the orbit at exactly that mean anomaly, within the stated amounts. -/
theorem C112_ellipse_partial (date : ℝ) (jform : ℤ) (epoch orbinc anode perih aorq e aorl dm : ℝ) (u : Univ) (pv pv' : PV)
    (h : palPlanel date jform epoch orbinc anode perih aorq e aorl dm u pv = some (pv', 0)) (he1 : e < 1) (pht argph q mu : ℝ)
    (hs : standardForm jform epoch anode perih aorq e aorl dm = (pht, argph, q, mu))
    (a n M N κ : ℝ) (ha : a = q / (1 - e)) (hn : n = gcon * √(mu / a ^ 3)) (hM : M = n * (date - pht)) (hbig : mu ≤ 10 ^ 18 * a)
    (hN : N = (1 + √(mu / a)) * (1 + |M|)) (hκ : κ = √((1 + e) / (1 - e))) :
    ∃ x y xd yd, KeplerEllipse a e n M x y xd yd ∧
      len (fun i => pv'.p i - fromOrbit obSE obCE argph orbinc anode x y i) ≤ 4e-11 * N * κ * a ∧
      (1e-11 * N ≤ 1 - e → len (fun i => 86400 * pv'.v i - fromOrbit obSE obCE argph orbinc anode xd yd i) ≤ 4e-11 * N * κ * (n * a) / (1 - e) ^ 2) := by
  obtain ⟨hg, hq, hmu, ul', hue⟩ := planel_ue h hs
  have he0 : 0 ≤ e := hg.2.2.1
  have h1e : 0 < 1 - e := by linarith
  have ha0 : 0 < a := by rw [ha]; positivity
  have hqa : q = a * (1 - e) := by rw [ha]; field_simp
  set k := √(mu / a) with hk
  have hk0 : 0 < k := Real.sqrt_pos.2 (by positivity)
  have hk2 : k ^ 2 = mu / a := Real.sq_sqrt (by positivity)
  have hmuk : mu = a * k ^ 2 := by rw [hk2]; field_simp
  have hk9 : k ≤ 10 ^ 9 := by
    rw [hk]
    refine Real.sqrt_le_iff.2 ⟨by norm_num, ?_⟩
    rw [div_le_iff₀ ha0]; linarith
  have hsq3 : √(mu / a ^ 3) = k / a := by
    rw [hmuk, show a * k ^ 2 / a ^ 3 = (k / a) ^ 2 by field_simp, Real.sqrt_sq (by positivity)]
  have hnk : n = gcon * (k / a) := by rw [hn, hsq3]
  have hκ1 : 1 ≤ κ := by rw [hκ]; exact kappa_ge he0 he1
  have hκ0 : 0 < κ := by linarith
  have hκ2 : κ ^ 2 * (1 - e) = 1 + e := by rw [hκ, Real.sq_sqrt (by positivity)]; field_simp
  set β := √(1 - e ^ 2) with hβ
  have hβ2 : β ^ 2 = 1 - e ^ 2 := Real.sq_sqrt (sub_nonneg.2 (pow_le_one₀ he0 he1.le))
  have hβ0 : 0 ≤ β := Real.sqrt_nonneg _
  have hβκ : β = κ * (1 - e) := by
    refine (pow_left_inj₀ hβ0 (by positivity) (by norm_num : (2 : ℕ) ≠ 0)).1 ?_
    rw [hβ2, mul_pow]; linear_combination (-(1 - e)) * hκ2
  set ul := elPerihelion date pht argph q mu orbinc anode e with hul
  have hal : ul.alpha = -k ^ 2 := by
    show mu * (e - 1) / q = -k ^ 2
    rw [hmuk, hqa]; field_simp; ring
  set phs := √(mu * (e - 1) / q + 2 * mu / q) with hphs
  have hphs' : phs = k * κ := by
    have e1 : mu * (e - 1) / q + 2 * mu / q = (k * κ) ^ 2 := by
      rw [mul_pow, hmuk, hqa]; field_simp; linear_combination (-1 : ℝ) * hκ2
    rw [hphs, e1, Real.sqrt_sq (by positivity)]
  have hp0 : ul.p0 = fromOrbit obSE obCE argph orbinc anode q 0 := by rw [← orbitToEqu_eq]; rfl
  have hv0 : ul.v0 = fromOrbit obSE obCE argph orbinc anode 0 phs := by rw [← orbitToEqu_eq]; rfl
  have hcm : ul.cm = mu := rfl
  have hr0 : ul.r0 = q := rfl
  have hsg : ul.sigma = 0 := rfl
  have ht0 : ul.t0 = pht := rfl
  have hvsq : phs ^ 2 = -k ^ 2 + 2 * mu / q := by
    rw [hphs', mul_pow, hmuk, hqa]; field_simp; linear_combination hκ2
  have H : Ref ul.cm ul.alpha ul.r0 ul.sigma ![q, 0, 0] ![0, phs, 0] := by
    refine ⟨hq, ?_, ?_, ?_⟩
    · simp [dot, Fin.sum_univ_three, hr0]; ring
    · simp [dot, Fin.sum_univ_three, hsg]
    · rw [hal, hcm, hr0, ← hvsq]; simp [dot, Fin.sum_univ_three]; ring
  have hh : 0 < ul.r0 ^ 2 * (ul.alpha + 2 * ul.cm / ul.r0) - ul.sigma ^ 2 := by
    rw [hal, hcm, hr0, hsg, ← hvsq, hphs']
    have : 0 < q ^ 2 * (k * κ) ^ 2 := by positivity
    linarith
  set dt := (date - ul.t0) * gcon with hdt
  obtain ⟨ψ, S, R, t, ε, hR, ht, hε0, hε, htd, e1, e2, e3, eR, hp, hv⟩ := ellipse_numbers hk0 hk9 hal H hh hue hdt
  have hrpos := rr_pos H.pos hh ψ
  set r := rr ul.cm ul.alpha ul.r0 ul.sigma ψ with hr
  clear_value dt r phs β k
  rw [hcm] at hε htd eR hp hv
  rw [hr0, hp0, hv0] at hp hv
  -- the mean motion per canonical day
  have hnc : k ^ 3 / mu = k / a := by rw [hmuk]; field_simp
  rw [hnc] at hε htd
  have hMdt : k / a * dt = M := by rw [hM, hnk, hdt, ht0]; ring
  have hMabs : k / a * |dt| = |M| := by rw [← hMdt, abs_mul, abs_of_pos (by positivity : 0 < k / a)]
  rw [hMabs] at hε htd
  -- true anomalies
  obtain ⟨E, hE⟩ : ∃ E, E = k * ψ := ⟨_, rfl⟩
  have u0 : U0 ul.alpha ψ = cos E := by rw [hal, U0_neg hk0, hE]
  have u1 : U1 ul.alpha ψ = sin E / k := by rw [hal, U1_neg hk0, hE]
  have i0 := id0 ul.alpha ψ
  have i1 := id1 ul.alpha ψ
  rw [u0, hal] at i0
  rw [u1, hal] at i1
  rw [← hal] at i0 i1
  have u2 : mu * U2 ul.alpha ψ = a * (1 - cos E) := by
    rw [hmuk]; rw [hal] at i0 ⊢; linear_combination a * i0
  have u3 : k ^ 3 * U3 ul.alpha ψ = E - sin E := by
    rw [hal] at i1 ⊢
    field_simp at i1
    rw [hE] at i1 ⊢
    linear_combination i1
  clear_value ul
  have hrE : r = a * (1 - e * cos E) := by
    rw [hr]; unfold rr
    rw [hcm, hr0, hsg, u0, u2, hqa]; ring
  have htE : k / a * t = E - e * sin E := by
    rw [ht]; unfold tt
    rw [hcm, hr0, hsg, u1]
    have : k / a * (q * (sin E / k) + 0 * U2 ul.alpha ψ + mu * U3 ul.alpha ψ) = (1 - e) * sin E + k ^ 3 * U3 ul.alpha ψ := by
      rw [hqa, hmuk]; field_simp; ring
    rw [this, u3]; ring
  obtain ⟨E0, hE0⟩ := mean_surj he0 he1 M
  simp only at hE0
  have hdM : |(E - e * sin E) - (E0 - e * sin E0)| ≤ 9.9e-12 * N := by
    rw [hE0, ← htE, ← hMdt, ← mul_sub, abs_mul, abs_of_pos (by positivity : 0 < k / a), hN]
    linarith
  have hMn := abs_nonneg M
  have hεN : ε ≤ 8.2e-13 * N := by
    rw [hN]
    have : 0 ≤ k * (1 + |M|) := by positivity
    linarith
  have hN0 : 0 ≤ N := by rw [hN]; positivity
  have hNk : 1 ≤ N := by
    rw [hN]
    have : 0 ≤ k * (1 + |M|) := by positivity
    linarith
  obtain ⟨pm1, pm2⟩ := pos_moves he0 he1 E E0
  obtain ⟨vm1, vm2⟩ := vel_moves he0 he1 E E0
  rw [← hκ] at pm1 pm2
  rw [← hβ] at pm2 vm2
  have hc0 := (ec_pos he0 he1 E0).2
  have hcE := ec_pos he0 he1 E
  refine ⟨a * (cos E0 - e), a * β * sin E0, -(a * n * sin E0) / (1 - e * cos E0), a * n * β * cos E0 / (1 - e * cos E0),
    ⟨E0, hE0.symm, rfl, by rw [hβ], by rw [div_mul_cancel₀ _ hc0.ne'], by rw [div_mul_cancel₀ _ hc0.ne', hβ]⟩, ?_, ?_⟩
  · have eq : (fun i => pv'.p i - fromOrbit obSE obCE argph orbinc anode (a * (cos E0 - e)) (a * β * sin E0) i) =
        fromOrbit obSE obCE argph orbinc anode (-mu * (S.s2 - U2 ul.alpha ψ) + a * (cos E - cos E0))
          (phs * (dt - t - mu * (S.s3 - U3 ul.alpha ψ)) + a * (β * sin E - β * sin E0)) := by
      funext i
      rw [hp]
      simp only
      rw [fromOrbit_lin, ← one_mul (fromOrbit obSE obCE argph orbinc anode _ _ i), fromOrbit_sub]
      congr 1
      · have : q * (1 - mu * S.s2 / q) = q - mu * S.s2 := by field_simp
        rw [one_mul, this, hqa]
        linear_combination (-1 : ℝ) * u2
      · have hy : phs * (t - mu * U3 ul.alpha ψ) = a * (β * sin E) := by
          have : t - mu * U3 ul.alpha ψ = q * sin E / k := by
            rw [ht]; unfold tt; rw [hcm, hr0, hsg, u1]; ring
          rw [this, hphs', hβκ, hqa]; field_simp
        rw [one_mul]
        linear_combination hy
    rw [eq]
    refine (len_fromOrbit _ _ _ _ _).trans ?_
    have d1 : |-mu * (S.s2 - U2 ul.alpha ψ)| ≤ ε * a := by
      rw [abs_mul, abs_neg, abs_of_pos hmu, hmuk]
      have := mul_le_mul_of_nonneg_left e2 ha0.le
      linarith
    have d2 : |phs * (dt - t - mu * (S.s3 - U3 ul.alpha ψ))| ≤ κ * a * (9.9e-12 * N + ε) := by
      have q1 : k / a * |dt - t - mu * (S.s3 - U3 ul.alpha ψ)| ≤ 9.9e-12 * N + ε := by
        have t1 := abs_sub (dt - t) (mu * (S.s3 - U3 ul.alpha ψ))
        have t2 := mul_le_mul_of_nonneg_left t1 (by positivity : 0 ≤ k / a)
        rw [abs_sub_comm dt t, abs_mul, abs_of_pos hmu] at t2
        have t3 : k / a * (mu * |S.s3 - U3 ul.alpha ψ|) = k ^ 3 * |S.s3 - U3 ul.alpha ψ| := by rw [hmuk]; field_simp
        rw [mul_add, t3] at t2
        rw [hN]
        linarith
      rw [abs_mul, abs_of_pos (by rw [hphs']; positivity), hphs']
      calc k * κ * |dt - t - mu * (S.s3 - U3 ul.alpha ψ)| = κ * a * (k / a * |dt - t - mu * (S.s3 - U3 ul.alpha ψ)|) := by field_simp
        _ ≤ _ := mul_le_mul_of_nonneg_left q1 (by positivity)
    have d3 : |a * (cos E - cos E0)| ≤ a * (κ * (9.9e-12 * N)) := by
      rw [abs_mul, abs_of_pos ha0]
      exact mul_le_mul_of_nonneg_left (pm1.trans (mul_le_mul_of_nonneg_left hdM (by linarith))) ha0.le
    have d4 : |a * (β * sin E - β * sin E0)| ≤ a * (κ * (9.9e-12 * N)) := by
      rw [abs_mul, abs_of_pos ha0]
      exact mul_le_mul_of_nonneg_left (pm2.trans (mul_le_mul_of_nonneg_left hdM (by linarith))) ha0.le
    have t1 := (abs_add_le (-mu * (S.s2 - U2 ul.alpha ψ)) (a * (cos E - cos E0))).trans (add_le_add d1 d3)
    have t2 := (abs_add_le (phs * (dt - t - mu * (S.s3 - U3 ul.alpha ψ))) (a * (β * sin E - β * sin E0))).trans (add_le_add d2 d4)
    have y1 : ε * a ≤ 8.2e-13 * (N * κ * a) := by
      have q0 : N * 1 ≤ N * κ := mul_le_mul_of_nonneg_left hκ1 hN0
      have : ε ≤ 8.2e-13 * (N * κ) := by linarith only [hεN, q0]
      have := mul_le_mul_of_nonneg_right this ha0.le
      linarith only [this]
    have y2 : κ * a * ε ≤ 8.2e-13 * (N * κ * a) := by
      have := mul_le_mul_of_nonneg_left hεN (by positivity : 0 ≤ κ * a)
      linarith
    have y3 : 0 ≤ N * κ * a := by positivity
    linarith
  · intro hfar
    have hN1 : 1 + |M| ≤ N := by
      rw [hN]
      have : 0 ≤ k * (1 + |M|) := by positivity
      linarith
    have hRr : |R - r| ≤ 4 * ε * a := by
      have : k ^ 2 * |R - r| ≤ k ^ 2 * (4 * ε * a) := by rw [hmuk] at eR; linarith
      exact le_of_mul_le_mul_left this (by positivity)
    have hra : a * (1 - e) ≤ r := by rw [hrE]; exact mul_le_mul_of_nonneg_left hcE.1 ha0.le
    have hRl : 2 / 3 * r ≤ R := by
      have := (abs_le.1 hRr).1
      have z : ε * a ≤ 0.082 * (1 - e) * a := mul_le_mul_of_nonneg_right (by linarith) ha0.le
      have z2 : 4 * ε * a ≤ 0.328 * (a * (1 - e)) := by linarith only [z]
      linarith only [this, z2, hra, hrpos]
    have hr2 : r ≤ 2 * a := by
      rw [hrE]
      have := mul_le_mul_of_nonneg_left (neg_one_le_cos E) he0
      have : 1 - e * cos E ≤ 2 := by linarith only [this, he1]
      have := mul_le_mul_of_nonneg_left this ha0.le
      linarith only [this]
    have hk2p : 0 < k ^ 2 := by positivity
    have bU1 : |U1 ul.alpha ψ| ≤ 1 / k := by
      rw [u1, abs_div, abs_of_pos hk0]
      exact div_le_div_of_nonneg_right (abs_sin_le_one _) hk0.le
    have bU2 : |U2 ul.alpha ψ| ≤ 2 / k ^ 2 := by
      have e : k ^ 2 * U2 ul.alpha ψ = 1 - cos E := by
        have := u2; rw [hmuk] at this
        exact mul_left_cancel₀ ha0.ne' (by linarith)
      rw [le_div_iff₀ hk2p, mul_comm, ← abs_of_pos hk2p, ← abs_mul, e, abs_le]
      constructor <;> linarith [cos_le_one E, neg_one_le_cos E]
    have q1 := quot_near (A := S.s1) (B := U1 ul.alpha ψ) (e := ε / k) hrpos hRl (by rw [le_div_iff₀ hk0]; linarith) hRr bU1
    have q2 := quot_near (A := S.s2) (B := U2 ul.alpha ψ) (e := ε / k ^ 2) hrpos hRl (by rw [le_div_iff₀ hk2p]; linarith) hRr bU2
    have ir : 1 / r ≤ 2 * (a / r ^ 2) := by
      rw [mul_div_assoc', div_le_div_iff₀ hrpos (by positivity)]
      have := mul_le_mul_of_nonneg_right hr2 hrpos.le
      linarith only [this]
    have z1 : mu * (3 / 2 * (ε / k / r + 1 / k * (4 * ε * a) / r ^ 2)) ≤ 9 * ε * (a / r) ^ 2 * k := by
      have e : mu * (3 / 2 * (ε / k / r + 1 / k * (4 * ε * a) / r ^ 2)) = 3 / 2 * (a * k * ε) * (1 / r + 4 * (a / r ^ 2)) := by
        rw [hmuk]; field_simp
      rw [e]
      have : 3 / 2 * (a * k * ε) * (1 / r + 4 * (a / r ^ 2)) ≤ 3 / 2 * (a * k * ε) * (6 * (a / r ^ 2)) := mul_le_mul_of_nonneg_left (by linarith) (by positivity)
      refine this.trans (le_of_eq ?_)
      field_simp; ring
    have z2 : mu * (3 / 2 * (ε / k ^ 2 / r + 2 / k ^ 2 * (4 * ε * a) / r ^ 2)) ≤ 15 * ε * (a / r) ^ 2 := by
      have e : mu * (3 / 2 * (ε / k ^ 2 / r + 2 / k ^ 2 * (4 * ε * a) / r ^ 2)) = 3 / 2 * (a * ε) * (1 / r + 8 * (a / r ^ 2)) := by
        rw [hmuk]; field_simp; ring
      rw [e]
      have : 3 / 2 * (a * ε) * (1 / r + 8 * (a / r ^ 2)) ≤ 3 / 2 * (a * ε) * (10 * (a / r ^ 2)) := mul_le_mul_of_nonneg_left (by linarith) (by positivity)
      refine this.trans (le_of_eq ?_)
      field_simp; ring
    set Q := 1 / (1 - e) ^ 2 with hQ
    have hQ0 : 0 < Q := by rw [hQ]; positivity
    have har : (a / r) ^ 2 ≤ Q := by
      rw [hQ, div_pow, div_le_div_iff₀ (by positivity) (by positivity)]
      have : (a * (1 - e)) ^ 2 ≤ r ^ 2 := pow_le_pow_left₀ (by positivity) hra 2
      rw [mul_pow] at this
      linarith only [this]
    have y1 : mu * |S.s1 / R - U1 ul.alpha ψ / r| ≤ 9 * ε * Q * k := by
      refine ((mul_le_mul_of_nonneg_left q1 hmu.le).trans z1).trans ?_
      exact mul_le_mul_of_nonneg_right (mul_le_mul_of_nonneg_left har (by positivity)) hk0.le
    have y2 : mu * |S.s2 / R - U2 ul.alpha ψ / r| ≤ 15 * ε * Q := by
      refine ((mul_le_mul_of_nonneg_left q2 hmu.le).trans z2).trans ?_
      exact mul_le_mul_of_nonneg_left har (by positivity)
    have hgc := gcon_pos
    have hrne := hrpos.ne'
    have hna : gcon * k = n * a := by rw [hnk]; field_simp
    have eq : (fun i => 86400 * pv'.v i - fromOrbit obSE obCE argph orbinc anode (-(a * n * sin E0) / (1 - e * cos E0)) (a * n * β * cos E0 / (1 - e * cos E0)) i) =
        fromOrbit obSE obCE argph orbinc anode (-(gcon * (mu * (S.s1 / R - U1 ul.alpha ψ / r))) - n * a * (sin E / (1 - e * cos E) - sin E0 / (1 - e * cos E0)))
          (-(gcon * phs * (mu * (S.s2 / R - U2 ul.alpha ψ / r))) + n * a * (β * cos E / (1 - e * cos E) - β * cos E0 / (1 - e * cos E0))) := by
      funext i
      rw [hv]
      simp only
      rw [fromOrbit_lin, ← mul_assoc, show 86400 * cd2s = gcon by unfold cd2s spd; ring, fromOrbit_sub]
      have hce := hcE.2.ne'
      congr 1
      · have f1 : gcon * (mu * (U1 ul.alpha ψ / r)) = n * a * (sin E / (1 - e * cos E)) := by
          rw [u1, hrE, hmuk, ← hna]; field_simp
        have f2 : gcon * (q * (-mu * S.s1 / (q * R))) = -(gcon * (mu * (S.s1 / R))) := by field_simp
        rw [f2]
        linear_combination (-1 : ℝ) * f1
      · have f1 : gcon * phs * (1 - mu * U2 ul.alpha ψ / r) = n * a * (β * cos E / (1 - e * cos E)) := by
          have f0 : 1 - a * (1 - cos E) / (a * (1 - e * cos E)) = (1 - e) * cos E / (1 - e * cos E) := by
            rw [mul_div_mul_left _ _ ha0.ne', eq_div_iff hce, sub_mul, div_mul_cancel₀ _ hce]; ring
          rw [u2, hrE, hphs', hβκ, ← hna, f0]; ring
        have f2 : gcon * (phs * (1 - mu * S.s2 / R)) = gcon * phs - gcon * phs * (mu * (S.s2 / R)) := by field_simp
        rw [f2]
        have f3 : gcon * phs * (1 - mu * U2 ul.alpha ψ / r) = gcon * phs - gcon * phs * (mu * (U2 ul.alpha ψ / r)) := by field_simp
        rw [f3] at f1
        linear_combination f1
    rw [eq]
    refine (len_fromOrbit _ _ _ _ _).trans ?_
    have hna0 : 0 < n * a := by rw [← hna]; positivity
    have d1 : |gcon * (mu * (S.s1 / R - U1 ul.alpha ψ / r))| ≤ n * a * (9 * ε * Q) := by
      rw [abs_mul, abs_mul, abs_of_pos hgc, abs_of_pos hmu, ← hna]
      have := mul_le_mul_of_nonneg_left y1 hgc.le
      linarith
    have d2 : |gcon * phs * (mu * (S.s2 / R - U2 ul.alpha ψ / r))| ≤ n * a * κ * (15 * ε * Q) := by
      rw [abs_mul, abs_mul mu, abs_of_pos (by rw [hphs']; positivity), abs_of_pos hmu, hphs', ← hna]
      have := mul_le_mul_of_nonneg_left y2 (by positivity : 0 ≤ gcon * (k * κ))
      linarith
    have d3 : |n * a * (sin E / (1 - e * cos E) - sin E0 / (1 - e * cos E0))| ≤ n * a * (Q * (9.9e-12 * N)) := by
      rw [abs_mul, abs_of_pos hna0]
      exact mul_le_mul_of_nonneg_left (vm1.trans (mul_le_mul_of_nonneg_left hdM hQ0.le)) hna0.le
    have d4 : |n * a * (β * cos E / (1 - e * cos E) - β * cos E0 / (1 - e * cos E0))| ≤ n * a * (Q * (9.9e-12 * N)) := by
      rw [abs_mul, abs_of_pos hna0]
      exact mul_le_mul_of_nonneg_left (vm2.trans (mul_le_mul_of_nonneg_left hdM hQ0.le)) hna0.le
    have t1 := abs_sub (-(gcon * (mu * (S.s1 / R - U1 ul.alpha ψ / r)))) (n * a * (sin E / (1 - e * cos E) - sin E0 / (1 - e * cos E0)))
    have t2 := abs_add_le (-(gcon * phs * (mu * (S.s2 / R - U2 ul.alpha ψ / r)))) (n * a * (β * cos E / (1 - e * cos E) - β * cos E0 / (1 - e * cos E0)))
    rw [abs_neg] at t1 t2
    have hfin : 4e-11 * N * κ * (n * a) / (1 - e) ^ 2 = 4e-11 * (n * a * κ * (Q * N)) := by rw [hQ]; ring
    rw [hfin]
    have g0 : 0 ≤ n * a * (Q * N) := by positivity
    have g1 : n * a * (9 * ε * Q) ≤ 7.38e-12 * (n * a * (Q * N)) := by
      have := mul_le_mul_of_nonneg_left hεN (by positivity : 0 ≤ n * a * Q)
      linarith
    have g2 : n * a * κ * (15 * ε * Q) ≤ 1.23e-11 * (n * a * κ * (Q * N)) := by
      have := mul_le_mul_of_nonneg_left hεN (by positivity : 0 ≤ n * a * κ * Q)
      linarith
    have g3 : n * a * (Q * N) ≤ n * a * κ * (Q * N) := by
      have := mul_le_mul_of_nonneg_left hκ1 g0
      linarith only [this]
    linarith

/-- The distance test of palPv2ue and the lengths below, for an orbit in the ecliptic. -/
theorem fromOrbit_zero (x y : ℝ) : fromOrbit obSE obCE 0 0 0 x y = ![x, y * obCE, y * obSE] := by
  rw [← orbitToEqu_eq]
  unfold orbitToEqu
  simp

theorem len_zero_ge (x y c : ℝ) (hc : 0 ≤ c) (hy : c * (10001 / 10000) ≤ y) : c ≤ len (fromOrbit obSE obCE 0 0 0 x y) := by
  rw [fromOrbit_zero]
  unfold len
  refine Real.le_sqrt_of_sq_le ?_
  simp only [Fin.sum_univ_three, Matrix.cons_val_zero, Matrix.cons_val_one, Matrix.cons_val]
  have h1 : 9999 / 10000 ≤ obCE ^ 2 + obSE ^ 2 := by unfold obCE obSE; norm_num
  have h2 : (c * (10001 / 10000)) ^ 2 ≤ y ^ 2 := pow_le_pow_left₀ (by positivity) hy 2
  have h3 : y ^ 2 * (9999 / 10000) ≤ y ^ 2 * (obCE ^ 2 + obSE ^ 2) := mul_le_mul_of_nonneg_left h1 (sq_nonneg y)
  linarith [sq_nonneg x, sq_nonneg c]

/-- palPlanel succeeds when palUe2pv does with the elements at perihelion and the result is not too close or too slow. -/
theorem planel_of_ue {date : ℝ} {jform : ℤ} {epoch orbinc anode perih aorq e aorl dm pht argph q mu : ℝ} (u u'' : Univ) (pv pv1 : PV) (hg : GoodElements jform aorq e dm)
    (hs : elStd jform epoch anode perih aorq e aorl dm = (pht, argph, q, mu)) (hmu : 1 ≤ mu)
    (hue : palUe2pv date (elPerihelion date pht argph q mu orbinc anode e) ⟨fun _ => 0, fun _ => 0⟩ = some (u'', pv1, 0))
    (hp : 1 / 10 ^ 3 ≤ len pv1.p) (hv : 1 / 10 ^ 3 ≤ len fun i => pv1.v i / cd2s) :
    palPlanel date jform epoch orbinc anode perih aorq e aorl dm u pv = some (pv1, 0) := by
  obtain ⟨u', j, h1, h2⟩ := C84_planel date jform epoch orbinc anode perih aorq e aorl dm u pv
  rw [h2]
  rw [el2ue_good u hg, hs] at h1
  simp only at h1
  rw [hue] at h1
  simp only [ne_eq, not_true_eq_false, if_false] at h1
  have hst := (C61_status pv1 date (mu - 1) u).2.2.2 (by linarith) hp hv
  rw [hst] at h1
  simp only [not_true_eq_false, if_false, Option.some.injEq, Prod.mk.injEq] at h1
  obtain ⟨hu', rfl⟩ := h1
  obtain ⟨-, -, -, hp', hv'⟩ := C61_elements _ _ _ _ _ (Prod.ext hu' hst)
  rw [if_pos rfl, hp', hv']
  simp only [mul_div_cancel₀ _ cd2s_ne]

/-- Half a canonical day into a circular orbit of unit radius, palPlanel succeeds. -/
theorem circular_runs (u : Univ) (pv : PV) : ∃ pv', palPlanel (1 / 2 / gcon) 3 0 0 0 0 1 0 0 0 u pv = some (pv', 0) := by
  have hg0 : 0 < gcon := by unfold gcon; norm_num
  have hdate : (1 / 2 / gcon - 0) * gcon = 1 / 2 := by rw [sub_zero, div_mul_cancel₀ _ hg0.ne']
  have hul : elPerihelion (1 / 2 / gcon) 0 0 1 1 0 0 0 =
      ⟨1, -1, 0, fromOrbit obSE obCE 0 0 0 1 0, fromOrbit obSE obCE 0 0 0 0 1, 1, 0, 1 / 2 / gcon, 1 / 2⟩ := by
    unfold elPerihelion
    dsimp only
    rw [orbitToEqu_eq, orbitToEqu_eq, hdate]
    norm_num
  obtain ⟨S, hS⟩ : ∃ S, S = ueFun (-1) (1 / 2) := ⟨_, rfl⟩
  have hsm : S = ueSeries (-1) (1 / 2) (1 / 2 * (1 / 2)) (-1 * (1 / 2 * (1 / 2))) := by rw [hS]; exact ueFun_small (by norm_num [abs_le])
  have b3 : S.s3 ≤ 1 / 10 := by rw [hsm]; unfold ueSeries; norm_num
  have b2 : S.s2 ≤ 1 / 5 := by rw [hsm]; unfold ueSeries; norm_num
  have b0 : S.s0 = 1 - S.s2 := by rw [hsm]; unfold ueSeries; ring
  have b1 : S.s1 = 1 / 2 - S.s3 := by rw [hsm]; unfold ueSeries; ring
  have hl : ueLoop ⟨1, -1, 0, fromOrbit obSE obCE 0 0 0 1 0, fromOrbit obSE obCE 0 0 0 0 1, 1, 0, 1 / 2 / gcon, 1 / 2⟩ (1 / 2) 1 (1 / 2) 0 0 = .done (1 / 2) S 1 := by
    have tolS : S.tol = 1 / 10 ^ 13 := by rw [hsm]; rfl
    rw [ueLoop]
    dsimp only
    rw [← hS]
    simp only [ueFF, ueR]
    have e1 : 1 * S.s1 + 0 * S.s2 + 1 * S.s3 - 1 / 2 = 0 := by rw [b1]; ring
    have e2 : 1 * S.s0 + 0 * S.s1 + 1 * S.s2 = 1 := by rw [b0]; ring
    rw [e1, e2, tolS]
    norm_num
  refine ⟨⟨fromOrbit obSE obCE 0 0 0 (1 * (1 - 1 * S.s2 / 1)) (1 * (1 / 2 - 1 * S.s3)), fun i => cd2s * fromOrbit obSE obCE 0 0 0 (1 * (-1 * S.s1 / (1 * 1))) (1 * (1 - 1 * S.s2 / 1)) i⟩,
    planel_of_ue (pht := 0) (argph := 0) (q := 1) (mu := 1)
      u ⟨1, -1, 0, fromOrbit obSE obCE 0 0 0 1 0, fromOrbit obSE obCE 0 0 0 0 1, 1, 0, 1 / 2 / gcon, 1 / 2⟩ pv _ ⟨by norm_num, by norm_num, by norm_num, by norm_num, Or.inr rfl, by norm_num, fun h => absurd h (by norm_num)⟩ (by unfold elStd; simp) le_rfl ?_ ?_ ?_⟩
  · rw [hul]
    unfold palUe2pv
    dsimp only
    rw [if_neg one_ne_zero, hdate, sub_self, zero_mul, zero_div, add_zero, hl]
    dsimp only
    rw [if_neg one_ne_zero]
    simp only [fromOrbit_lin]
  · exact len_zero_ge _ _ _ (by norm_num) (by linarith)
  · simp only [mul_div_cancel_left₀ _ cd2s_ne]
    exact len_zero_ge _ _ _ (by norm_num) (by linarith)

/-- The hypotheses of C112_ellipse_partial are met: a circular orbit, half a canonical day after the epoch. -/
example : ∃ pv' : PV, palPlanel (1 / 2 / gcon) 3 0 0 0 0 1 0 0 0 ⟨0, 0, 0, fun _ => 0, fun _ => 0, 0, 0, 0, 0⟩ ⟨fun _ => 0, fun _ => 0⟩ = some (pv', 0) ∧ (0 : ℝ) < 1 ∧
    standardForm 3 0 0 0 1 0 0 0 = (0, 0, 1, 1) ∧ (1 : ℝ) ≤ 10 ^ 18 * (1 / (1 - 0)) := by
  obtain ⟨pv', h⟩ := circular_runs ⟨0, 0, 0, fun _ => 0, fun _ => 0, 0, 0, 0, 0⟩ ⟨fun _ => 0, fun _ => 0⟩
  exact ⟨pv', h, one_pos, by simp [standardForm], by norm_num⟩

/-- The cube root in palEl2ue solves the equation of the parabola. -/
theorem parabola_guess {q : ℝ} (hq : 0 < q) (dt : ℝ) :
    ∃ f, f = (3 * dt + √(9 * dt * dt + 8 * q * q * q)) ^ ((1 : ℝ) / 3) - 2 * q / (3 * dt + √(9 * dt * dt + 8 * q * q * q)) ^ ((1 : ℝ) / 3) ∧ q * f + f ^ 3 / 6 = dt := by
  refine ⟨_, rfl, ?_⟩
  set s := √(9 * dt * dt + 8 * q * q * q) with hs
  have hs2 : s ^ 2 = 9 * dt * dt + 8 * q * q * q := Real.sq_sqrt (by nlinarith [sq_nonneg dt, pow_pos hq 3])
  have hs0 : 0 ≤ s := Real.sqrt_nonneg _
  have hA : 0 < 3 * dt + s := by
    by_contra hc
    have h1 : s ≤ -(3 * dt) := by linarith
    have : s ^ 2 ≤ (3 * dt) ^ 2 := by nlinarith
    nlinarith [pow_pos hq 3]
  set w := (3 * dt + s) ^ ((1 : ℝ) / 3) with hw
  have hw0 : 0 < w := Real.rpow_pos_of_pos hA _
  have hw3 : w ^ 3 = 3 * dt + s := by
    rw [hw, ← Real.rpow_natCast, ← Real.rpow_mul hA.le]
    norm_num
  clear_value w s
  have key : (w ^ 3 - 3 * dt) ^ 2 = 9 * dt * dt + 8 * q * q * q := by rw [hw3, ← hs2]; ring
  have : q * (w - 2 * q / w) + (w - 2 * q / w) ^ 3 / 6 - dt = ((w ^ 3 - 3 * dt) ^ 2 - (9 * dt * dt + 8 * q * q * q)) / (6 * w ^ 3) := by
    field_simp
    ring
  rw [key, sub_self, zero_div] at this
  linarith

set_option maxHeartbeats 1000000 in
/-- **C112** (parabolas) For parabolic elements palPlanel is exact: it returns the position and velocity of motion on the parabola at the date asked for (canonical days), and it
never fails, except that it refuses positions within 0.001 AU of the Sun and speeds below 0.001 AU per canonical day. -/
theorem C112_parabola_partial (date epoch orbinc anode perih q aorl dm : ℝ) (u : Univ) (pv : PV) (hq : 0 < q) :
    ∃ x y xd yd, KeplerParabola q 1 ((date - epoch) * gcon) x y xd yd ∧
      (1 / 10 ^ 3 ≤ len (fromOrbit obSE obCE perih orbinc anode x y) → 1 / 10 ^ 3 ≤ len (fromOrbit obSE obCE perih orbinc anode xd yd) →
        palPlanel date 3 epoch orbinc anode perih q 1 aorl dm u pv =
          some ({ p := fromOrbit obSE obCE perih orbinc anode x y, v := fun i => cd2s * fromOrbit obSE obCE perih orbinc anode xd yd i }, 0)) := by
  obtain ⟨f, hf, hfe⟩ := parabola_guess hq ((date - epoch) * gcon)
  set dt := (date - epoch) * gcon with hdt
  set phs := √(1 * (1 - 1) / q + 2 * 1 / q) with hphs
  have hphs2 : phs ^ 2 = 2 / q := by rw [hphs, Real.sq_sqrt (by rw [sub_self, mul_zero, zero_div, zero_add]; positivity)]; simp
  have hphs0 : 0 ≤ phs := Real.sqrt_nonneg _
  have hR : 0 < q + f ^ 2 / 2 := by positivity
  have hlin : ∀ c x d y, (fun j => fromOrbit obSE obCE perih orbinc anode x 0 j * c + fromOrbit obSE obCE perih orbinc anode 0 y j * d) =
      fromOrbit obSE obCE perih orbinc anode (x * c) (y * d) := fun c x d y => funext fun j => fromOrbit_lin _ _ _ _ _ _ _ _
  refine ⟨q * (1 - 1 * (f ^ 2 / 2) / q), phs * (dt - 1 * (f ^ 3 / 6)), q * (-1 * f / (q * (q + f ^ 2 / 2))), phs * (1 - 1 * (f ^ 2 / 2) / (q + f ^ 2 / 2)), ?_, ?_⟩
  · -- D, the tangent of half the true anomaly
    have h2q : 0 < 2 * q := by linarith
    set c := √(2 * q) with hc
    have hc2 : c ^ 2 = 2 * q := Real.sq_sqrt h2q.le
    have hc0 : 0 < c := Real.sqrt_pos.2 h2q
    have hpc : phs = c / q := by
      refine (pow_left_inj₀ hphs0 (by positivity) (by norm_num : (2 : ℕ) ≠ 0)).1 ?_
      rw [hphs2, div_pow, hc2]; field_simp
    have s1 : √(2 * q ^ 3 / 1) = c * q := by
      rw [show 2 * q ^ 3 / 1 = (2 * q) * q ^ 2 by ring, Real.sqrt_mul h2q.le, Real.sqrt_sq hq.le, ← hc]
    have s2 : √(2 * 1 / q) = c / q := by
      rw [show 2 * 1 / q = (2 * q) / q ^ 2 by field_simp, Real.sqrt_div h2q.le, Real.sqrt_sq hq.le, ← hc]
    have hd2 : 1 + (f / c) ^ 2 = (q + f ^ 2 / 2) / q := by rw [div_pow, hc2]; field_simp
    refine ⟨f / c, ?_, ?_, ?_, ?_, ?_⟩
    · rw [s1, ← hfe]
      have e3 : c * q * (f / c + (f / c) ^ 3 / 3) = q * f + q * f ^ 3 / (3 * c ^ 2) := by field_simp
      rw [e3, hc2]; field_simp; ring
    · rw [div_pow, hc2]; field_simp
    · have : dt - 1 * (f ^ 3 / 6) = q * f := by linarith
      rw [this, hpc]
      have e3 : c / q * (q * f) = c ^ 2 * f / c := by field_simp
      rw [e3, hc2]; ring
    · rw [hd2, s2]
      have e3 : c / q * (f / c) = f / q := by field_simp
      rw [e3]; field_simp
    · rw [hd2, s2, hpc]; field_simp; ring
  · intro hp hv
    have hg : GoodElements 3 q 1 dm := ⟨by norm_num, by norm_num, by norm_num, by norm_num, Or.inr rfl, hq, fun h => absurd h (by norm_num)⟩
    have hul : elPerihelion date epoch perih q 1 orbinc anode 1 =
        { cm := 1, alpha := 0, t0 := epoch, p0 := fromOrbit obSE obCE perih orbinc anode q 0, v0 := fromOrbit obSE obCE perih orbinc anode 0 phs,
          r0 := q, sigma := 0, t := date, psi := f } := by
      unfold elPerihelion
      dsimp only
      rw [orbitToEqu_eq, orbitToEqu_eq, ← hdt, ← hf, ← hphs]
      simp
    have hS : ueFun 0 f = { s0 := 1, s1 := f, s2 := f ^ 2 / 2, s3 := f ^ 3 / 6, tol := 1 / 10 ^ 13 } := by
      rw [ueFun_small (by simp; norm_num)]
      simp only [ueSeries, UeFun.mk.injEq]
      refine ⟨by ring, by ring, by ring, by ring, trivial⟩
    have hue : palUe2pv date (elPerihelion date epoch perih q 1 orbinc anode 1) ⟨fun _ => 0, fun _ => 0⟩ =
        some (elPerihelion date epoch perih q 1 orbinc anode 1, ⟨fromOrbit obSE obCE perih orbinc anode (q * (1 - 1 * (f ^ 2 / 2) / q)) (phs * (dt - 1 * (f ^ 3 / 6))),
          fun i => cd2s * fromOrbit obSE obCE perih orbinc anode (q * (-1 * f / (q * (q + f ^ 2 / 2)))) (phs * (1 - 1 * (f ^ 2 / 2) / (q + f ^ 2 / 2))) i⟩, 0) := by
      rw [hul]
      unfold palUe2pv
      rw [if_neg hq.ne']
      dsimp only
      rw [← hdt, sub_self, zero_mul, zero_div, add_zero]
      have hl : ueLoop ⟨1, 0, epoch, fromOrbit obSE obCE perih orbinc anode q 0, fromOrbit obSE obCE perih orbinc anode 0 phs, q, 0, date, f⟩ dt 1 f 0 0 = .done f { s0 := 1, s1 := f, s2 := f ^ 2 / 2, s3 := f ^ 3 / 6, tol := 1 / 10 ^ 13 } (q + f ^ 2 / 2) := by
        rw [ueLoop]
        dsimp only
        rw [hS]
        simp only [ueFF, ueR]
        have e1 : q * f + 0 * (f ^ 2 / 2) + 1 * (f ^ 3 / 6) - dt = 0 := by linarith
        have e2 : q * 1 + 0 * f + 1 * (f ^ 2 / 2) = q + f ^ 2 / 2 := by ring
        rw [e1, e2]
        simp [hR.ne']
      rw [hl]
      dsimp only
      rw [if_neg hR.ne', hlin]
      simp only [fromOrbit_lin]
    exact planel_of_ue (pht := epoch) (argph := perih) (q := q) (mu := 1) u _ pv _ hg (by unfold elStd; simp) le_rfl hue hp
      (by simpa only [mul_div_cancel_left₀ _ cd2s_ne] using hv)

/-- A case of C112_parabola_partial: perihelion at 1 AU, 7/6 canonical days after it, where the tangent of half the true anomaly is 1/√2; the distance is 3/2. -/
example : KeplerParabola 1 1 (7 / 6) (1 / 2) √2 (-(2 / 3)) (2 * √2 / 3) := by
  have h2 : √2 ^ 2 = (2 : ℝ) := Real.sq_sqrt (by norm_num)
  have h0 : √(2 : ℝ) ≠ 0 := by positivity
  have e1 : √(2 * 1 ^ 3 / 1 : ℝ) = √2 := by norm_num
  have e2 : √(2 * 1 / 1 : ℝ) = √2 := by norm_num
  refine ⟨√2 / 2, ?_, ?_, ?_, ?_, ?_⟩
  · rw [e1]; linear_combination (-(1 / 2) - (√2 ^ 2 + 2) / 24) * h2
  · linear_combination (1 / 4) * h2
  · ring
  · rw [e2]; linear_combination (1 / 3) * h2
  · rw [e2]; linear_combination (√2 / 6) * h2

theorem undo_large {psj : ℝ} {f : UeFun} (h0 : 1.11 ≤ f.s0) (h1 : 1 ≤ f.s1) (h3 : 0 ≤ f.s3) (h2 : 0 ≤ f.s2) (hp : 0 ≤ psj) (ht : f.tol = 1 / 10 ^ 13) :
    (10 : ℝ) ^ 20 ≤ (ueUndo 7 psj f).s1 ∧ 0 ≤ (ueUndo 7 psj f).s3 ∧ (ueUndo 7 psj f).tol = 128 / 10 ^ 13 := by
  have step : ∀ (c d c' d' t : ℝ) (g : UeFun) (p : ℝ), 1 ≤ c → 0 ≤ d → c' ≤ 2 * c * c - 1 → d' ≤ 2 * c * d → (c ≤ g.s0 ∧ d ≤ g.s1 ∧ 0 ≤ g.s2 ∧ 0 ≤ g.s3 ∧ 0 ≤ p ∧ g.tol = t) →
      ∃ g' : UeFun, (∀ n, ueUndo (n + 1) p g = ueUndo n (p + p) g') ∧ (c' ≤ g'.s0 ∧ d' ≤ g'.s1 ∧ 0 ≤ g'.s2 ∧ 0 ≤ g'.s3 ∧ 0 ≤ p + p ∧ g'.tol = t + t) := by
    rintro c d c' d' t g p hc hd hc' hd' ⟨k0, k1, k2, k3, kp, rfl⟩
    refine ⟨⟨2 * g.s0 * g.s0 - 1, 2 * g.s0 * g.s1, 2 * g.s1 * g.s1, 2 * (g.s0 * g.s3 + p * g.s2), g.tol + g.tol⟩, fun n => rfl, ?_, ?_, ?_, ?_, by linarith, rfl⟩
    · have := mul_self_le_mul_self (by linarith) k0
      dsimp only; linarith
    · have := mul_le_mul k0 k1 hd (by linarith)
      dsimp only; linarith
    · have : 0 ≤ g.s1 := hd.trans k1
      dsimp only; positivity
    · have : 0 ≤ g.s0 := by linarith
      dsimp only; positivity
  obtain ⟨g1, e1, b1⟩ := step 1.11 1 1.46 2 _ f psj (by norm_num) (by norm_num) (by norm_num) (by norm_num) ⟨h0, h1, h2, h3, hp, ht⟩
  obtain ⟨g2, e2, b2⟩ := step _ _ 3.2 5.8 _ g1 _ (by norm_num) (by norm_num) (by norm_num) (by norm_num) b1
  obtain ⟨g3, e3, b3⟩ := step _ _ 19 37 _ g2 _ (by norm_num) (by norm_num) (by norm_num) (by norm_num) b2
  obtain ⟨g4, e4, b4⟩ := step _ _ 720 1400 _ g3 _ (by norm_num) (by norm_num) (by norm_num) (by norm_num) b3
  obtain ⟨g5, e5, b5⟩ := step _ _ (10 ^ 6) (2 * 10 ^ 6) _ g4 _ (by norm_num) (by norm_num) (by norm_num) (by norm_num) b4
  obtain ⟨g6, e6, b6⟩ := step _ _ (10 ^ 12) (4 * 10 ^ 12) _ g5 _ (by norm_num) (by norm_num) (by norm_num) (by norm_num) b5
  obtain ⟨g7, e7, b7⟩ := step _ _ (10 ^ 24) (8 * 10 ^ 24) _ g6 _ (by norm_num) (by norm_num) (by norm_num) (by norm_num) b6
  rw [e1, e2, e3, e4, e5, e6, e7]
  refine ⟨?_, b7.2.2.2.1, ?_⟩
  · have := b7.2.1
    show _ ≤ g7.s1
    linarith
  · show g7.tol = _
    rw [b7.2.2.2.2.2]; norm_num

/-- At PSI = 300 the universal functions of the counterexample are astronomically large. -/
theorem fun_at_300 : (10 : ℝ) ^ 20 ≤ (ueFun (1 / 24) 300).s1 ∧ 0 ≤ (ueFun (1 / 24) 300).s3 ∧ (ueFun (1 / 24) 300).tol = 128 / 10 ^ 13 := by
  have hh : ueHalve 0 300 (300 * 300) (1 / 24 * (300 * 300)) = (7, 300 / 128, 90000 / 4 ^ 7, 3750 / 4 ^ 7) := by
    iterate 7 rw [ueHalve, if_pos (by rw [abs_of_pos (by norm_num)]; norm_num)]
    rw [ueHalve, if_neg (by rw [abs_of_pos (by norm_num)]; norm_num)]
    norm_num
  unfold ueFun
  rw [hh]
  dsimp only
  refine undo_large ?_ ?_ ?_ ?_ (by norm_num) rfl <;> · unfold ueSeries; norm_num

theorem nest_step {x b d : ℝ} (hx : 1 ≤ x ∧ x ≤ 2) (hb : 0 ≤ b) (hb1 : b ≤ 1) (hd : 2 ≤ d) : 1 ≤ x * b / d + 1 ∧ x * b / d + 1 ≤ 2 := by
  have h0 : 0 ≤ x * b := mul_nonneg (by linarith) hb
  have h1 : x * b ≤ 2 := by
    have := mul_le_mul hx.2 hb1 hb (by norm_num)
    linarith
  constructor
  · have : 0 ≤ x * b / d := div_nonneg h0 (by linarith)
    linarith
  · have : x * b / d ≤ 1 := (div_le_one (by linarith)).2 (by linarith)
    linarith

/-- Near PSI = 0 the universal functions are close to their values at zero. -/
theorem series_small {a p b : ℝ} (ha : 0 ≤ a) (ha1 : a ≤ 1) (hp : 0 ≤ p) (hp1 : p ≤ 1 / 10 ^ 14) (hb : 0 ≤ b) (hb1 : b ≤ 1) :
    1 ≤ (ueSeries a p (p * p) b).s0 ∧ 0 ≤ (ueSeries a p (p * p) b).s1 ∧ (ueSeries a p (p * p) b).s1 ≤ 1 / 10 ^ 10 ∧
      0 ≤ (ueSeries a p (p * p) b).s2 ∧ (ueSeries a p (p * p) b).s2 ≤ 1 / 10 ^ 10 ∧ 0 ≤ (ueSeries a p (p * p) b).s3 ∧ (ueSeries a p (p * p) b).s3 ≤ 1 / 10 ^ 10 := by
  have e0 : 1 ≤ b / 210 + 1 ∧ b / 210 + 1 ≤ 2 := by constructor <;> linarith
  have e1 : 1 ≤ b / 182 + 1 ∧ b / 182 + 1 ≤ 2 := by constructor <;> linarith
  obtain ⟨c3, hc3, d3⟩ : ∃ c, c = (((((b / 210 + 1) * b / 156 + 1) * b / 110 + 1) * b / 72 + 1) * b / 42 + 1) * b / 20 + 1 ∧ (1 ≤ c ∧ c ≤ 2) := by
    refine ⟨_, rfl, ?_⟩
    iterate 5 refine nest_step ?_ hb hb1 (by norm_num)
    exact e0
  obtain ⟨c2, hc2, d2⟩ : ∃ c, c = (((((b / 182 + 1) * b / 132 + 1) * b / 90 + 1) * b / 56 + 1) * b / 30 + 1) * b / 12 + 1 ∧ (1 ≤ c ∧ c ≤ 2) := by
    refine ⟨_, rfl, ?_⟩
    iterate 5 refine nest_step ?_ hb hb1 (by norm_num)
    exact e1
  have hpp0 : 0 ≤ p * p := mul_nonneg hp hp
  have hpp : p * p ≤ 1 / 10 ^ 14 := by nlinarith
  have s2a : 0 ≤ p * p * c2 / 2 := by have := d2.1; positivity
  have s2b : p * p * c2 / 2 ≤ 1 / 10 ^ 14 := by
    have := mul_le_mul hpp d2.2 (by linarith [d2.1]) (by norm_num)
    linarith
  have s3a : 0 ≤ p * (p * p) * c3 / 6 := by have := d3.1; positivity
  have s3b : p * (p * p) * c3 / 6 ≤ 1 / 10 ^ 14 := by
    have h1 : p * (p * p) ≤ 1 / 10 ^ 14 := by nlinarith
    have := mul_le_mul h1 d3.2 (by linarith [d3.1]) (by norm_num)
    linarith
  unfold ueSeries
  dsimp only
  rw [← hc2, ← hc3]
  have as2 : 0 ≤ a * (p * p * c2 / 2) := mul_nonneg ha s2a
  have as3 : 0 ≤ a * (p * (p * p) * c3 / 6) := mul_nonneg ha s3a
  have as3' : a * (p * (p * p) * c3 / 6) ≤ 1 * (p * (p * p) * c3 / 6) := mul_le_mul_of_nonneg_right ha1 s3a
  refine ⟨by linarith, by linarith, by linarith, s2a, by linarith, s3a, by linarith⟩

/-- On the true hyperbola the second coordinate is below 50 AU. -/
theorem true_hyperbola {x y xd yd M : ℝ} (hM : M < 2.56) (h : KeplerHyperbola 24 (25 / 24) (gcon * √(1 / 24 ^ 3)) M x y xd yd) : y ≤ 50 := by
  obtain ⟨F, hF, -, hy, -, -⟩ := h
  have hs : √((25 / 24 : ℝ) ^ 2 - 1) = 7 / 24 := by
    rw [show ((25 / 24 : ℝ) ^ 2 - 1) = (7 / 24) ^ 2 by norm_num, Real.sqrt_sq (by norm_num)]
  rw [hs] at hy
  have hy' : y = 7 * sinh F := by rw [hy]; ring
  rcases le_or_gt F 0 with h0 | h0
  · have := Real.sinh_nonpos_iff.2 h0
    linarith
  · have h1 := Real.quadratic_le_exp_of_nonneg h0.le
    have h2 : exp (-F) ≤ 1 := Real.exp_le_one_iff.2 (by linarith)
    have h3 : F / 2 + F ^ 2 / 4 ≤ sinh F := by rw [Real.sinh_eq]; linarith
    have h4 : F ≤ 4.5 := by
      by_contra hc
      push Not at hc
      nlinarith
    linarith

set_option maxHeartbeats 1000000 in
/-- **C112** (hyperbolas) is false of the code: for the elements below (perihelion distance 1 AU, eccentricity 25/24) palPlanel reports success for a date 17440 days after
perihelion, and the position it returns is more than 300 AU from where any body on that orbit can be.  (The secant step of palUe2pv starts from a trial value for which
the universal functions overflow all bounds, makes a negligible change, and is taken for convergence.) -/
theorem C112_hyperbola_refuted : ∃ (date : ℝ) (pv' : PV), 17439 < date ∧ date < 17440 ∧ (∀ u pv, palPlanel date 3 0 0 0 0 1 (25 / 24) 0 0 u pv = some (pv', 0)) ∧
    ∀ x y xd yd, KeplerHyperbola 24 (25 / 24) (gcon * √(1 / 24 ^ 3)) (gcon * √(1 / 24 ^ 3) * date) x y xd yd →
      300 < len (fun i => pv'.p i - fromOrbit obSE obCE 0 0 0 x y i) := by
  have hg0 : 0 < gcon := by unfold gcon; norm_num
  obtain ⟨f, hf, hfe⟩ := parabola_guess one_pos 300
  have hf12 : f = 12 := by
    by_contra hne
    have : (f - 12) * (6 + f ^ 2 + 12 * f + 144) = 0 := by linarith
    rcases mul_eq_zero.1 this with h | h
    · exact hne (by linarith)
    · nlinarith [sq_nonneg (f + 6)]
  obtain ⟨phs, hphs⟩ : ∃ s, s = √(1 * (25 / 24 - 1) / 1 + 2 * 1 / (1 : ℝ)) := ⟨_, rfl⟩
  have hphs1 : 1.42 ≤ phs := by rw [hphs]; exact Real.le_sqrt_of_sq_le (by norm_num)
  have hdate : (300 / gcon - 0) * gcon = 300 := by rw [sub_zero, div_mul_cancel₀ _ hg0.ne']
  have hul : elPerihelion (300 / gcon) 0 0 1 1 0 0 (25 / 24) =
      ⟨1, 1 / 24, 0, fromOrbit obSE obCE 0 0 0 1 0, fromOrbit obSE obCE 0 0 0 0 phs, 1, 0, 300 / gcon, 0⟩ := by
    unfold elPerihelion
    dsimp only
    rw [orbitToEqu_eq, orbitToEqu_eq, hdate, ← hf, hf12, ← hphs]
    norm_num
  obtain ⟨h1, h3, htol⟩ := fun_at_300
  obtain ⟨f1, hf1⟩ : ∃ f1, f1 = (ueFun (1 / 24) 300).s1 + (ueFun (1 / 24) 300).s3 - 300 := ⟨_, rfl⟩
  have hf1b : 9.9e19 ≤ f1 := by rw [hf1]; linarith
  obtain ⟨δ, hδ⟩ : ∃ δ, δ = 300 - f1 * (0 - 300) / (-300 - f1) := ⟨_, rfl⟩
  have hδe : δ * (300 + f1) = 90000 := by
    rw [hδ]
    have : (-300 - f1) ≠ 0 := by linarith
    field_simp
    ring
  have hδ0 : 0 ≤ δ := by
    by_contra hc
    push Not at hc
    nlinarith
  have hδ1 : δ ≤ 1 / 10 ^ 14 := by
    by_contra hc
    push Not at hc
    have := mul_lt_mul hc (by linarith : (9.9e19 : ℝ) ≤ 300 + f1) (by norm_num) hδ0
    norm_num at this
    linarith
  obtain ⟨S, hS⟩ : ∃ S, S = ueFun (1 / 24) δ := ⟨_, rfl⟩
  have hβ0 : 0 ≤ 1 / 24 * (δ * δ) := by positivity
  have hβ1 : 1 / 24 * (δ * δ) ≤ 7 / 10 := by nlinarith
  have hsm : S = ueSeries (1 / 24) δ (δ * δ) (1 / 24 * (δ * δ)) := by rw [hS]; exact ueFun_small (by rw [abs_of_nonneg hβ0]; exact hβ1)
  obtain ⟨a0, a1, a1', a2, a2', a3, a3'⟩ : 1 ≤ S.s0 ∧ 0 ≤ S.s1 ∧ S.s1 ≤ 1 / 10 ^ 10 ∧ 0 ≤ S.s2 ∧ S.s2 ≤ 1 / 10 ^ 10 ∧ 0 ≤ S.s3 ∧ S.s3 ≤ 1 / 10 ^ 10 := by
    rw [hsm]; exact series_small (by norm_num) (by norm_num) hδ0 hδ1 hβ0 (by linarith)
  have at0 : S.tol = 1 / 10 ^ 13 := by rw [hsm]; rfl
  have hz : ueFun (1 / 24) 0 = ⟨1, 0, 0, 0, 1 / 10 ^ 13⟩ := by
    rw [ueFun_small (by simp; norm_num)]
    simp [ueSeries]
  obtain ⟨ul, hule⟩ : ∃ ul : Univ, ul = ⟨1, 1 / 24, 0, fromOrbit obSE obCE 0 0 0 1 0, fromOrbit obSE obCE 0 0 0 0 phs, 1, 0, 300 / gcon, 0⟩ := ⟨_, rfl⟩
  have u1 : ul.alpha = 1 / 24 := by rw [hule]
  have u2 : ul.r0 = 1 := by rw [hule]
  have u3 : ul.sigma = 0 := by rw [hule]
  have u4 : ul.cm = 1 := by rw [hule]
  obtain ⟨r, hr⟩ : ∃ r, r = S.s0 + S.s2 := ⟨_, rfl⟩
  have hr1 : 1 ≤ r := by rw [hr]; linarith
  -- the three passes
  have pass3 : ∃ ψ, ueLoop ul 300 3 δ 300 f1 = .done ψ S r := by
    rw [ueLoop]
    dsimp only
    rw [u1, ← hS]
    unfold ueFF ueR
    rw [u2, u3, u4]
    have er : 1 * S.s0 + 0 * S.s1 + 1 * S.s2 = r := by rw [hr]; ring
    obtain ⟨f2, hf2⟩ : ∃ f2, f2 = 1 * S.s1 + 0 * S.s2 + 1 * S.s3 - 300 := ⟨_, rfl⟩
    rw [er, ← hf2]
    have hf2a : -300 ≤ f2 := by rw [hf2]; linarith
    have hf2b : f2 ≤ -299 := by rw [hf2]; linarith
    have hneg : f2 * f1 < 0 := mul_neg_of_neg_of_pos (by linarith) (by linarith)
    rw [if_neg (by norm_num : ¬ (3 : ℕ) = 1), if_neg (fun h => h.1 hneg), if_pos hneg, if_neg (by norm_num), if_neg]
    · exact ⟨_, rfl⟩
    · rw [at0, not_le, abs_div, abs_mul, abs_of_pos (by linarith : 0 < f1 - f2), abs_of_neg (by linarith : f2 < 0), abs_of_pos (by linarith : 0 < 300 - δ),
        div_lt_iff₀ (by linarith)]
      have : -f2 * (300 - δ) ≤ 300 * 300 := mul_le_mul (by linarith) (by linarith) (by linarith) (by norm_num)
      linarith
  have pass2 : ueLoop ul 300 2 300 0 (-300) = ueLoop ul 300 3 δ 300 f1 := by
    rw [ueLoop]
    dsimp only
    unfold ueFF ueR
    rw [u1, u2, u3, u4, htol]
    have ef : 1 * (ueFun (1 / 24) 300).s1 + 0 * (ueFun (1 / 24) 300).s2 + 1 * (ueFun (1 / 24) 300).s3 - 300 = f1 := by rw [hf1]; ring
    rw [ef]
    have hneg : f1 * (-300) < 0 := by linarith
    rw [if_neg (by norm_num : ¬ (2 : ℕ) = 1), if_neg (fun h => h.1 hneg), if_pos hneg, if_neg (by norm_num), if_pos, ← hδ]
    have : f1 * (0 - 300) / (-300 - f1) = 300 - δ := by linarith
    rw [this, abs_of_pos (by linarith)]
    linarith
  have pass1 : ueLoop ul 300 1 0 0 0 = ueLoop ul 300 2 300 0 (-300) := by
    rw [ueLoop]
    dsimp only
    unfold ueFF ueR
    rw [u1, u2, u3, u4, hz]
    norm_num
  obtain ⟨ψ, hloop⟩ := pass3
  rw [← pass2, ← pass1] at hloop
  obtain ⟨X, hX⟩ : ∃ X, X = 1 * (1 - 1 * S.s2 / 1) := ⟨_, rfl⟩
  obtain ⟨Y, hY⟩ : ∃ Y, Y = phs * (300 - 1 * S.s3) := ⟨_, rfl⟩
  obtain ⟨XD, hXD⟩ : ∃ X, X = 1 * (-1 * S.s1 / (1 * r)) := ⟨_, rfl⟩
  obtain ⟨YD, hYD⟩ : ∃ Y, Y = phs * (1 - 1 * S.s2 / r) := ⟨_, rfl⟩
  have hYb : 420 ≤ Y := by
    rw [hY]
    have := mul_le_mul hphs1 (by linarith : (299 : ℝ) ≤ 300 - 1 * S.s3) (by norm_num) (by linarith)
    linarith
  have hYDb : 1 ≤ YD := by
    rw [hYD]
    have h2 : 1 * S.s2 / r ≤ 1 / 10 := by rw [div_le_iff₀ (by linarith)]; linarith
    have := mul_le_mul hphs1 (by linarith : (9 / 10 : ℝ) ≤ 1 - 1 * S.s2 / r) (by norm_num) (by linarith)
    linarith
  have hlin : ∀ c x d y, (fun j => fromOrbit obSE obCE 0 0 0 x 0 j * c + fromOrbit obSE obCE 0 0 0 0 y j * d) =
      fromOrbit obSE obCE 0 0 0 (x * c) (y * d) := fun c x d y => funext fun j => fromOrbit_lin _ _ _ _ _ _ _ _
  have hue : ∃ u', palUe2pv (300 / gcon) ul ⟨fun _ => 0, fun _ => 0⟩ = some (u', ⟨fromOrbit obSE obCE 0 0 0 X Y, fun i => cd2s * fromOrbit obSE obCE 0 0 0 XD YD i⟩, 0) := by
    unfold palUe2pv
    have t1 : ul.psi + (300 / gcon - ul.t) * gcon / ul.r0 = 0 := by rw [hule]; simp
    have t2 : (300 / gcon - ul.t0) * gcon = 300 := by rw [hule]; exact hdate
    have p0 : ul.p0 = fromOrbit obSE obCE 0 0 0 1 0 := by rw [hule]
    have v0 : ul.v0 = fromOrbit obSE obCE 0 0 0 0 phs := by rw [hule]
    rw [if_neg (by rw [u2]; norm_num)]
    dsimp only
    rw [t1, t2, hloop]
    dsimp only
    rw [if_neg (by linarith), p0, v0, u2, u4, hlin]
    simp only [fromOrbit_lin]
    rw [← hX, ← hY, ← hXD, ← hYD]
    exact ⟨_, rfl⟩
  obtain ⟨u'', hue⟩ := hue
  refine ⟨300 / gcon, ⟨fromOrbit obSE obCE 0 0 0 X Y, fun i => cd2s * fromOrbit obSE obCE 0 0 0 XD YD i⟩, ?_, ?_, ?_, ?_⟩
  · rw [lt_div_iff₀ hg0]; unfold gcon; norm_num
  · rw [div_lt_iff₀ hg0]; unfold gcon; norm_num
  · intro u pv
    have hg : GoodElements 3 1 (25 / 24) 0 := ⟨by norm_num, by norm_num, by norm_num, by norm_num, Or.inr rfl, by norm_num, fun h => absurd h (by norm_num)⟩
    exact planel_of_ue (pht := 0) (argph := 0) (q := 1) (mu := 1) u _ pv _ hg (by unfold elStd; simp) le_rfl (by rw [hul, ← hule]; exact hue)
      (len_zero_ge _ _ _ (by norm_num) (by linarith)) (by simpa only [mul_div_cancel_left₀ _ cd2s_ne] using len_zero_ge _ _ _ (by norm_num) (by linarith))
  · intro x y xd yd hk
    have hM : gcon * √(1 / 24 ^ 3) * (300 / gcon) < 2.56 := by
      have e1 : gcon * √(1 / 24 ^ 3) * (300 / gcon) = 300 * √(1 / 24 ^ 3) := by field_simp
      have e2 : √(1 / 24 ^ 3 : ℝ) < 2.56 / 300 := by
        rw [Real.sqrt_lt' (by norm_num)]; norm_num
      rw [e1]; linarith
    have hy := true_hyperbola hM hk
    have e : (fun i => fromOrbit obSE obCE 0 0 0 X Y i - fromOrbit obSE obCE 0 0 0 x y i) = fromOrbit obSE obCE 0 0 0 (X - x) (Y - y) := by
      rw [fromOrbit_zero, fromOrbit_zero, fromOrbit_zero]
      funext i
      fin_cases i <;> simp <;> ring
    dsimp only
    rw [e]
    have := len_zero_ge (X - x) (Y - y) 310 (by norm_num) (by linarith)
    linarith

end Pal.Props
