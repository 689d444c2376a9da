import Verif.Lemmas.FlUniv

/-!
# C143: universal elements in double precision
-/

namespace Pal.Props
open Real Pal Pal.Spec

variable {fl : ℝ → ℝ}

/-- **C143** The loop of palUe2pv that halves the angle ends after at most 501 passes whatever the finite number it starts from, with BETA at most 0.7. -/
theorem C143_halving (R : Rounding fl) (k n : ℕ) (psj psj2 beta : ℝ) (h : |beta| ≤ 2 ^ 1000) (hk : 501 ≤ k) :
    ∃ o, flUeHalve fl k n psj psj2 beta = some o ∧ o.1 ≤ n + 501 ∧ |o.2.2.2| ≤ fl 0.7 := by
  obtain ⟨o, h1, -, h3, h4⟩ := flUeHalve_ends R 500 k n psj psj2 beta le_rfl h hk
  exact ⟨o, h1, h3, h4⟩

example : ∃ o, flUeHalve ieee 501 0 1 1 (2 ^ 900) = some o ∧ o.1 ≤ 0 + 501 ∧ |o.2.2.2| ≤ ieee 0.7 :=
  C143_halving ieee_rounding 501 0 1 1 _ (by rw [abs_of_pos (by positivity)]; exact pow_le_pow_right₀ (by norm_num) (by norm_num)) le_rfl

/-- **C143** palPv2ue in double precision: the status, except within a millionth of the limits, is that of exact arithmetic, and a failure leaves the elements alone. -/
theorem C143_status (R : Rounding fl) (pv : PV) (date pmass : ℝ) (u : Univ) (hp : len pv.p ≤ 10 ^ 6) (hv : len (fun i => pv.v i / cd2s) ≤ 10 ^ 6) :
    (pmass < 0 → flPv2ue fl pv date pmass u = (u, -1)) ∧
    (0 ≤ pmass → len pv.p ≤ 0.999999e-3 → flPv2ue fl pv date pmass u = (u, -2)) ∧
    (0 ≤ pmass → 1.000001e-3 ≤ len pv.p → len (fun i => pv.v i / cd2s) ≤ 0.999999e-3 → flPv2ue fl pv date pmass u = (u, -3)) ∧
    (0 ≤ pmass → 1.000001e-3 ≤ len pv.p → 1.000001e-3 ≤ len (fun i => pv.v i / cd2s) → (flPv2ue fl pv date pmass u).2 = 0) := by
  have b3 := R.cst (1 / 10 ^ 3) (M := 1e-3) (by rw [abs_of_pos (by positivity)]; norm_num) (by norm_num) (by norm_num)
  have z96 : (1 : ℝ) / 10 ^ 96 ≤ 1e-50 := by norm_num
  have hr := (flPm_err R pv.p (hp.trans (by norm_num))).2
  have vc : ∀ i, |pv.v i / cd2s| ≤ 10 ^ 14 := fun i => ((comp_le_len (fun i => pv.v i / cd2s) i).trans hv).trans (by norm_num)
  have ve := fun i => (flVel_err R (pv.v i) (vc i)).1
  have z199 : (1 : ℝ) / 10 ^ 199 ≤ 1e-50 := by norm_num
  have dv : len (fun i => fl (pv.v i / flCd2s fl) - pv.v i / cd2s) ≤ 1.7321 * 4e-10 := len_le_of_comp (fun i => (ve i).trans (by
    have a := (comp_le_len (fun i => pv.v i / cd2s) i).trans hv
    generalize (1 : ℝ) / 10 ^ 199 = q at *
    have : (10 : ℝ) ^ 6 = 1000000 := by norm_num
    rw [this] at a
    linarith))
  have lr := abs_le.1 ((len_rev_tri (fun i => fl (pv.v i / flCd2s fl)) (fun i => pv.v i / cd2s)).trans dv)
  have hV := (flPm_err R (fun i => fl (pv.v i / flCd2s fl)) (by
    have : (10 : ℝ) ^ 6 + 1.7321 * 4e-10 ≤ 10 ^ 14 := by norm_num
    linarith)).2
  have t6 : (10 : ℝ) ^ 6 = 1000000 := by norm_num
  have t3 : (1 : ℝ) / 10 ^ 3 = 1e-3 := by norm_num
  have er : fl (√(fl (fl (fl (pv.p 0 * pv.p 0) + fl (pv.p 1 * pv.p 1)) + fl (pv.p 2 * pv.p 2)))) = flPm fl pv.p := rfl
  have ev : fl (√(fl (fl (fl (fl (pv.v 0 / flCd2s fl) * fl (pv.v 0 / flCd2s fl)) + fl (fl (pv.v 1 / flCd2s fl) * fl (pv.v 1 / flCd2s fl))) + fl (fl (pv.v 2 / flCd2s fl) * fl (pv.v 2 / flCd2s fl))))) = flPm fl (fun i => fl (pv.v i / flCd2s fl)) := rfl
  rw [t3] at b3
  rw [t6] at hp hv
  have hr' := abs_le.1 hr
  have hV' := abs_le.1 hV
  have b3' := abs_le.1 b3
  unfold flPv2ue
  dsimp only
  rw [er, ev, t3]
  clear er ev dv hr hV b3 ve vc z199
  generalize (1 : ℝ) / 10 ^ 96 = q at *
  generalize flPm fl pv.p = r at *
  generalize flPm fl (fun i => fl (pv.v i / flCd2s fl)) = V at *
  generalize len pv.p = r' at *
  generalize len (fun i => pv.v i / cd2s) = V' at *
  generalize len (fun i => fl (pv.v i / flCd2s fl)) = V'' at *
  refine ⟨fun h => if_pos h, fun h h2 => ?_, fun h h2 h3 => ?_, fun h h2 h3 => ?_⟩
  · rw [if_neg (not_lt.2 h), if_pos (by linarith)]
  · rw [if_neg (not_lt.2 h), if_neg (by rw [not_lt]; linarith), if_pos (by linarith)]
  · rw [if_neg (not_lt.2 h), if_neg (by rw [not_lt]; linarith), if_neg (by rw [not_lt]; linarith)]

/-- The Earth's mean motion: one astronomical unit along x, a canonical unit of velocity along y. -/
private theorem univ_case : len (![1, 0, 0] : Vec3) = 1 ∧ len (fun i => (![0, cd2s, 0] : Vec3) i / cd2s) = 1 := by
  have c : cd2s ≠ 0 := by unfold cd2s gcon spd; norm_num
  constructor
  · simp [len, Fin.sum_univ_three]
  · simp [len, Fin.sum_univ_three, c]

example (u : Univ) : (flPv2ue ieee ⟨![1, 0, 0], ![0, cd2s, 0]⟩ 50000 0 u).2 = 0 := by
  have h := univ_case
  exact (C143_status ieee_rounding ⟨![1, 0, 0], ![0, cd2s, 0]⟩ 50000 0 u (by rw [h.1]; norm_num) (by rw [h.2]; norm_num)).2.2.2 le_rfl (by rw [h.1]; norm_num) (by rw [h.2]; norm_num)

/-- **C143** palPv2ue in double precision: the elements are those of exact arithmetic to a few units of the last place: of themselves for mass, velocity and distance, of the product of distance and speed for
the radial velocity, and of the sum of kinetic and potential energy for the energy. -/
theorem C143_elements (R : Rounding fl) (pv : PV) (date pmass : ℝ) (u o : Univ) (hm : pmass ≤ 10 ^ 6) (hp : len pv.p ≤ 10 ^ 6) (hv : len (fun i => pv.v i / cd2s) ≤ 10 ^ 6)
    (hp1 : 1.000001e-3 ≤ len pv.p) (hv1 : 1.000001e-3 ≤ len (fun i => pv.v i / cd2s)) (ho : flPv2ue fl pv date pmass u = (o, 0)) :
    ∃ e, palPv2ue pv date pmass u = (e, 0) ∧ o.t0 = date ∧ o.t = date ∧ o.psi = 0 ∧ o.p0 = pv.p ∧
      (∀ i, |o.v0 i - e.v0 i| ≤ 3.4e-16 * |e.v0 i| + 1 / 10 ^ 199) ∧ |o.r0 - e.r0| ≤ 5.3e-16 * e.r0 ∧ |o.cm - e.cm| ≤ 1.12e-16 * e.cm ∧
      |o.sigma - e.sigma| ≤ 7e-16 * (e.r0 * len e.v0) ∧ |o.alpha - e.alpha| ≤ 1.3e-15 * (len e.v0 ^ 2 + 2 * e.cm / e.r0) := by
  have m0 : 0 ≤ pmass := by
    by_contra h
    push Not at h
    rw [(C143_status R pv date pmass u hp hv).1 h] at ho
    simp at ho
  have es := (C61_status pv date pmass u).2.2.2 m0 (le_trans (by norm_num) hp1) (le_trans (by norm_num) hv1)
  refine ⟨(palPv2ue pv date pmass u).1, Prod.ext rfl es, ?_⟩
  have hP : len pv.p = √(pv.p 0 * pv.p 0 + pv.p 1 * pv.p 1 + pv.p 2 * pv.p 2) := by simp [len, Fin.sum_univ_three, pow_two]
  have hVl : len (fun i => pv.v i / cd2s) = √(pv.v 0 / cd2s * (pv.v 0 / cd2s) + pv.v 1 / cd2s * (pv.v 1 / cd2s) + pv.v 2 / cd2s * (pv.v 2 / cd2s)) := by
    simp only [len, Fin.sum_univ_three, pow_two]
  have Vsq : len (fun i => pv.v i / cd2s) ^ 2 = pv.v 0 / cd2s * (pv.v 0 / cd2s) + pv.v 1 / cd2s * (pv.v 1 / cd2s) + pv.v 2 / cd2s * (pv.v 2 / cd2s) := by
    rw [hVl, Real.sq_sqrt]
    exact add_nonneg (add_nonneg (mul_self_nonneg _) (mul_self_nonneg _)) (mul_self_nonneg _)
  have ee : (palPv2ue pv date pmass u).1 = { cm := 1 + pmass, alpha := len (fun i => pv.v i / cd2s) ^ 2 - 2 * (1 + pmass) / len pv.p, t0 := date, p0 := pv.p, v0 := fun i => pv.v i / cd2s, r0 := len pv.p, sigma := pv.p 0 * (pv.v 0 / cd2s) + pv.p 1 * (pv.v 1 / cd2s) + pv.p 2 * (pv.v 2 / cd2s), t := date, psi := 0 } := by
    unfold palPv2ue
    dsimp only
    rw [if_neg (not_lt.2 m0), ← hP, ← hVl, if_neg (not_lt.2 (le_trans (by norm_num) hp1)), if_neg (not_lt.2 (le_trans (by norm_num) hv1)), Vsq]
    have p3 : (![pv.p 0, pv.p 1, pv.p 2] : Vec3) = pv.p := by funext i; fin_cases i <;> rfl
    have v3 : (![pv.v 0 / cd2s, pv.v 1 / cd2s, pv.v 2 / cd2s] : Vec3) = fun i => pv.v i / cd2s := by funext i; fin_cases i <;> rfl
    rw [p3, v3]
  rw [ee]
  dsimp only
  have eo : o = { cm := fl (1 + pmass), alpha := fl (flPdp fl (fun i => fl (pv.v i / flCd2s fl)) (fun i => fl (pv.v i / flCd2s fl)) - fl (fl (2 * fl (1 + pmass)) / flPm fl pv.p)), t0 := date, p0 := pv.p, v0 := fun i => fl (pv.v i / flCd2s fl), r0 := flPm fl pv.p, sigma := flPdp fl pv.p (fun i => fl (pv.v i / flCd2s fl)), t := date, psi := 0 } := by
    unfold flPv2ue at ho
    dsimp only at ho
    rw [if_neg (not_lt.2 m0)] at ho
    split at ho
    · simp at ho
    split at ho
    · simp at ho
    refine (Prod.ext_iff.1 ho).1.symm.trans ?_
    have p3 : (![pv.p 0, pv.p 1, pv.p 2] : Vec3) = pv.p := by funext i; fin_cases i <;> rfl
    have v3 : (![fl (pv.v 0 / flCd2s fl), fl (pv.v 1 / flCd2s fl), fl (pv.v 2 / flCd2s fl)] : Vec3) = fun i => fl (pv.v i / flCd2s fl) := by funext i; fin_cases i <;> rfl
    rw [p3, v3]
    rfl
  rw [eo]
  dsimp only
  have vc : ∀ i, |pv.v i / cd2s| ≤ 10 ^ 6 := fun i => (comp_le_len (fun i => pv.v i / cd2s) i).trans hv
  have pc : ∀ i, |pv.p i| ≤ 10 ^ 6 := fun i => (comp_le_len pv.p i).trans hp
  have ve := fun i => (flVel_err R (pv.v i) ((vc i).trans (by norm_num))).1
  have hr := flPm_err R pv.p (hp.trans (by norm_num))
  have rr : |flPm fl pv.p - len pv.p| ≤ 5.3e-16 * len pv.p := by
    have : (1 : ℝ) / 10 ^ 96 ≤ 1e-50 := by norm_num
    have := hr.2
    generalize (1 : ℝ) / 10 ^ 96 = q at *
    linarith
  have mm : |fl (1 + pmass) - (1 + pmass)| ≤ 1.12e-16 * (1 + pmass) := by
    have a : |1 + pmass| = 1 + pmass := abs_of_nonneg (by linarith)
    have := R.rel (x := 1 + pmass) (by rw [a]; refine le_trans (by norm_num : (1 : ℝ) / 10 ^ 100 ≤ 1) (by linarith)) (by rw [a]; refine le_trans (b := 1 + 10 ^ 6) (by linarith) (by norm_num))
    rw [a] at this
    linarith
  have t199 : (0 : ℝ) < 1 / 10 ^ 199 := by positivity
  have t199' : (1 : ℝ) / 10 ^ 199 ≤ 1e-100 := by norm_num
  have t200 : (10 : ℝ) / 10 ^ 200 ≤ 1e-100 := by norm_num
  have l0 := len_nonneg pv.p
  have l1 := len_nonneg (fun i => pv.v i / cd2s)
  have t6 : (10 : ℝ) ^ 6 = 1000000 := by norm_num
  -- the scalar product
  have sg := flDot_rel R (a := pv.p) (b := fun i => fl (pv.v i / flCd2s fl)) (q := fun i => pv.p i * (pv.v i / cd2s)) (e := 3.4e-16) (τ := 1e-90) (by norm_num) (by norm_num) (by norm_num) (fun i => by
      rw [← mul_sub, abs_mul, abs_mul]
      have := mul_le_mul_of_nonneg_left (ve i) (abs_nonneg (pv.p i))
      have pci := pc i
      rw [t6] at pci
      generalize (1 : ℝ) / 10 ^ 199 = q at *
      have : |pv.p i| * q ≤ 1000000 * 1e-100 := mul_le_mul pci t199' t199.le (by norm_num)
      linarith) (by
    refine (abs_dot3_le pv.p (fun i => pv.v i / cd2s)).trans ((mul_le_mul hp hv l1 (by norm_num)).trans (by norm_num)))
  have cs := abs_dot3_le pv.p (fun i => pv.v i / cd2s)
  -- the square of the speed
  have vq := flDot_rel R (a := fun i => fl (pv.v i / flCd2s fl)) (b := fun i => fl (pv.v i / flCd2s fl)) (q := fun i => pv.v i / cd2s * (pv.v i / cd2s)) (e := 6.81e-16) (τ := 1e-90) (by norm_num) (by norm_num) (by norm_num) (fun i => by
      have h1 := ve i
      have h2 := vc i
      rw [t6] at h2
      generalize (1 : ℝ) / 10 ^ 199 = q at *
      generalize pv.v i / cd2s = V at *
      generalize fl (pv.v i / flCd2s fl) = W at *
      rw [show W * W - V * V = (W - V) * (2 * V + (W - V)) by ring, abs_mul, abs_mul]
      have h3 : |2 * V + (W - V)| ≤ 2 * |V| + (3.4e-16 * |V| + q) := by
        have := abs_add_le (2 * V) (W - V)
        rw [abs_mul, abs_of_pos (by norm_num : (0 : ℝ) < 2)] at this
        linarith
      have h4 := abs_nonneg V
      have h5 := mul_le_mul h1 h3 (abs_nonneg _) (by positivity)
      refine h5.trans ?_
      have h6 : |V| * q ≤ 1000000 * 1e-100 := mul_le_mul h2 t199' t199.le (by norm_num)
      have h7 : q * q ≤ 1e-100 * 1e-100 := mul_le_mul t199' t199' t199.le (by norm_num)
      nlinarith only [h6, h7, h4, mul_nonneg h4 h4]) (by
    have a : ∀ i, |pv.v i / cd2s * (pv.v i / cd2s)| = pv.v i / cd2s * (pv.v i / cd2s) := fun i => abs_of_nonneg (mul_self_nonneg _)
    rw [a, a, a, ← Vsq]
    refine (pow_le_pow_left₀ l1 hv 2).trans (by norm_num))
  have aV : |pv.v 0 / cd2s * (pv.v 0 / cd2s)| + |pv.v 1 / cd2s * (pv.v 1 / cd2s)| + |pv.v 2 / cd2s * (pv.v 2 / cd2s)| = len (fun i => pv.v i / cd2s) ^ 2 := by
    have a : ∀ i, |pv.v i / cd2s * (pv.v i / cd2s)| = pv.v i / cd2s * (pv.v i / cd2s) := fun i => abs_of_nonneg (mul_self_nonneg _)
    rw [a, a, a, Vsq]
  rw [aV, ← Vsq] at vq
  refine ⟨rfl, rfl, rfl, rfl, ve, rr, mm, ?_, ?_⟩
  · have : 1.000001e-3 * 1.000001e-3 ≤ len pv.p * len (fun i => pv.v i / cd2s) := mul_le_mul hp1 hv1 (by norm_num) l0
    generalize len pv.p * len (fun i => pv.v i / cd2s) = y at *
    generalize (10 : ℝ) / 10 ^ 200 = q at *
    clear * - sg cs this t200
    norm_num at *
    linarith
  · -- the energy
    have m1 : 1 ≤ 1 + pmass := by linarith
    have two : fl (2 * fl (1 + pmass)) = 2 * fl (1 + pmass) := by
      obtain ⟨m, x, hm1, hx, hfx⟩ := R.rep (1 + pmass) (by
        rw [abs_of_nonneg (by linarith)]
        calc 1 + pmass ≤ 1 + 10 ^ 6 := by linarith
          _ ≤ 2 ^ 30 := by norm_num
          _ ≤ 2 ^ 1000 := pow_le_pow_right₀ (by norm_num) (by norm_num))
      have := R.keep m (x + 1) hm1 (by omega) (by
        have e : |(m : ℝ)| * 2 ^ (x + 1) = 2 * |fl (1 + pmass)| := by
          rw [hfx, abs_mul, abs_of_pos (by positivity : (0 : ℝ) < 2 ^ x), zpow_add₀ (by norm_num)]; ring
        rw [e]
        have a := abs_add_le (fl (1 + pmass) - (1 + pmass)) (1 + pmass)
        rw [sub_add_cancel, abs_of_nonneg (by linarith : 0 ≤ 1 + pmass)] at a
        calc 2 * |fl (1 + pmass)| ≤ 2 * (2 * (1 + 10 ^ 6)) := by linarith
          _ ≤ 2 ^ 40 := by norm_num
          _ ≤ 2 ^ 1000 := pow_le_pow_right₀ (by norm_num) (by norm_num))
      have e2 : (m : ℝ) * 2 ^ (x + 1) = 2 * fl (1 + pmass) := by rw [hfx, zpow_add₀ (by norm_num)]; ring
      rwa [e2] at this
    rw [two]
    have r0 : 0 < len pv.p := by linarith
    have nm : Near 1.12e-16 (2 * fl (1 + pmass)) (2 * (1 + pmass)) := by
      refine ⟨by linarith, by norm_num, by norm_num, ?_⟩
      rw [← mul_sub, abs_mul, abs_of_pos (by norm_num : (0 : ℝ) < 2)]; linarith
    have nr : Near 5.3e-16 (flPm fl pv.p) (len pv.p) := ⟨r0, by norm_num, by norm_num, rr⟩
    have fp : 0 < flPm fl pv.p := nr.xpos
    have pot0 : 0 < 2 * (1 + pmass) / len pv.p := by positivity
    have pot1 : 1e-6 ≤ 2 * (1 + pmass) / len pv.p := by rw [le_div_iff₀ r0, t6] at *; linarith
    have pot2 : 2 * (1 + pmass) / len pv.p ≤ 1e10 := by rw [div_le_iff₀ r0]; rw [t6] at hm; nlinarith
    have dd : |2 * fl (1 + pmass) / flPm fl pv.p - 2 * (1 + pmass) / len pv.p| ≤ 6.43e-16 * (2 * (1 + pmass) / len pv.p) := by
      have e1 : 2 * fl (1 + pmass) / flPm fl pv.p - 2 * (1 + pmass) / len pv.p = ((2 * fl (1 + pmass) - 2 * (1 + pmass)) - 2 * (1 + pmass) / len pv.p * (flPm fl pv.p - len pv.p)) / flPm fl pv.p := by
        field_simp; ring
      rw [e1, abs_div, abs_of_pos fp, div_le_iff₀ fp]
      have t1 := abs_sub (2 * fl (1 + pmass) - 2 * (1 + pmass)) (2 * (1 + pmass) / len pv.p * (flPm fl pv.p - len pv.p))
      rw [abs_mul, abs_of_pos pot0] at t1
      have t2 := mul_le_mul_of_nonneg_left rr pot0.le
      have t3 := nm.err
      have t4 := (abs_le.1 rr).1
      have t5 : 2 * (1 + pmass) = 2 * (1 + pmass) / len pv.p * len pv.p := by field_simp
      generalize 2 * (1 + pmass) / len pv.p = Q at *
      rw [t5] at t3 t1
      generalize 2 * fl (1 + pmass) = A at *
      generalize flPm fl pv.p = F at *
      have t6 : Q * ((1 - 5.3e-16) * len pv.p) ≤ Q * F := mul_le_mul_of_nonneg_left (by linarith) pot0.le
      rw [t5]
      nlinarith only [t1, t2, t3, t6, mul_pos pot0 r0]
    have dq := R.add_err2 (B := 2 * (1 + pmass) / len pv.p) (7.6e-16 * (2 * (1 + pmass) / len pv.p)) dd (abs_of_pos pot0).le (by
        refine le_trans (b := 2 * 1e10) (by linarith) (by norm_num)) (by
        have : (1e-190 : ℝ) ≤ 1e-100 := by norm_num
        generalize (1e-190 : ℝ) = z at *
        linarith)
    have V0 : (1.000001e-3 : ℝ) ^ 2 ≤ len (fun i => pv.v i / cd2s) ^ 2 := pow_le_pow_left₀ (by norm_num) hv1 2
    have V1 : len (fun i => pv.v i / cd2s) ^ 2 ≤ 1e12 := (pow_le_pow_left₀ l1 hv 2).trans (by norm_num)
    have vq' : |flPdp fl (fun i => fl (pv.v i / flCd2s fl)) (fun i => fl (pv.v i / flCd2s fl)) - len (fun i => pv.v i / cd2s) ^ 2| ≤ 1.03e-15 * len (fun i => pv.v i / cd2s) ^ 2 := by
      generalize len (fun i => pv.v i / cd2s) ^ 2 = y at *
      generalize (10 : ℝ) / 10 ^ 200 = q at *
      clear * - vq V0 t200
      norm_num at *
      linarith
    clear vq sg ve vc pc cs aV Vsq hVl
    generalize len (fun i => pv.v i / cd2s) ^ 2 = y at *
    generalize 2 * (1 + pmass) / len pv.p = Q at *
    have y0 : 0 ≤ y := le_trans (by norm_num) V0
    have fin := R.subB (1.3e-15 * (y + Q)) vq' dq (abs_of_nonneg y0).le (abs_of_pos pot0).le (by
        refine le_trans (b := 4 * 1e12) (by linarith) (by norm_num)) (by
        have : (1e-190 : ℝ) ≤ 1e-100 := by norm_num
        generalize (1e-190 : ℝ) = z at *
        linarith)
    exact fin.1

example (u : Univ) : ∃ o e, flPv2ue ieee ⟨![1, 0, 0], ![0, cd2s, 0]⟩ 50000 0 u = (o, 0) ∧ palPv2ue ⟨![1, 0, 0], ![0, cd2s, 0]⟩ 50000 0 u = (e, 0) ∧ |o.alpha - e.alpha| ≤ 1.3e-15 * (len e.v0 ^ 2 + 2 * e.cm / e.r0) := by
  have h := univ_case
  have s := (C143_status ieee_rounding ⟨![1, 0, 0], ![0, cd2s, 0]⟩ 50000 0 u (by rw [h.1]; norm_num) (by rw [h.2]; norm_num)).2.2.2 le_rfl (by rw [h.1]; norm_num) (by rw [h.2]; norm_num)
  obtain ⟨e, h1, -, -, -, -, -, -, -, -, h2⟩ := C143_elements ieee_rounding ⟨![1, 0, 0], ![0, cd2s, 0]⟩ 50000 0 u _ (by norm_num) (by rw [h.1]; norm_num) (by rw [h.2]; norm_num) (by rw [h.1]; norm_num) (by rw [h.2]; norm_num) (Prod.ext rfl s)
  exact ⟨_, e, Prod.ext rfl s, h1, h2⟩

/-- The universal functions at PSI = 0 in double precision. -/
private theorem flUeFun_zero (R : Rounding fl) (k : ℕ) (alpha : ℝ) :
    flUeFun fl k alpha 0 = some { s0 := 1, s1 := 0, s2 := 0, s3 := 0, tol := fl (1 / 10 ^ 13) } := by
  have one : fl 1 = 1 := by simpa using R.int 1 (by norm_num)
  have seven : (0 : ℝ) ≤ fl 0.7 := R.nonneg (by rw [abs_of_pos (by norm_num)]; norm_num) (by norm_num)
  unfold flUeFun
  rw [flUeHalve.eq_def]
  simp only [mul_zero, R.zero, abs_zero]
  rw [if_neg (not_lt.2 seven)]
  simp [flUeUndo, flUeSeries, R.zero, one]

/-- **C143** palUe2pv after palPv2ue at the same date, in double precision: whatever the orbit, the position comes back bit for bit, the velocity to an ulp, the elements are unchanged and the status is 0. -/
theorem C143_round_trip (R : Rounding fl) (pv pv0 : PV) (date pmass : ℝ) (u o : Univ) (k : ℕ) (hp : len pv.p ≤ 10 ^ 6) (hv : len (fun i => pv.v i / cd2s) ≤ 10 ^ 6)
    (hd : ∀ i, fl (pv.p i) = pv.p i) (ho : flPv2ue fl pv date pmass u = (o, 0)) :
    ∃ w : PV, flUe2pv fl k date o pv0 = some (o, w, 0) ∧ w.p = pv.p ∧ ∀ i, |w.v i - pv.v i| ≤ 2.3e-16 * |pv.v i| + 1 / 10 ^ 199 := by
  have one : fl 1 = 1 := by simpa using R.int 1 (by norm_num)
  have m0 : ¬ pmass < 0 := by
    intro h
    rw [(C143_status R pv date pmass u hp hv).1 h] at ho
    simp at ho
  have b3 : 1e-4 ≤ fl (1 / 10 ^ 3) := by
    have := R.cst (1 / 10 ^ 3) (M := 1e-3) (by rw [abs_of_pos (by positivity)]; norm_num) (by norm_num) (by norm_num)
    have := (abs_le.1 this).1
    norm_num at this ⊢
    linarith
  have hpc : ∀ i, |pv.p i| ≤ 10 ^ 6 := fun i => (comp_le_len pv.p i).trans hp
  have vc : ∀ i, |pv.v i / cd2s| ≤ 10 ^ 14 := fun i => ((comp_le_len (fun i => pv.v i / cd2s) i).trans hv).trans (by norm_num)
  unfold flPv2ue at ho
  dsimp only at ho
  rw [if_neg m0] at ho
  split at ho
  · simp at ho
  rename_i hr
  split at ho
  · simp at ho
  have eo := (Prod.ext_iff.1 ho).1
  dsimp only at eo
  have p3 : (![pv.p 0, pv.p 1, pv.p 2] : Vec3) = pv.p := by funext i; fin_cases i <;> rfl
  have v3 : (![fl (pv.v 0 / flCd2s fl), fl (pv.v 1 / flCd2s fl), fl (pv.v 2 / flCd2s fl)] : Vec3) = fun i => fl (pv.v i / flCd2s fl) := by funext i; fin_cases i <;> rfl
  rw [p3, v3] at eo
  have hp0 : o.p0 = pv.p := by rw [← eo]
  have hv0 : o.v0 = fun i => fl (pv.v i / flCd2s fl) := by rw [← eo]
  have ht0 : o.t0 = date := by rw [← eo]
  have ht : o.t = date := by rw [← eo]
  have hpsi : o.psi = 0 := by rw [← eo]
  have hrr : o.r0 = flPm fl pv.p := by rw [← eo]; rfl
  have hr4 : 1e-4 ≤ o.r0 := by rw [hrr]; exact b3.trans (not_lt.1 hr)
  have rb := (flPm_err R pv.p (hp.trans (by norm_num))).2
  have rM : |o.r0| ≤ 10 ^ 7 := by
    rw [abs_of_nonneg (le_trans (by norm_num) hr4), hrr]
    have a := (abs_le.1 rb).2
    have : (1 : ℝ) / 10 ^ 96 ≤ 1 := by norm_num
    have t6 : (10 : ℝ) ^ 6 = 1000000 := by norm_num
    have t7 : (10 : ℝ) ^ 7 = 10000000 := by norm_num
    rw [t6] at hp
    rw [t7]
    generalize (1 : ℝ) / 10 ^ 96 = q at *
    linarith
  have rid : fl (o.r0) = o.r0 := by
    rw [hrr]
    refine R.idem' (x := √(flPdp fl pv.p pv.p)) ?_
    have d := flDot_rel R (a := pv.p) (b := pv.p) (q := fun i => pv.p i * pv.p i) (e := 0) (τ := 0) (by norm_num) le_rfl (by norm_num) (fun i => by simp) (by
      have s : ∀ i, |pv.p i * pv.p i| ≤ 10 ^ 12 := fun i => by
        rw [abs_mul]; exact (mul_le_mul (hpc i) (hpc i) (abs_nonneg _) (by norm_num)).trans (by norm_num)
      have := s 0; have := s 1; have := s 2
      have : (3 : ℝ) * 10 ^ 12 ≤ 10 ^ 28 := by norm_num
      linarith)
    have s : ∀ i, |pv.p i * pv.p i| ≤ 10 ^ 12 := fun i => by
      rw [abs_mul]; exact (mul_le_mul (hpc i) (hpc i) (abs_nonneg _) (by norm_num)).trans (by norm_num)
    have s0 := s 0; have s1 := s 1; have s2 := s 2
    have l0 := le_abs_self (pv.p 0 * pv.p 0)
    have l1 := le_abs_self (pv.p 1 * pv.p 1)
    have l2 := le_abs_self (pv.p 2 * pv.p 2)
    have d2 := (abs_le.1 d).2
    have t : (10 : ℝ) / 10 ^ 200 ≤ 1 := by norm_num
    have t12 : (10 : ℝ) ^ 12 = 1e12 := by norm_num
    rw [t12] at s0 s1 s2
    have fin : flPdp fl pv.p pv.p ≤ 10 ^ 40 := by
      refine le_trans (b := 1e14) ?_ (by norm_num)
      generalize (10 : ℝ) / 10 ^ 200 = q at *
      linarith only [d2, s0, s1, s2, l0, l1, l2, t]
    rw [abs_of_nonneg (Real.sqrt_nonneg _)]
    refine (Real.sqrt_le_sqrt fin).trans (le_of_eq ?_)
    rw [show (10 : ℝ) ^ 40 = (10 ^ 20) ^ 2 by norm_num, Real.sqrt_sq (by norm_num)]
  have r0 : o.r0 ≠ 0 := by
    intro h; rw [h] at hr4; norm_num at hr4
  have tol : ¬ fl (1 / 10 ^ 13) ≤ 0 := by
    have := R.cst (1 / 10 ^ 13) (M := 1e-13) (by rw [abs_of_pos (by positivity)]; norm_num) (by norm_num) (by norm_num)
    have := (abs_le.1 this).1
    rw [not_le]
    norm_num at this ⊢
    linarith
  have vb : ∀ i, fl (fl (pv.v i / flCd2s fl)) = fl (pv.v i / flCd2s fl) := fun i => by
    refine R.idem' ?_
    obtain ⟨-, c2, -, c4⟩ := flCd2s_err R
    have P : 0 < cd2s := by linarith
    have p : 0 < flCd2s fl := by linarith
    have h1 := (comp_le_len (fun i => pv.v i / cd2s) i).trans hv
    rw [abs_div, abs_of_pos P, div_le_iff₀ P] at h1
    rw [abs_div, abs_of_pos p, div_le_iff₀ p]
    have c5 : cd2s ≤ 1 := by unfold cd2s gcon spd; norm_num
    have : (10 : ℝ) ^ 6 * cd2s ≤ 10 ^ 6 * 1 := mul_le_mul_of_nonneg_left c5 (by norm_num)
    have : (10 : ℝ) ^ 20 * 1.99e-7 ≤ 10 ^ 20 * flCd2s fl := mul_le_mul_of_nonneg_left c2 (by norm_num)
    refine h1.trans ?_
    refine le_trans ‹10 ^ 6 * cd2s ≤ 10 ^ 6 * 1› (le_trans ?_ ‹_›)
    norm_num
  have lp : flUeLoop fl k o 0 1 0 0 0 = some (.done 0 { s0 := 1, s1 := 0, s2 := 0, s3 := 0, tol := fl (1 / 10 ^ 13) } o.r0) := by
    rw [flUeLoop, flUeFun_zero R]
    have e1 : flUeFF fl o 0 { s0 := 1, s1 := 0, s2 := 0, s3 := 0, tol := fl (1 / 10 ^ 13) } = 0 := by simp [flUeFF, R.zero]
    have e2 : flUeR fl o { s0 := 1, s1 := 0, s2 := 0, s3 := 0, tol := fl (1 / 10 ^ 13) } = o.r0 := by simp [flUeR, R.zero, rid]
    dsimp only
    rw [e1, e2]
    simp only [if_true, mul_zero, R.zero, lt_irrefl, if_false, not_false_iff, true_and, zero_div, abs_zero, sub_zero, ge_iff_le]
    rw [if_neg r0, if_neg (by norm_num), if_neg tol]
  refine ⟨{ p := pv.p, v := fun i => fl (flCd2s fl * fl (pv.v i / flCd2s fl)) }, ?_, rfl, fun i => (flVel_err R (pv.v i) (vc i)).2.2⟩
  unfold flUe2pv
  rw [if_neg r0]
  simp only [ht, ht0, hpsi, sub_self, R.zero, zero_mul, zero_div, add_zero, lp]
  rw [if_neg (by
    rintro (h | h)
    · exact r0 h
    · have : (1e-8 : ℝ) ≤ o.r0 * o.r0 := by nlinarith only [hr4]
      have r := R.rel (x := o.r0 * o.r0) (by rw [abs_of_nonneg (mul_self_nonneg _)]; exact le_trans (by norm_num) this) (by
        rw [abs_mul]; exact (mul_le_mul rM rM (abs_nonneg _) (by norm_num)).trans (by norm_num))
      rw [h, zero_sub, abs_neg] at r
      rw [abs_of_nonneg (mul_self_nonneg _)] at r
      linarith)]
  simp only [mul_zero, R.zero, zero_div, sub_zero, sub_self, one, mul_one, add_zero, zero_add, hp0, hv0, hd, vb]
  rw [← eo]

example (u : Univ) : ∃ o, ∃ w : PV, flUe2pv ieee 0 50000 o ⟨0, 0⟩ = some (o, w, 0) ∧ w.p = ![1, 0, 0] := by
  have h := univ_case
  have s := (C143_status ieee_rounding ⟨![1, 0, 0], ![0, cd2s, 0]⟩ 50000 0 u (by rw [h.1]; norm_num) (by rw [h.2]; norm_num)).2.2.2 le_rfl (by rw [h.1]; norm_num) (by rw [h.2]; norm_num)
  obtain ⟨w, h1, h2, -⟩ := C143_round_trip ieee_rounding ⟨![1, 0, 0], ![0, cd2s, 0]⟩ ⟨0, 0⟩ 50000 0 u _ 0 (by rw [h.1]; norm_num) (by rw [h.2]; norm_num) (fun i => by
    have one : ieee 1 = 1 := by simpa using ieee_rounding.int 1 (by norm_num)
    fin_cases i <;> simp [ieee_rounding.zero, one]) (Prod.ext rfl s)
  exact ⟨_, w, h1, h2⟩

/-- **C143** Without rounding the program transcribed here is that of C59 to C61: palPv2ue, and palUe2pv as soon as the bound on the passes of the loop of halvings is large enough. -/
theorem C143_exact (date : ℝ) (u : Univ) (pv : PV) (pmass : ℝ) :
    flPv2ue (fun x => x) pv date pmass u = palPv2ue pv date pmass u ∧ ∃ m, ∀ k, m ≤ k → flUe2pv (fun x => x) k date u pv = palUe2pv date u pv := by
  have hg : flGcon (fun x => x) = gcon := rfl
  have hc : flCd2s (fun x => x) = cd2s := by unfold flCd2s cd2s; rw [hg]; unfold spd; norm_num
  refine ⟨by unfold flPv2ue palPv2ue; rw [hc], ?_⟩
  by_cases h0 : u.r0 = 0
  · exact ⟨0, fun k _ => by unfold flUe2pv palUe2pv; rw [if_pos h0, if_pos h0]⟩
  · obtain ⟨m, hm⟩ := flUeLoop_id u ((date - u.t0) * gcon) 27 1 (u.psi + (date - u.t) * gcon / u.r0) 0 0 (by omega)
    refine ⟨m, fun k hk => ?_⟩
    have e := hm k hk
    unfold flUe2pv palUe2pv
    rw [if_neg h0, if_neg h0]
    have hg : flGcon (fun x => x) = gcon := rfl
    have hc : flCd2s (fun x => x) = cd2s := by unfold flCd2s cd2s; rw [hg]; unfold spd; norm_num
    simp only [hg, hc, e, mul_eq_zero, h0, false_or, or_self]
    cases ueLoop u ((date - u.t0) * gcon) 1 (u.psi + (date - u.t) * gcon / u.r0) 0 0 <;> rfl
end Pal.Props
