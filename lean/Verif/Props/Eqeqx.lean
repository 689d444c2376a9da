import Verif.Spec.Eqeqx
import Verif.Lemmas.EqeqxNum
import Verif.Props.Gmst

/-!
# The equation of the equinoxes: property C106
-/

namespace Pal.Props
open Real Pal Pal.Spec Matrix

theorem cube_diff_small {C S p q A : ℝ} (hA : 0 ≤ A) (hC : |C| ≤ 0.9175) (hS : |S| ≤ 0.3978) (hp : |p| ≤ 0.02454) (hq : |q| ≤ 0.02454) (hd : |p - q| ≤ 20 * A) :
    |C * S ^ 2 * (p ^ 3 - q ^ 3) / 6| ≤ 0.0009 * A := by
  have e : C * S ^ 2 * (p ^ 3 - q ^ 3) / 6 = (C * (S * S)) * ((p * p + p * q + q * q) / 6) * (p - q) := by ring
  rw [e]
  have h1 := mul_abs_le hC (mul_abs_le hS hS)
  have h2 := abs_le.1 (mul_abs_le hp hp)
  have h3 := abs_le.1 (mul_abs_le hp hq)
  have h4 := abs_le.1 (mul_abs_le hq hq)
  have h5 : |(p * p + p * q + q * q) / 6| ≤ 0.000302 := by
    rw [abs_le]
    generalize p * p = x at *
    generalize p * q = y at *
    generalize q * q = z at *
    clear * - h2 h3 h4
    constructor <;> norm_num at * <;> linarith [h2.1, h2.2, h3.1, h3.2, h4.1, h4.2]
  refine (mul_abs_le (mul_abs_le h1 h5) hd).trans ?_
  norm_num
  linarith

theorem obl_linear {C S e0 f e n A : ℝ} (hA : 0 ≤ A) (hA' : A ≤ 4.8481369e-6) (hC0 : C = cos e0) (hS0 : S = sin e0) (hC : |C| ≤ 0.9175) (hS : |S| ≤ 0.3978)
    (he : |e - e0| ≤ 46.839 * A) (hf : |f - e| ≤ 0.0854 * A) (hn : |n| ≤ 20 * A) :
    |n * (C + S * (e0 - f) - cos e)| ≤ 0.00001 * A := by
  have e1 : C + S * (e0 - f) - cos e = C * (1 - cos (e - e0)) + S * (sin (e - e0) - (e - e0)) - S * (f - e) := by
    have : cos e = C * cos (e - e0) - S * sin (e - e0) := by
      rw [hC0, hS0, ← cos_add]; congr 1; ring
    rw [this]; ring
  have hx : |e - e0| ≤ 2.3e-4 := he.trans (by norm_num at hA' ⊢; linarith)
  have h1 := mul_abs_le hC (one_sub_cos_abs _ hx)
  have h2 := mul_abs_le hS (sin_sub_self_abs _ hx (by norm_num))
  have h3 := mul_abs_le hS (hf.trans (by norm_num at hA' ⊢; linarith : _ ≤ (4.2e-7 : ℝ)))
  have h4 : |C + S * (e0 - f) - cos e| ≤ 3e-7 := by
    rw [e1]
    have h1 := abs_le.1 h1
    have h2 := abs_le.1 h2
    have h3 := abs_le.1 h3
    rw [abs_le]
    generalize C * (1 - cos (e - e0)) = x at *
    generalize S * (sin (e - e0) - (e - e0)) = y at *
    generalize S * (f - e) = z at *
    clear * - h1 h2 h3
    constructor <;> norm_num at * <;> linarith [h1.1, h1.2, h2.1, h2.2, h3.1, h3.2]
  refine (mul_abs_le hn h4).trans ?_
  norm_num
  linarith

set_option maxHeartbeats 2000000 in
theorem ee06a_value (nut : ℝ → ℝ → ℝ × ℝ) (per : ℝ → ℝ) (d1 d2 : ℝ) (ht : |cent06 d1 d2| ≤ 1)
    (h1 : |(nut d1 d2).1| ≤ 20 * das2r) (h2 : |(nut d1 d2).2| ≤ 11 * das2r) (h3 : |per (cent06 d1 d2)| ≤ 1) :
    |eraEe06a nut per d1 d2 - ((nut d1 d2).1 * cos (eraPfw06 d1 d2).epsa - per (cent06 d1 d2) * das2r)| ≤ 0.003 * das2r := by
  obtain ⟨s1, s2, s3, s4⟩ := fw_sizes d1 d2 ht
  have A0 := das2r_gt0
  have A1 := das2r_ub
  have A2 : |das2r - 4.8481368110954e-6| ≤ 1e-17 := by
    unfold das2r
    have p1 := Real.pi_gt_d20
    have p2 := Real.pi_lt_d20
    rw [abs_le]
    constructor <;> norm_num at * <;> linarith
  obtain ⟨hSe, hCe⟩ := ang_ze
  have hpi := pi_gt_three
  obtain ⟨t, hte⟩ : ∃ t, t = cent06 d1 d2 := ⟨_, rfl⟩
  have hte' : (d1 - 2451545 + d2) / 36525 = t := hte.symm
  obtain ⟨g, hg⟩ : ∃ g, g = (eraPfw06 d1 d2).gamb := ⟨_, rfl⟩
  obtain ⟨f, hf⟩ : ∃ g, g = (eraPfw06 d1 d2).phib := ⟨_, rfl⟩
  obtain ⟨q, hq⟩ : ∃ g, g = (eraPfw06 d1 d2).psib := ⟨_, rfl⟩
  obtain ⟨e, he⟩ : ∃ g, g = (eraPfw06 d1 d2).epsa := ⟨_, rfl⟩
  obtain ⟨n, hn⟩ : ∃ g, g = (nut d1 d2).1 := ⟨_, rfl⟩
  obtain ⟨o, ho⟩ : ∃ g, g = (nut d1 d2).2 := ⟨_, rfl⟩
  have hpnm : eraPnm06a nut d1 d2 = eraFw2m g f (q + n) (e + o) := by rw [hg, hf, hq, he, hn, ho]; rfl
  have hEe : eraEe06a nut per d1 d2 = eraAnpm (eraAnp (eraEra00 0 0 - eraEors (eraPnm06a nut d1 d2) (eraS06 per d1 d2 (eraPnm06a nut d1 d2 2 0) (eraPnm06a nut d1 d2 2 1))) - eraGmst06 0 0 d1 d2) := rfl
  rw [hEe]
  unfold eraS06 eraGmst06
  dsimp only
  rw [hpnm, hte', ← hte]
  have hgp : g = _ * das2r := hg.trans rfl
  have hfp : f = _ * das2r := hf.trans rfl
  have hqp : q = _ * das2r := hq.trans rfl
  rw [← hte] at hgp hfp hqp ht h3
  rw [← hg] at s1
  rw [← hq] at s2
  rw [← hf, ← he] at s3
  rw [← he] at s4 ⊢
  rw [← hn] at h1 ⊢
  rw [← ho] at h2
  rw [show (84381.4060000000 : ℝ) = 84381.406 by norm_num] at hSe hCe
  clear hEe hpnm hg hf hq he hn ho hte hte'
  generalize das2r = A at *
  obtain ⟨C, hC⟩ : ∃ C, C = cos (84381.406 * A) := ⟨_, rfl⟩
  obtain ⟨S, hS⟩ : ∃ S, S = sin (84381.406 * A) := ⟨_, rfl⟩
  have b1 : |q + n| ≤ 0.02454 := by
    have := abs_le.1 s2; have h' := abs_le.1 h1
    rw [abs_le]; constructor <;> norm_num at this h' A1 ⊢ <;> linarith [this.1, this.2, h'.1, h'.2]
  have b1' : |q| ≤ 0.02454 := by
    have := abs_le.1 s2
    rw [abs_le]; constructor <;> norm_num at this A1 ⊢ <;> linarith [this.1, this.2]
  have b2 : |e + o - 84381.406 * A| ≤ 2.82e-4 := by
    have := abs_le.1 s4; have h' := abs_le.1 h2
    rw [abs_le]; constructor <;> norm_num at this h' A1 ⊢ <;> linarith [this.1, this.2, h'.1, h'.2]
  have b3 : |f - 84381.406 * A| ≤ 2.28e-4 := by
    have := abs_le.1 s4; have h' := abs_le.1 s3
    rw [abs_le]; constructor <;> norm_num at this h' A1 ⊢ <;> linarith [this.1, this.2, h'.1, h'.2]
  have b4 : |e + o - f| ≤ 5.4e-5 := by
    have := abs_le.1 s3; have h' := abs_le.1 h2
    rw [abs_le]; constructor <;> norm_num at this h' A1 ⊢ <;> linarith [this.1, this.2, h'.1, h'.2]
  have b5 : |g| ≤ 5.4e-5 := s1.trans (by norm_num at A1 ⊢; linarith)
  have c1 : |cos (84381.406 * A) - 0.917482| ≤ 1e-6 := by
    have := abs_le.1 hCe
    rw [abs_le]; constructor <;> norm_num at this ⊢ <;> linarith [this.1, this.2]
  have c2 : |sin (84381.406 * A) - 0.397777| ≤ 1e-6 := by
    have := abs_le.1 hSe
    rw [abs_le]; constructor <;> norm_num at this ⊢ <;> linarith [this.1, this.2]
  have third := fun s => eors_third (s := s) b1 b2 b3 b4 b5 c1 c2
  rw [← hC, ← hS] at third
  rw [← hC] at hCe
  rw [← hS] at hSe
  have hC' : |C| ≤ 0.9175 := by
    have := abs_le.1 hCe
    rw [abs_le]; constructor <;> norm_num at this ⊢ <;> linarith [this.1, this.2]
  have hS' : |S| ≤ 0.3978 := by
    have := abs_le.1 hSe
    rw [abs_le]; constructor <;> norm_num at this ⊢ <;> linarith [this.1, this.2]
  have poly := ee_poly (C := C) (S := S) ht
    (by have := abs_le.1 hCe; rw [abs_le]; constructor <;> norm_num at this ⊢ <;> linarith [this.1, this.2])
    (by have := abs_le.1 hSe; rw [abs_le]; constructor <;> norm_num at this ⊢ <;> linarith [this.1, this.2]) A2
  dsimp only at poly
  have cub := cube_diff_small A0.le hC' hS' b1 b1' (by simpa using h1)
  have obl := obl_linear A0.le A1.le hC hS hC' hS' (by norm_num at s4 ⊢; exact s4) s3 h1
  clear b2 b3 b4 b5 hC' hS' c1 c2 hC hS hCe hSe s1 s3
  obtain ⟨per', hper⟩ : ∃ p, p = per t := ⟨_, rfl⟩
  rw [← hper] at h3 ⊢
  obtain ⟨G, hG⟩ : ∃ G, G = -0.052928 + (10.556378 + (0.4932044 + (-0.00031238 + (-0.000002788 + 0.0000000260 * t) * t) * t) * t) * t := ⟨_, rfl⟩
  obtain ⟨F, hF⟩ : ∃ F, F = 84381.412819 + (-46.811016 + (0.0511268 + (0.00053289 + (-0.000000440 + (-0.0000000176) * t) * t) * t) * t) * t := ⟨_, rfl⟩
  obtain ⟨Q, hQ⟩ : ∃ F, F = -0.041775 + (5038.481484 + (1.5584175 + (-0.00018522 + (-0.000026452 + (-0.0000000148) * t) * t) * t) * t) * t := ⟨_, rfl⟩
  obtain ⟨P, hP⟩ : ∃ F, F = 0.014506 + (4612.156534 + (1.3915817 + (-0.00000044 + (-0.000029956 + (-0.0000000368) * t) * t) * t) * t) * t := ⟨_, rfl⟩
  obtain ⟨Sp, hSp⟩ : ∃ F, F = 94.00e-6 + (3808.65e-6 + (-122.68e-6 + (-72574.11e-6 + (27.98e-6 + 15.62e-6 * t) * t) * t) * t) * t := ⟨_, rfl⟩
  rw [← hG] at hgp poly
  rw [← hF] at hfp poly
  rw [← hQ] at hqp poly
  rw [← hP] at poly ⊢
  rw [← hSp] at poly ⊢
  have third := third ((Sp + per') * A)
  have poly' := mul_abs_le poly (abs_of_pos A0).le
  have ee : (Q * (C + S * ((84381.406 - F) * A)) - C * S ^ 2 * Q ^ 3 * A ^ 2 / 6 - G - P - Sp) * A =
      q * (C + S * (84381.406 * A - f)) - C * S ^ 2 * q ^ 3 / 6 - g - P * A - Sp * A := by rw [hqp, hfp, hgp]; ring
  rw [ee] at poly'
  clear hG hF hQ hP hSp hgp hfp hqp poly ee hper
  generalize eraFw2m g f (q + n) (e + o) = r at *
  generalize eraEors r ((Sp + per') * A - r 2 0 * r 2 1 / 2) = O at *
  generalize r 2 0 * r 2 1 = XY at *
  generalize eraEra00 0 0 = E at *
  obtain ⟨V, hV⟩ : ∃ V, V = -O - P * A := ⟨_, rfl⟩
  have hcos : |n * cos e| ≤ 20 * A := (mul_abs_le h1 (abs_cos_le_one e)).trans (by simp)
  have hperA : |per' * A| ≤ A := (mul_abs_le h3 (abs_of_pos A0).le).trans (by simp)
  have bound : |V - (n * cos e - per' * A)| ≤ 0.003 * A := by
    have ev : V - (n * cos e - per' * A) = ((Sp + per') * A - XY / 2 - O + XY / 2 - ((q + n) * (C + S * (84381.406 * A - f)) - C * S ^ 2 * (q + n) ^ 3 / 6 - g)) +
      (q * (C + S * (84381.406 * A - f)) - C * S ^ 2 * q ^ 3 / 6 - g - P * A - Sp * A) + n * (C + S * (84381.406 * A - f) - cos e) -
      C * S ^ 2 * ((q + n) ^ 3 - q ^ 3) / 6 := by rw [hV]; ring
    rw [ev]
    have t1 := abs_le.1 third
    have t2 := abs_le.1 poly'
    have t3 := abs_le.1 cub
    have t4 := abs_le.1 obl
    have t5 := (abs_le.1 A2).1
    generalize (Sp + per') * A - XY / 2 - O + XY / 2 - ((q + n) * (C + S * (84381.406 * A - f)) - C * S ^ 2 * (q + n) ^ 3 / 6 - g) = x1 at *
    generalize q * (C + S * (84381.406 * A - f)) - C * S ^ 2 * q ^ 3 / 6 - g - P * A - Sp * A = x2 at *
    generalize n * (C + S * (84381.406 * A - f) - cos e) = x3 at *
    generalize C * S ^ 2 * ((q + n) ^ 3 - q ^ 3) / 6 = x4 at *
    clear * - t1 t2 t3 t4 t5
    rw [abs_le]
    constructor <;> norm_num at * <;> linarith [t1.1, t1.2, t2.1, t2.2, t3.1, t3.2, t4.1, t4.2]
  have hVs : |V| ≤ 0.1 := by
    have t1 := abs_le.1 bound
    have t2 := abs_le.1 hcos
    have t3 := abs_le.1 hperA
    generalize n * cos e = x1 at *
    generalize per' * A = x2 at *
    clear * - t1 t2 t3 A0 A1
    rw [abs_le]
    constructor <;> norm_num at * <;> linarith [t1.1, t1.2, t2.1, t2.2, t3.1, t3.2]
  suffices h : eraAnpm (eraAnp (E - O) - eraAnp (E + P * A)) = V by rw [h]; exact bound
  obtain ⟨k1, hk1⟩ := (eraAnp_spec (E - O)).2
  obtain ⟨k2, hk2⟩ := (eraAnp_spec (E + P * A)).2
  obtain ⟨r1, k3, hk3⟩ := eraAnpm_spec (eraAnp (E - O) - eraAnp (E + P * A))
  generalize eraAnpm (eraAnp (E - O) - eraAnp (E + P * A)) = W at *
  rw [hk1, hk2] at hk3
  have hW : W = V + (k3 + k1 - k2 : ℤ) * (2 * π) := by rw [hk3, hV]; push_cast; ring
  have hz : k3 + k1 - k2 = 0 := by
    by_contra h
    have h1 : (1 : ℝ) ≤ |((k3 + k1 - k2 : ℤ) : ℝ)| := by
      rw [← Int.cast_abs]; exact_mod_cast Int.one_le_abs h
    have h2 : |((k3 + k1 - k2 : ℤ) : ℝ) * (2 * π)| ≤ π + 0.1 := by
      have : ((k3 + k1 - k2 : ℤ) : ℝ) * (2 * π) = W - V := by rw [hW]; ring
      rw [this]
      exact (abs_sub _ _).trans (add_le_add r1 hVs)
    rw [abs_mul, abs_of_pos (by positivity : 0 < 2 * π)] at h2
    have h3 := mul_le_mul_of_nonneg_right h1 (by positivity : 0 ≤ 2 * π)
    rw [one_mul] at h3
    have h5 : (0.1 : ℝ) < 1 := by norm_num
    linarith only [h2, h3, h5, hpi]
  rw [hW, hz]
  simp

theorem cent06_mjd (date : ℝ) : cent06 rMJD0 date = centuries date := by
  unfold cent06 centuries rMJD0; ring

/-- **C106** (value) Between 1900 and 2100 palEqeqx returns the nutation in longitude projected on the equator, Δψ cos ε, plus the complementary terms (minus the periodic part of
the CIO locator), to 3 milliarcseconds (0.2 milliseconds of time), for every nutation series with Δψ up to 20″ and Δε up to 11″. -/
theorem C106_value (nut : ℝ → ℝ → ℝ × ℝ) (per : ℝ → ℝ) (date : ℝ) (ht : |centuries date| ≤ 1)
    (h1 : |(nut rMJD0 date).1| ≤ 20 * Spec.arcsec) (h2 : |(nut rMJD0 date).2| ≤ 11 * Spec.arcsec) (h3 : |per (centuries date)| ≤ 1) :
    |palEqeqx nut per date - eqEquinoxes (centuries date) (nut rMJD0 date).1 (-per (centuries date))| ≤ 0.003 * Spec.arcsec := by
  have h := ee06a_value nut per rMJD0 date (by rwa [cent06_mjd]) h1 h2 (by rwa [cent06_mjd])
  rw [cent06_mjd] at h
  have e : (eraPfw06 rMJD0 date).epsa = obliquity06 (centuries date) * Spec.arcsec := by
    unfold eraPfw06 eraObl06 obliquity06
    dsimp only
    rw [cent06_mjd]
    unfold das2r Spec.arcsec
    ring
  rw [e] at h
  unfold palEqeqx eqEquinoxes
  have e2 : das2r = Spec.arcsec := rfl
  rw [e2] at h
  have e3 : ∀ x : ℝ, x + -per (centuries date) * Spec.arcsec = x - per (centuries date) * Spec.arcsec := fun x => by ring
  rw [e3]
  exact h

example : |palEqeqx (fun _ _ => (-14 * Spec.arcsec, -6 * Spec.arcsec)) (fun _ => 0.0026) 51544.5 -
    (-14 * Spec.arcsec * cos (84381.406 * Spec.arcsec) - 0.0026 * Spec.arcsec)| ≤ 0.003 * Spec.arcsec := by
  have hp : 0 < Spec.arcsec := das2r_gt0
  have h := C106_value (fun _ _ => (-14 * Spec.arcsec, -6 * Spec.arcsec)) (fun _ => 0.0026) 51544.5 (by unfold centuries; norm_num)
    (by rw [abs_mul, abs_of_pos hp]; norm_num [abs_of_neg]; linarith) (by rw [abs_mul, abs_of_pos hp]; norm_num [abs_of_neg]; linarith) (by norm_num [abs_of_pos])
  have c0 : centuries 51544.5 = 0 := by unfold centuries; norm_num
  rw [c0] at h
  unfold eqEquinoxes obliquity06 at h
  norm_num at h ⊢
  have e : ∀ x : ℝ, x + -(13 / 5000 * Spec.arcsec) = x - 13 / 5000 * Spec.arcsec := fun x => by ring
  rw [e] at h
  exact h

/-- **C106** (size) So the equation of the equinoxes never exceeds 1.3 seconds of time between 1900 and 2100. -/
theorem C106_size (nut : ℝ → ℝ → ℝ × ℝ) (per : ℝ → ℝ) (date : ℝ) (ht : |centuries date| ≤ 1)
    (h1 : |(nut rMJD0 date).1| ≤ 20 * Spec.arcsec) (h2 : |(nut rMJD0 date).2| ≤ 11 * Spec.arcsec) (h3 : |per (centuries date)| ≤ 0.01) :
    |palEqeqx nut per date| ≤ 18.4 * Spec.arcsec := by
  have h := C106_value nut per date ht h1 h2 (h3.trans (by norm_num))
  have hp : 0 < Spec.arcsec := das2r_gt0
  have hA1 : Spec.arcsec < 4.8481369e-6 := das2r_ub
  unfold eqEquinoxes at h
  have hc : |cos (obliquity06 (centuries date) * Spec.arcsec)| ≤ 0.918 := by
    have ho : |obliquity06 (centuries date) - 84381.406| ≤ 46.84 := by
      have := poly_abs (a := 0) (b := -46.836769) (c := -0.0001831) (d := 0.00200340) (e := -0.000000576) (f := -0.0000000434) ht
      unfold obliquity06
      have e : ∀ t : ℝ, 84381.406 - 46.836769 * t - 0.0001831 * t ^ 2 + 0.00200340 * t ^ 3 - 0.000000576 * t ^ 4 - 0.0000000434 * t ^ 5 - 84381.406 =
        0 + (-46.836769 + (-0.0001831 + (0.00200340 + (-0.000000576 + (-0.0000000434) * t) * t) * t) * t) * t := fun t => by ring
      rw [e]
      refine this.trans ?_
      norm_num [abs_of_pos, abs_of_neg]
    have hx : |obliquity06 (centuries date) * Spec.arcsec - 84381.406 * Spec.arcsec| ≤ 2.3e-4 := by
      rw [← sub_mul]
      refine (mul_abs_le ho (abs_of_pos hp).le).trans ?_
      norm_num at hA1 ⊢
      linarith
    have h4 := abs_le.1 ((abs_cos_sub_cos_le (obliquity06 (centuries date) * Spec.arcsec) (84381.406 * Spec.arcsec)).trans hx)
    have h5 := abs_le.1 ang_ze.2
    rw [show (84381.4060000000 : ℝ) * das2r = 84381.406 * Spec.arcsec by unfold das2r Spec.arcsec; norm_num] at h5
    rw [abs_le]
    constructor <;> norm_num at h4 h5 ⊢ <;> linarith [h4.1, h4.2, h5.1, h5.2]
  have m1 := abs_le.1 (mul_abs_le h1 hc)
  have m2 := abs_le.1 (mul_abs_le h3 (abs_of_pos hp).le)
  have h := abs_le.1 h
  rw [abs_le]
  constructor <;> norm_num at h m1 m2 ⊢ <;> linarith [h.1, h.2, m1.1, m1.2, m2.1, m2.2]

/-- **C106** (apparent sidereal time) Adding palEqeqx to palGmst gives the Earth rotation angle minus the equation of the origins of the bias-precession-nutation matrix palPrenut uses,
for every date. -/
theorem C106_gast (nut : ℝ → ℝ → ℝ × ℝ) (per : ℝ → ℝ) (date : ℝ) :
    SameAngle (palGmst date + palEqeqx nut per date)
      (eraEra00 rMJD0 date - eraEors (eraPnm06a nut rMJD0 date) (eraS06 per rMJD0 date (eraPnm06a nut rMJD0 date 2 0) (eraPnm06a nut rMJD0 date 2 1))) := by
  have hEe : palEqeqx nut per date = eraAnpm (eraAnp (eraEra00 0 0 - eraEors (eraPnm06a nut rMJD0 date)
    (eraS06 per rMJD0 date (eraPnm06a nut rMJD0 date 2 0) (eraPnm06a nut rMJD0 date 2 1))) - eraGmst06 0 0 rMJD0 date) := rfl
  rw [hEe]
  generalize eraEors (eraPnm06a nut rMJD0 date) (eraS06 per rMJD0 date (eraPnm06a nut rMJD0 date 2 0) (eraPnm06a nut rMJD0 date 2 1)) = O at *
  have hG : palGmst date = eraGmst06 rMJD0 date rMJD0 date := rfl
  rw [hG]
  unfold eraGmst06
  dsimp only
  generalize ((0.014506 : ℝ) + _) * das2r = P at *
  obtain ⟨k1, h1⟩ := (eraAnp_spec (eraEra00 rMJD0 date + P)).2
  obtain ⟨k2, h2⟩ := (eraAnp_spec (eraEra00 0 0 + P)).2
  obtain ⟨k3, h3⟩ := (eraAnp_spec (eraEra00 0 0 - O)).2
  obtain ⟨k4, h4⟩ := (eraAnpm_spec (eraAnp (eraEra00 0 0 - O) - eraAnp (eraEra00 0 0 + P))).2
  refine ⟨k1 + k4 + k3 - k2, ?_⟩
  rw [h4, h1, h2, h3]
  push_cast
  ring

end Pal.Props
