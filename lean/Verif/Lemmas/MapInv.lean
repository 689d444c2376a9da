import Verif.Lemmas.Map

/-! # Helper lemmas: the light deflection iteration of palAmpqk -/

namespace Pal
open Real Matrix Pal.Spec

/-- One pass of the light deflection loop. -/
theorem defl_step {am : Amprms} {p e p1 u x : Vec3} {c B E W : ℝ} (hp : len p = 1) (hee : len am.ehn = 1) (he : am.ehn = e) (hc : dot p e = c) (hd : 1 / 100 ≤ 1 + c)
    (hg : 0 ≤ am.gr2e) (hg1 : am.gr2e ≤ 1 / 10 ^ 6) (hW : am.gr2e = W * (1 + c)) (hp1 : p1 = fun i => p i + W * (e i - c * p i))
    (hB : len (fun i => u i - p1 i) ≤ B) (hB1 : B ≤ 2 / 10 ^ 4) (hx : len x = 1) (hE : len (fun i => x i - p i) ≤ E) (hE1 : E ≤ 1 / 1000) :
    len (ampDefl am u x) = 1 ∧ len (fun i => ampDefl am u x i - p i) ≤ 2.002 * B + 0.052 * E := by
  subst he
  have hcx : |dot x am.ehn - c| ≤ E := by
    have := dot_le_len (fun i => x i - p i) am.ehn
    rw [dot_sub_left, hc, hee, mul_one] at this
    exact this.trans hE
  have hcx1 : |dot x am.ehn| ≤ 1 := by have := dot_le_len x am.ehn; rwa [hx, hee, one_mul] at this
  have hB0 : 0 ≤ B := (len_nonneg _).trans hB
  have hE0 : 0 ≤ E := (len_nonneg _).trans hE
  have hsum : len (fun i => am.ehn i + p i) ≤ 2 := by have := len_add_le am.ehn p; rw [hee, hp] at this; linarith
  have key : len (fun i => ((1 + dot x am.ehn) * u i - am.gr2e * am.ehn i) / (1 + dot x am.ehn - am.gr2e * dot x am.ehn) - p i) ≤ 1.001 * B + 0.026 * E := by
    generalize dot x am.ehn = cx at *
    obtain ⟨h1, h2⟩ := abs_le.1 hcx
    obtain ⟨h3, h4⟩ := abs_le.1 hcx1
    have hdx : 0.009 ≤ 1 + cx := by linarith
    have hgc : |am.gr2e * cx| ≤ 1 / 10 ^ 6 := by
      rw [abs_mul, abs_of_nonneg hg]
      nlinarith [abs_nonneg cx]
    obtain ⟨h5, h6⟩ := abs_le.1 hgc
    have hden : 0 < 1 + cx - am.gr2e * cx := by linarith
    have e1 : (fun i => ((1 + cx) * u i - am.gr2e * am.ehn i) / (1 + cx - am.gr2e * cx) - p i)
        = fun i => (1 + cx - am.gr2e * cx)⁻¹ * ((1 + cx) * (u i - p1 i) + (W * (cx - c)) * (am.ehn i + p i)) := by
      funext i
      rw [hp1]
      have : (1 + cx - am.gr2e * cx) ≠ 0 := hden.ne'
      rw [eq_comm, inv_mul_eq_iff_eq_mul₀ this, mul_sub (1 + cx - am.gr2e * cx), mul_div_cancel₀ _ this, hW]
      ring
    rw [e1, len_smul (1 + cx - am.gr2e * cx)⁻¹ (fun i => (1 + cx) * (u i - p1 i) + (W * (cx - c)) * (am.ehn i + p i)), abs_of_pos (inv_pos.2 hden)]
    have t := len_add_le (fun i => (1 + cx) * (u i - p1 i)) (fun i => (W * (cx - c)) * (am.ehn i + p i))
    rw [len_smul (1 + cx) (fun i => u i - p1 i), len_smul (W * (cx - c)) (fun i => am.ehn i + p i), abs_of_pos (by linarith : 0 < 1 + cx)] at t
    have hW0 : 0 ≤ W := by
      by_contra hneg
      push Not at hneg
      nlinarith
    have hW1 : W ≤ 1 / 10 ^ 4 := by nlinarith
    have ha : (1 + cx) * len (fun i => u i - p1 i) ≤ (1 + cx) * B := mul_le_mul_of_nonneg_left hB (by linarith)
    have hb : |W * (cx - c)| * len (fun i => am.ehn i + p i) ≤ W * E * 2 := by
      rw [abs_mul, abs_of_nonneg hW0]
      exact mul_le_mul (mul_le_mul_of_nonneg_left hcx hW0) hsum (len_nonneg _) (by positivity)
    have hn : (1 + cx) * B + W * E * 2 ≤ (1 + cx - am.gr2e * cx) * (1.001 * B + 0.026 * E) := by
      have i1 : (1 + cx) * B ≤ (1 + cx - am.gr2e * cx) * (1.001 * B) := by
        have : (1 + cx) ≤ (1 + cx - am.gr2e * cx) * 1.001 := by linarith
        nlinarith
      have i2 : W * E * 2 ≤ (1 + cx - am.gr2e * cx) * (0.026 * E) := by
        have : W * 2 ≤ (1 + cx - am.gr2e * cx) * 0.026 := by linarith
        nlinarith
      linarith
    calc _ ≤ (1 + cx - am.gr2e * cx)⁻¹ * ((1 + cx - am.gr2e * cx) * (1.001 * B + 0.026 * E)) :=
          mul_le_mul_of_nonneg_left (t.trans ((add_le_add ha hb).trans hn)) (inv_pos.2 hden).le
      _ = _ := inv_mul_cancel_left₀ hden.ne' _
  have := pn_near hp key (by linarith)
  unfold ampDefl
  dsimp only
  rw [eraPdp_eq]
  exact ⟨this.1, this.2.trans (by linarith)⟩

/-- The five passes. -/
theorem defl_five {am : Amprms} {p p1 u : Vec3} {c B W : ℝ} (hp : len p = 1) (hee : len am.ehn = 1) (hc : dot p am.ehn = c) (hd : 1 / 100 ≤ 1 + c)
    (hg : 0 ≤ am.gr2e) (hg1 : am.gr2e ≤ 1 / 10 ^ 6) (hW : am.gr2e = W * (1 + c)) (hp1 : p1 = fun i => p i + W * (am.ehn i - c * p i))
    (hB : len (fun i => u i - p1 i) ≤ B) (hB1 : B ≤ 2 / 10 ^ 4) (hu : len u = 1) :
    len ((ampDefl am u)^[5] u) = 1 ∧ len (fun i => (ampDefl am u)^[5] u i - p i) ≤ 2.2 * B + W / 10 ^ 6 := by
  have hB0 : 0 ≤ B := (len_nonneg _).trans hB
  have hW0 : 0 ≤ W := by
    by_contra hneg
    push Not at hneg
    nlinarith
  have hW1 : W ≤ 1 / 10 ^ 4 := by nlinarith
  have hperp : len (fun i => am.ehn i - c * p i) ≤ 1 := by
    have hpp := dot_of_len hp
    have hee' := dot_of_len hee
    have : dot (fun i => am.ehn i - c * p i) (fun i => am.ehn i - c * p i) = 1 - c * c := by
      have : dot (fun i => am.ehn i - c * p i) (fun i => am.ehn i - c * p i) = dot am.ehn am.ehn - 2 * c * dot p am.ehn + c ^ 2 * dot p p := by
        simp only [dot_eq]; ring
      rw [this, hpp, hee', hc]; ring
    rw [len_eq, this]
    exact Real.sqrt_le_one.2 (by nlinarith [mul_self_nonneg c])
  have h0 : len (fun i => u i - p i) ≤ B + W := by
    refine (len_tri u p1 p).trans (add_le_add hB ?_)
    have e : (fun i => p1 i - p i) = fun i => W * (am.ehn i - c * p i) := by rw [hp1]; funext i; ring
    rw [e, len_smul W (fun i => am.ehn i - c * p i), abs_of_nonneg hW0]
    nlinarith
  have step := fun x E (hx : len x = 1) (hE : len (fun i => x i - p i) ≤ E) (hE1 : E ≤ 1 / 1000) =>
    defl_step (x := x) (E := E) hp hee rfl hc hd hg hg1 hW hp1 hB hB1 hx hE hE1
  obtain ⟨a1, b1⟩ := step u _ hu h0 (by linarith)
  obtain ⟨a2, b2⟩ := step _ _ a1 b1 (by linarith)
  obtain ⟨a3, b3⟩ := step _ _ a2 b2 (by linarith)
  obtain ⟨a4, b4⟩ := step _ _ a3 b3 (by linarith)
  obtain ⟨a5, b5⟩ := step _ _ a4 b4 (by linarith)
  exact ⟨a5, b5.trans (by linarith)⟩

/-- The two aberration passes. -/
theorem aberr_two {am : Amprms} {n m0 m : Vec3} {eta : ℝ} (hv1 : len am.abv ≤ 1 / 50) (ha : am.ab1 = √(1 - len am.abv * len am.abv))
    (hn : dot n n = 1) (hm : (fun i => (1 + dot n am.abv) * m0 i) = fun i => am.ab1 * n i + (1 + dot n am.abv / (am.ab1 + 1)) * am.abv i)
    (hm1 : len m = 1) (hm' : len (fun i => m i - m0 i) ≤ eta) (he : eta ≤ 1 / 100) :
    len ((ampAberr am m)^[2] m) = 1 ∧ len (fun i => (ampAberr am m)^[2] m i - n i) ≤ 15 * len am.abv ^ 3 + 2.6 * eta := by
  have hv0 := len_nonneg am.abv
  have heta : 0 ≤ eta := (len_nonneg _).trans hm'
  have hs := aberr_shift (by linarith) ha hn hm
  have h0 : len (fun i => m i - n i) ≤ 2.5 * len am.abv + eta := (len_tri m m0 n).trans (by linarith)
  obtain ⟨a1, b1⟩ := aberr_step (by linarith) ha hn hm hm' hm1 h0 (by nlinarith)
  have b1' : len (fun i => ampAberr am m m i - n i) ≤ 6 * len am.abv ^ 2 + 2.3 * eta := b1.trans (by nlinarith)
  obtain ⟨a2, b2⟩ := aberr_step (by linarith) ha hn hm hm' a1 b1' (by nlinarith)
  refine ⟨a2, b2.trans ?_⟩
  have h3 : 0 ≤ len am.abv ^ 3 := by positivity
  have h4 : len am.abv * eta ≤ 1 / 50 * eta := mul_le_mul_of_nonneg_right hv1 heta
  nlinarith

end Pal
