import Verif.Lemmas.Ellipse
import Verif.Lemmas.KeplerMotion

/-! # Where the iteration of palUe2pv stops -/

namespace Pal.Ellipse
open Real Pal.Orbit Pal.Stumpff Pal.Kepler Pal.Spec

theorem loop_exit (u : Univ) (dt : ℝ) : ∀ (n nit : ℕ) (psi plast flast psi' : ℝ) (s : UeFun) (r : ℝ), 27 - nit ≤ n →
    (nit = 1 ∨ flast = ueFF u dt (ueFun u.alpha plast)) → ueLoop u dt nit psi plast flast = .done psi' s r →
    ∃ ψ w, s = ueFun u.alpha ψ ∧ r = ueR u s ∧ psi' = ψ - w ∧ |w| < s.tol ∧
      (ueFF u dt s = w * r ∨ ∃ ψ₁, ueFF u dt s * ueFF u dt (ueFun u.alpha ψ₁) < 0 ∧
        w = ueFF u dt s * (ψ₁ - ψ) / (ueFF u dt (ueFun u.alpha ψ₁) - ueFF u dt s)) := by
  intro n
  induction n with
  | zero =>
    intro nit psi plast flast psi' s r hn hinv h
    rw [ueLoop] at h
    dsimp only at h
    generalize hfl : (if nit = 1 then ueFF u dt (ueFun u.alpha psi) else flast) = fl at h
    generalize hw : (if ueFF u dt (ueFun u.alpha psi) * fl < 0 then ueFF u dt (ueFun u.alpha psi) * (plast - psi) / (fl - ueFF u dt (ueFun u.alpha psi))
      else ueFF u dt (ueFun u.alpha psi) / ueR u (ueFun u.alpha psi)) = w at h
    split at h
    · cases h
    split at h
    · cases h
    · omega
  | succ n ih =>
    intro nit psi plast flast psi' s r hn hinv h
    rw [ueLoop] at h
    dsimp only at h
    generalize hfl : (if nit = 1 then ueFF u dt (ueFun u.alpha psi) else flast) = fl at h
    generalize hw : (if ueFF u dt (ueFun u.alpha psi) * fl < 0 then ueFF u dt (ueFun u.alpha psi) * (plast - psi) / (fl - ueFF u dt (ueFun u.alpha psi))
      else ueFF u dt (ueFun u.alpha psi) / ueR u (ueFun u.alpha psi)) = w at h
    split at h
    · cases h
    rename_i h1
    split at h
    · cases h
    rename_i h2
    split at h
    · exact ih (nit + 1) _ psi _ psi' s r (by omega) (Or.inr rfl) h
    · rename_i h3
      simp only [UeEnd.done.injEq] at h
      obtain ⟨rfl, rfl, rfl⟩ := h
      refine ⟨psi, w, rfl, rfl, rfl, not_le.1 h3, ?_⟩
      by_cases hc : ueFF u dt (ueFun u.alpha psi) * fl < 0
      · right
        rw [if_pos hc] at hw
        have hn1 : nit ≠ 1 := by
          intro e
          rw [if_pos e] at hfl
          rw [← hfl] at hc
          nlinarith [mul_self_nonneg (ueFF u dt (ueFun u.alpha psi))]
        rw [if_neg hn1] at hfl
        have hf : flast = ueFF u dt (ueFun u.alpha plast) := hinv.resolve_left hn1
        rw [← hfl, hf] at hc hw
        exact ⟨plast, hc, hw.symm⟩
      · left
        rw [if_neg hc] at hw
        have hr : ueR u (ueFun u.alpha psi) ≠ 0 := fun e => h1 ⟨hc, e⟩
        rw [← hw]
        field_simp

/-- What a successful call of palUe2pv has solved. -/
theorem ue2pv_exit {date : ℝ} {u u' : Univ} {pv pv' : PV} (h : palUe2pv date u pv = some (u', pv', 0)) :
    ∃ ψ w, u' = { u with t := date, psi := ψ - w } ∧ u.r0 ≠ 0 ∧ ueR u (ueFun u.alpha ψ) ≠ 0 ∧ |w| < (ueFun u.alpha ψ).tol ∧
      (ueFF u ((date - u.t0) * gcon) (ueFun u.alpha ψ) = w * ueR u (ueFun u.alpha ψ) ∨ ∃ ψ₁, ueFF u ((date - u.t0) * gcon) (ueFun u.alpha ψ) *
          ueFF u ((date - u.t0) * gcon) (ueFun u.alpha ψ₁) < 0 ∧
        w = ueFF u ((date - u.t0) * gcon) (ueFun u.alpha ψ) * (ψ₁ - ψ) / (ueFF u ((date - u.t0) * gcon) (ueFun u.alpha ψ₁) - ueFF u ((date - u.t0) * gcon) (ueFun u.alpha ψ))) ∧
      pv'.p = (fun i => u.p0 i * (1 - u.cm * (ueFun u.alpha ψ).s2 / u.r0) + u.v0 i * ((date - u.t0) * gcon - u.cm * (ueFun u.alpha ψ).s3)) ∧
      pv'.v = (fun i => cd2s * (u.p0 i * (-u.cm * (ueFun u.alpha ψ).s1 / (u.r0 * ueR u (ueFun u.alpha ψ))) +
        u.v0 i * (1 - u.cm * (ueFun u.alpha ψ).s2 / ueR u (ueFun u.alpha ψ)))) := by
  unfold palUe2pv at h
  split at h
  · cases h
  rename_i hr0
  dsimp only at h
  split at h
  · rename_i j hj
    have := loop_fail hj
    simp only [Option.some.injEq, Prod.mk.injEq] at h
    omega
  · rename_i psi s r hd
    obtain ⟨ψ, w, rfl, rfl, rfl, hw, hx⟩ := loop_exit u _ _ 1 _ _ _ _ _ _ (le_refl _) (Or.inl rfl) hd
    split at h
    · cases h
    rename_i hr
    simp only [Option.some.injEq, Prod.mk.injEq] at h
    obtain ⟨rfl, rfl, -⟩ := h
    exact ⟨ψ, w, rfl, hr0, hr, hw, hx, rfl, rfl⟩

/-- The same with a region |ψ - c| ≤ X that the Newton steps do not leave. -/
theorem loop_exit_near (u : Univ) (dt c X : ℝ) (hN : ∀ ψ, |ψ - c| ≤ X → ueR u (ueFun u.alpha ψ) ≠ 0 → |ψ - ueFF u dt (ueFun u.alpha ψ) / ueR u (ueFun u.alpha ψ) - c| ≤ X) :
    ∀ (n nit : ℕ) (psi plast flast psi' : ℝ) (s : UeFun) (r : ℝ), 27 - nit ≤ n → |psi - c| ≤ X →
    (nit = 1 ∨ flast = ueFF u dt (ueFun u.alpha plast) ∧ |plast - c| ≤ X) → ueLoop u dt nit psi plast flast = .done psi' s r →
    ∃ ψ w, |ψ - c| ≤ X ∧ s = ueFun u.alpha ψ ∧ r = ueR u s ∧ psi' = ψ - w ∧ |w| < s.tol ∧
      (ueFF u dt s = w * r ∨ ∃ ψ₁, |ψ₁ - c| ≤ X ∧ ueFF u dt s * ueFF u dt (ueFun u.alpha ψ₁) < 0 ∧
        w = ueFF u dt s * (ψ₁ - ψ) / (ueFF u dt (ueFun u.alpha ψ₁) - ueFF u dt s)) := by
  intro n
  induction n with
  | zero =>
    intro nit psi plast flast psi' s r hn _ hinv h
    rw [ueLoop] at h
    dsimp only at h
    generalize hfl : (if nit = 1 then ueFF u dt (ueFun u.alpha psi) else flast) = fl at h
    generalize hw : (if ueFF u dt (ueFun u.alpha psi) * fl < 0 then ueFF u dt (ueFun u.alpha psi) * (plast - psi) / (fl - ueFF u dt (ueFun u.alpha psi))
      else ueFF u dt (ueFun u.alpha psi) / ueR u (ueFun u.alpha psi)) = w at h
    split at h
    · cases h
    split at h
    · cases h
    · omega
  | succ n ih =>
    intro nit psi plast flast psi' s r hn hpsi hinv h
    rw [ueLoop] at h
    dsimp only at h
    generalize hfl : (if nit = 1 then ueFF u dt (ueFun u.alpha psi) else flast) = fl at h
    generalize hw : (if ueFF u dt (ueFun u.alpha psi) * fl < 0 then ueFF u dt (ueFun u.alpha psi) * (plast - psi) / (fl - ueFF u dt (ueFun u.alpha psi))
      else ueFF u dt (ueFun u.alpha psi) / ueR u (ueFun u.alpha psi)) = w at h
    split at h
    · cases h
    rename_i h1
    split at h
    · cases h
    rename_i h2
    have hsec : ueFF u dt (ueFun u.alpha psi) * fl < 0 → |plast - c| ≤ X ∧ fl = ueFF u dt (ueFun u.alpha plast) ∧
        w = ueFF u dt (ueFun u.alpha psi) * (plast - psi) / (ueFF u dt (ueFun u.alpha plast) - ueFF u dt (ueFun u.alpha psi)) := by
      intro hc
      rw [if_pos hc] at hw
      have hn1 : nit ≠ 1 := by
        intro e
        rw [if_pos e] at hfl
        rw [← hfl] at hc
        nlinarith [mul_self_nonneg (ueFF u dt (ueFun u.alpha psi))]
      rw [if_neg hn1] at hfl
      obtain ⟨hf, hp⟩ := hinv.resolve_left hn1
      rw [← hfl, hf] at hw
      exact ⟨hp, by rw [← hfl, hf], hw.symm⟩
    have hnew : |psi - w - c| ≤ X := by
      by_cases hc : ueFF u dt (ueFun u.alpha psi) * fl < 0
      · obtain ⟨hp, hf, hw'⟩ := hsec hc
        rw [hf] at hc
        set f := ueFF u dt (ueFun u.alpha psi)
        set f1 := ueFF u dt (ueFun u.alpha plast)
        obtain ⟨θ, h0, h1', he⟩ : ∃ θ : ℝ, 0 ≤ θ ∧ θ ≤ 1 ∧ w = θ * (psi - plast) := by
          have hne : f1 - f ≠ 0 := by
            intro e
            have : f1 = f := by linarith
            rw [this] at hc
            nlinarith [mul_self_nonneg f]
          refine ⟨-f / (f1 - f), ?_, ?_, ?_⟩
          · rcases mul_neg_iff.1 hc with ⟨a, b⟩ | ⟨a, b⟩
            · exact div_nonneg_of_nonpos (by linarith) (by linarith)
            · exact div_nonneg (by linarith) (by linarith)
          · rcases mul_neg_iff.1 hc with ⟨a, b⟩ | ⟨a, b⟩
            · rw [div_le_one_of_neg (by linarith)]; linarith
            · rw [div_le_one (by linarith)]; linarith
          · rw [hw']; field_simp; ring
        rw [abs_le] at hpsi hp ⊢
        rw [he]
        constructor <;> nlinarith
      · rw [if_neg hc] at hw
        have hr : ueR u (ueFun u.alpha psi) ≠ 0 := fun e => h1 ⟨hc, e⟩
        rw [← hw]
        exact hN psi hpsi hr
    split at h
    · exact ih (nit + 1) _ psi _ psi' s r (by omega) hnew (Or.inr ⟨rfl, hpsi⟩) h
    · rename_i h3
      simp only [UeEnd.done.injEq] at h
      obtain ⟨rfl, rfl, rfl⟩ := h
      refine ⟨psi, w, hpsi, rfl, rfl, rfl, not_le.1 h3, ?_⟩
      by_cases hc : ueFF u dt (ueFun u.alpha psi) * fl < 0
      · right
        obtain ⟨hp, hf, hw'⟩ := hsec hc
        rw [hf] at hc
        exact ⟨plast, hp, hc, hw'⟩
      · left
        rw [if_neg hc] at hw
        have hr : ueR u (ueFun u.alpha psi) ≠ 0 := fun e => h1 ⟨hc, e⟩
        rw [← hw]
        field_simp

theorem ue2pv_exit_near {date c X : ℝ} {u u' : Univ} {pv pv' : PV} (h : palUe2pv date u pv = some (u', pv', 0)) {dt : ℝ} (hdt : dt = (date - u.t0) * gcon)
    (hN : ∀ ψ, |ψ - c| ≤ X → ueR u (ueFun u.alpha ψ) ≠ 0 → |ψ - ueFF u dt (ueFun u.alpha ψ) / ueR u (ueFun u.alpha ψ) - c| ≤ X)
    (h0 : |u.psi + (date - u.t) * gcon / u.r0 - c| ≤ X) :
    ∃ ψ w, |ψ - c| ≤ X ∧ ueR u (ueFun u.alpha ψ) ≠ 0 ∧ |w| < (ueFun u.alpha ψ).tol ∧
      (ueFF u dt (ueFun u.alpha ψ) = w * ueR u (ueFun u.alpha ψ) ∨ ∃ ψ₁, |ψ₁ - c| ≤ X ∧ ueFF u dt (ueFun u.alpha ψ) * ueFF u dt (ueFun u.alpha ψ₁) < 0 ∧
        w = ueFF u dt (ueFun u.alpha ψ) * (ψ₁ - ψ) / (ueFF u dt (ueFun u.alpha ψ₁) - ueFF u dt (ueFun u.alpha ψ))) ∧
      pv'.p = (fun i => u.p0 i * (1 - u.cm * (ueFun u.alpha ψ).s2 / u.r0) + u.v0 i * (dt - u.cm * (ueFun u.alpha ψ).s3)) ∧
      pv'.v = (fun i => cd2s * (u.p0 i * (-u.cm * (ueFun u.alpha ψ).s1 / (u.r0 * ueR u (ueFun u.alpha ψ))) +
        u.v0 i * (1 - u.cm * (ueFun u.alpha ψ).s2 / ueR u (ueFun u.alpha ψ)))) := by
  unfold palUe2pv at h
  split at h
  · cases h
  dsimp only at h
  rw [← hdt] at h
  split at h
  · rename_i j hj
    have := loop_fail hj
    simp only [Option.some.injEq, Prod.mk.injEq] at h
    omega
  · rename_i psi s r hd
    obtain ⟨ψ, w, hψ, rfl, rfl, rfl, hw, hx⟩ := loop_exit_near u dt c X hN _ 1 _ _ _ _ _ _ (le_refl _) h0 (Or.inl rfl) hd
    split at h
    · cases h
    rename_i hr
    simp only [Option.some.injEq, Prod.mk.injEq] at h
    obtain ⟨rfl, rfl, -⟩ := h
    exact ⟨ψ, w, hψ, hr, hw, hx, rfl, rfl⟩

/-! ### Sizes on an ellipse -/

variable {mu k r0 σ : ℝ} {p v : Fin 3 → ℝ}

/-- Bounds of the reference state of an ellipse. -/
theorem ref_bounds (hk : 0 < k) (H : Ref mu (-k ^ 2) r0 σ p v) : 0 < mu ∧ k ^ 2 * r0 ≤ 2 * mu ∧ k * |σ| ≤ mu ∧ σ ^ 2 ≤ 2 * mu * r0 - k ^ 2 * r0 ^ 2 := by
  have hv : 0 ≤ dot v v := by rw [dot_self_len]; exact sq_nonneg _
  rw [H.vv] at hv
  have h0 := H.pos
  have hk2 : 0 < k ^ 2 := by positivity
  have e : (-k ^ 2 + 2 * mu / r0) * r0 = 2 * mu - k ^ 2 * r0 := by field_simp; ring
  have q1 : 0 ≤ 2 * mu - k ^ 2 * r0 := by rw [← e]; exact mul_nonneg hv h0.le
  have hmu : 0 < mu := by nlinarith [mul_pos hk2 h0]
  have hcs : σ ^ 2 ≤ r0 ^ 2 * (-k ^ 2 + 2 * mu / r0) := by
    rw [← H.pv, ← H.pp, ← H.vv]
    simp only [dot, Fin.sum_univ_three]
    nlinarith [sq_nonneg (p 0 * v 1 - p 1 * v 0), sq_nonneg (p 0 * v 2 - p 2 * v 0), sq_nonneg (p 1 * v 2 - p 2 * v 1)]
  have hcs' : σ ^ 2 ≤ 2 * mu * r0 - k ^ 2 * r0 ^ 2 := by
    have e2 : r0 ^ 2 * (-k ^ 2 + 2 * mu / r0) = 2 * mu * r0 - k ^ 2 * r0 ^ 2 := by field_simp; ring
    rw [← e2]; exact hcs
  refine ⟨hmu, by linarith, ?_, hcs'⟩
  have : (k * |σ|) ^ 2 ≤ mu ^ 2 := by
    rw [mul_pow, sq_abs]
    nlinarith [sq_nonneg (mu - k ^ 2 * r0), mul_le_mul_of_nonneg_left hcs' hk2.le]
  exact abs_le_of_sq_le_sq' this hmu.le |>.2

/-- A combination r0 e1 + σ e2 + μ e3 of small quantities. -/
theorem comb_small {e1 e2 e3 ε : ℝ} (hk : 0 < k) (h0 : 0 < r0) (hmu : 0 < mu) (hr : k ^ 2 * r0 ≤ 2 * mu) (hσ : k * |σ| ≤ mu) (h1 : |e1| ≤ ε) (h2 : k * |e2| ≤ ε) (h3 : k ^ 2 * |e3| ≤ ε) :
    k ^ 2 * |r0 * e1 + σ * e2 + mu * e3| ≤ 4 * ε * mu := by
  have hε : 0 ≤ ε := (abs_nonneg _).trans h1
  have t : |r0 * e1 + σ * e2 + mu * e3| ≤ r0 * |e1| + |σ| * |e2| + mu * |e3| := by
    refine (abs_add_le _ _).trans (add_le_add ((abs_add_le _ _).trans (le_of_eq ?_)) (le_of_eq ?_))
    · rw [abs_mul, abs_mul, abs_of_pos h0]
    · rw [abs_mul, abs_of_pos hmu]
  have a1 : k ^ 2 * r0 * |e1| ≤ 2 * mu * ε := mul_le_mul hr h1 (abs_nonneg _) (by linarith)
  have a2 : (k * |σ|) * (k * |e2|) ≤ mu * ε := mul_le_mul hσ h2 (by positivity) hmu.le
  have a3 : mu * (k ^ 2 * |e3|) ≤ mu * ε := mul_le_mul_of_nonneg_left h3 hmu.le
  have := mul_le_mul_of_nonneg_left t (sq_nonneg k)
  nlinarith

/-- The distance stays below twice the semi-major axis. -/
theorem rr_le (hk : 0 < k) (H : Ref mu (-k ^ 2) r0 σ p v) (s : ℝ) : k ^ 2 * rr mu (-k ^ 2) r0 σ s ≤ 2 * mu := by
  obtain ⟨hmu, -, -, hcs⟩ := ref_bounds hk H
  have h := rd_sq (mu := mu) (a := -k ^ 2) (σ := σ) H.pos.ne' s
  have e2 : r0 ^ 2 * (-k ^ 2 + 2 * mu / r0) = 2 * mu * r0 - k ^ 2 * r0 ^ 2 := by have := H.pos.ne'; field_simp; ring
  rw [e2] at h
  have hs := sq_nonneg (rd mu (-k ^ 2) r0 σ s)
  by_contra hc
  push Not at hc
  have hr : 0 < rr mu (-k ^ 2) r0 σ s := by
    by_contra h'
    push Not at h'
    nlinarith [sq_nonneg k, mul_nonneg (sq_nonneg k) (neg_nonneg.2 h')]
  nlinarith [mul_pos hr (sub_pos.2 hc)]

theorem tt_lip (hk : 0 < k) (H : Ref mu (-k ^ 2) r0 σ p v) (hh : 0 < r0 ^ 2 * (-k ^ 2 + 2 * mu / r0) - σ ^ 2) (s s' : ℝ) :
    k ^ 2 * |tt mu (-k ^ 2) r0 σ s - tt mu (-k ^ 2) r0 σ s'| ≤ 2 * mu * |s - s'| := by
  have hk2 : 0 < k ^ 2 := by positivity
  have hb : ∀ x, ‖rr mu (-k ^ 2) r0 σ x‖ ≤ 2 * mu / k ^ 2 := by
    intro x
    rw [Real.norm_of_nonneg (rr_pos H.pos hh x).le, le_div_iff₀ hk2]
    linarith [rr_le hk H x]
  have := Convex.norm_image_sub_le_of_norm_hasDerivWithin_le (f := tt mu (-k ^ 2) r0 σ) (s := Set.univ) (C := 2 * mu / k ^ 2)
    (fun x _ => (tt_deriv x).hasDerivWithinAt) (fun x _ => hb x) convex_univ (Set.mem_univ s') (Set.mem_univ s)
  rw [Real.norm_eq_abs, Real.norm_eq_abs] at this
  have h2 := mul_le_mul_of_nonneg_left this hk2.le
  refine h2.trans (le_of_eq ?_)
  field_simp

/-- The anomaly in terms of the time. -/
theorem psi_le (hk : 0 < k) (H : Ref mu (-k ^ 2) r0 σ p v) (s : ℝ) : mu * (k * |s|) ≤ k ^ 3 * |tt mu (-k ^ 2) r0 σ s| + 3 * mu := by
  obtain ⟨hmu, hr, hσ, -⟩ := ref_bounds hk H
  have i0 := id0 (-k ^ 2) s
  have i1 := id1 (-k ^ 2) s
  rw [U0_neg hk] at i0
  rw [U1_neg hk] at i1
  have e1 : k * U1 (-k ^ 2) s = sin (k * s) := by rw [U1_neg hk]; field_simp
  have e2 : k ^ 2 * U2 (-k ^ 2) s = 1 - cos (k * s) := by linarith
  have e3 : k ^ 3 * U3 (-k ^ 2) s = k * s - sin (k * s) := by field_simp at i1; linear_combination i1
  have e : k ^ 3 * tt mu (-k ^ 2) r0 σ s = mu * (k * s) + (k ^ 2 * r0 - mu) * sin (k * s) + k * σ * (1 - cos (k * s)) := by
    unfold tt
    linear_combination (k ^ 2 * r0) * e1 + (k * σ) * e2 + mu * e3
  have hkr : 0 ≤ k ^ 2 * r0 := mul_nonneg (sq_nonneg k) H.pos.le
  have b1 : |(k ^ 2 * r0 - mu) * sin (k * s)| ≤ mu * 1 := by
    rw [abs_mul]
    exact mul_le_mul (by rw [abs_le]; constructor <;> linarith) (abs_sin_le_one _) (abs_nonneg _) hmu.le
  have b2 : |k * σ * (1 - cos (k * s))| ≤ mu * 2 := by
    rw [abs_mul, abs_mul, abs_of_pos hk]
    exact mul_le_mul hσ (by rw [abs_le]; constructor <;> linarith [cos_le_one (k * s), neg_one_le_cos (k * s)]) (abs_nonneg _) hmu.le
  have e' : mu * (k * s) = k ^ 3 * tt mu (-k ^ 2) r0 σ s - (k ^ 2 * r0 - mu) * sin (k * s) - k * σ * (1 - cos (k * s)) := by linarith
  have habs : mu * (k * |s|) = |mu * (k * s)| := by rw [abs_mul, abs_mul, abs_of_pos hmu, abs_of_pos hk]
  rw [habs, e']
  have q := abs_sub (k ^ 3 * tt mu (-k ^ 2) r0 σ s - (k ^ 2 * r0 - mu) * sin (k * s)) (k * σ * (1 - cos (k * s)))
  have q2 := abs_sub (k ^ 3 * tt mu (-k ^ 2) r0 σ s) ((k ^ 2 * r0 - mu) * sin (k * s))
  have q3 : |k ^ 3 * tt mu (-k ^ 2) r0 σ s| = k ^ 3 * |tt mu (-k ^ 2) r0 σ s| := by rw [abs_mul, abs_of_pos (pow_pos hk 3)]
  linarith

/-- The residual of Kepler's equation when the iteration has stopped.  F and F1 are the sums that the code compares with dt, at ψ and at the previous trial value. -/
theorem residual_le {dt ψ ψ₁ w F F1 R tol : ℝ} (hk : 0 < k) (H : Ref mu (-k ^ 2) r0 σ p v) (hh : 0 < r0 ^ 2 * (-k ^ 2 + 2 * mu / r0) - σ ^ 2)
    (hF : k ^ 3 * |F - tt mu (-k ^ 2) r0 σ ψ| ≤ 8e-13 * (k * |ψ|) * mu) (hF1 : k ^ 3 * |F1 - tt mu (-k ^ 2) r0 σ ψ₁| ≤ 8e-13 * (k * |ψ₁|) * mu)
    (hR : k ^ 2 * |R| ≤ 5 * mu) (hw : |w| < tol) (hFF : ψ₁ = ψ → F1 = F)
    (hx : F - dt = w * R ∨ ((F - dt) * (F1 - dt) < 0 ∧ w = (F - dt) * (ψ₁ - ψ) / ((F1 - dt) - (F - dt)))) :
    k ^ 3 * |F - dt| ≤ mu * (5 * k * tol + 1.6e-12 * (k * |ψ|)) := by
  obtain ⟨hmu, hr, hσ, -⟩ := ref_bounds hk H
  have hk2 : 0 < k ^ 2 := by positivity
  have hx0 : 0 ≤ k * |ψ| := by positivity
  rcases hx with hx | ⟨hs, hx⟩
  · rw [hx, abs_mul]
    have : |w| * (k ^ 2 * |R|) ≤ tol * (5 * mu) := mul_le_mul hw.le hR (by positivity) ((abs_nonneg w).trans hw.le)
    have e : k ^ 3 * (|w| * |R|) = k * (|w| * (k ^ 2 * |R|)) := by ring
    rw [e]
    have := mul_le_mul_of_nonneg_left this hk.le
    have h0 : 0 ≤ mu * (1.6e-12 * (k * |ψ|)) := by positivity
    linarith
  · set f := F - dt with hf
    set f1 := F1 - dt with hf1
    have hne : f1 - f ≠ 0 := by
      intro e
      have : f1 = f := by linarith
      rw [this] at hs
      nlinarith [mul_self_nonneg f]
    have hwe : w * (f1 - f) = f * (ψ₁ - ψ) := by rw [hx]; field_simp
    have hd : |f| ≤ |f1 - f| := by
      rcases mul_neg_iff.1 hs with ⟨h1, h2⟩ | ⟨h1, h2⟩
      · rw [abs_of_pos h1, abs_of_neg (by linarith)]; linarith
      · rw [abs_of_neg h1, abs_of_pos (by linarith)]; linarith
    set D := |ψ₁ - ψ| with hD
    have habs : |w| * |f1 - f| = |f| * D := by rw [hD, ← abs_mul, ← abs_mul, hwe]
    have hfp : 0 < |f| := abs_pos.2 (by rintro e; rw [e] at hs; simp at hs)
    have hdp : 0 < |f1 - f| := abs_pos.2 hne
    have hwD : |w| ≤ D := by
      by_contra hc
      push Not at hc
      have : |f| * D < |w| * |f1 - f| := by
        calc |f| * D ≤ |f1 - f| * D := mul_le_mul_of_nonneg_right hd (abs_nonneg _)
          _ < |f1 - f| * |w| := mul_lt_mul_of_pos_left hc hdp
          _ = _ := mul_comm _ _
      linarith
    have hT := tt_lip hk H hh ψ₁ ψ
    rw [← hD] at hT
    have htri : |f1 - f| ≤ |F1 - tt mu (-k ^ 2) r0 σ ψ₁| + |tt mu (-k ^ 2) r0 σ ψ₁ - tt mu (-k ^ 2) r0 σ ψ| + |F - tt mu (-k ^ 2) r0 σ ψ| := by
      have e : f1 - f = (F1 - tt mu (-k ^ 2) r0 σ ψ₁) + (tt mu (-k ^ 2) r0 σ ψ₁ - tt mu (-k ^ 2) r0 σ ψ) - (F - tt mu (-k ^ 2) r0 σ ψ) := by rw [hf, hf1]; ring
      rw [e]
      exact (abs_sub _ _).trans (add_le_add (abs_add_le _ _) le_rfl)
    have h1 : |ψ₁| ≤ |ψ| + D := by
      have := abs_add_le ψ (ψ₁ - ψ)
      rwa [add_sub_cancel] at this
    have hk3 : 0 < k ^ 3 := by positivity
    have hbig : k ^ 3 * |f1 - f| ≤ mu * (2 * k * D + 8e-13 * (2 * (k * |ψ|) + k * D)) := by
      have a := mul_le_mul_of_nonneg_left htri hk3.le
      have b : k ^ 3 * |tt mu (-k ^ 2) r0 σ ψ₁ - tt mu (-k ^ 2) r0 σ ψ| ≤ k * (2 * mu * D) := by
        have := mul_le_mul_of_nonneg_left hT hk.le
        calc _ = k * (k ^ 2 * |tt mu (-k ^ 2) r0 σ ψ₁ - tt mu (-k ^ 2) r0 σ ψ|) := by ring
          _ ≤ _ := this
      have c : 8e-13 * (k * |ψ₁|) * mu ≤ 8e-13 * (k * (|ψ| + D)) * mu := by
        have := mul_le_mul_of_nonneg_left h1 hk.le
        exact mul_le_mul_of_nonneg_right (by linarith) hmu.le
      nlinarith
    have hDp : 0 < D := by
      by_contra hc
      have : D = 0 := le_antisymm (not_lt.1 hc) (abs_nonneg _)
      have : ψ₁ - ψ = 0 := abs_eq_zero.1 this
      exact hne (by rw [hf1, hf, hFF (by linarith), sub_self])
    -- |f| D = |w| |f1 - f|
    have key : k ^ 3 * |f| * D ≤ mu * (5 * k * tol + 1.6e-12 * (k * |ψ|)) * D := by
      have e : k ^ 3 * |f| * D = |w| * (k ^ 3 * |f1 - f|) := by linear_combination (-k ^ 3) * habs
      rw [e]
      have a := mul_le_mul_of_nonneg_left hbig (abs_nonneg w)
      have b : |w| * (mu * (2 * k * D + 8e-13 * (k * D))) ≤ tol * (mu * (2 * k * D + 8e-13 * (k * D))) := mul_le_mul_of_nonneg_right hw.le (by positivity)
      have c : |w| * (mu * (8e-13 * (2 * (k * |ψ|)))) ≤ D * (mu * (8e-13 * (2 * (k * |ψ|)))) := mul_le_mul_of_nonneg_right hwD (by positivity)
      have d : 0 ≤ tol * (mu * (k * D)) := mul_nonneg ((abs_nonneg w).trans hw.le) (by positivity)
      nlinarith
    exact le_of_mul_le_mul_right key hDp

end Pal.Ellipse
