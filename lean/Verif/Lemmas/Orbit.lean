import Verif.Model.Orbit
import Mathlib.Tactic.LinearCombination
import Mathlib.Tactic.Linarith
import Mathlib.Tactic.Positivity
import Mathlib.Tactic.FieldSimp
import Mathlib.Tactic.Ring

/-!
# Helper lemmas for the orbit functions
-/

namespace Pal.Orbit
open Real

/-- What the halving loop does. -/
theorem halve_spec (n : ℕ) (psj psj2 beta : ℝ) :
    ∃ k : ℕ, ueHalve n psj psj2 beta = (n + k, psj / 2 ^ k, psj2 / 4 ^ k, beta / 4 ^ k) ∧ |beta / 4 ^ k| ≤ 7 / 10 ∧ (|beta| ≤ 7 / 10 → k = 0) ∧
      (1 ≤ k → 7 / 40 < |beta / 4 ^ k|) := by
  induction n, psj, psj2, beta using ueHalve.induct with
  | case1 n psj psj2 beta h ih =>
    obtain ⟨k, hk, hb, hz, h1⟩ := ih
    refine ⟨k + 1, ?_, ?_, fun h' => absurd h' (not_le.mpr h), ?_⟩
    · rw [ueHalve, if_pos h, hk]
      refine Prod.ext ?_ (Prod.ext ?_ (Prod.ext ?_ ?_)) <;> simp only
      · ring
      · rw [pow_succ]; field_simp
      · rw [pow_succ]; field_simp
      · rw [pow_succ]; field_simp
    · have e : beta / 4 ^ (k + 1) = beta / 4 / 4 ^ k := by rw [pow_succ]; field_simp
      rw [e]; exact hb
    · intro _
      have e : beta / 4 ^ (k + 1) = beta / 4 / 4 ^ k := by rw [pow_succ]; field_simp
      rw [e]
      by_cases hk0 : 1 ≤ k
      · exact h1 hk0
      · have : k = 0 := by omega
        subst this
        rw [pow_zero, div_one, abs_div, abs_of_pos (by norm_num : (0 : ℝ) < 4)]
        linarith
  | case2 n psj psj2 beta h =>
    refine ⟨0, ?_, ?_, fun _ => rfl, fun h => absurd h (by norm_num)⟩
    · rw [ueHalve, if_neg h]; simp
    · simpa using not_lt.mp h

/-- The two series of the code, as functions of BETA. -/
noncomputable def cB (b : ℝ) : ℝ := ((((((b / 182 + 1) * b / 132 + 1) * b / 90 + 1) * b / 56 + 1) * b / 30 + 1) * b / 12 + 1) / 2
noncomputable def cC (b : ℝ) : ℝ := ((((((b / 210 + 1) * b / 156 + 1) * b / 110 + 1) * b / 72 + 1) * b / 42 + 1) * b / 20 + 1) / 6

theorem series_def (a p p2 b : ℝ) :
    ueSeries a p p2 b = { s0 := 1 + a * (p2 * cB b), s1 := p + a * (p * p2 * cC b), s2 := p2 * cB b, s3 := p * p2 * cC b, tol := 1 / 10 ^ 13 } := by
  unfold ueSeries cB cC
  simp only [UeFun.mk.injEq]
  refine ⟨by ring, by ring, by ring, by ring, trivial⟩

/-- The amount by which the truncated series miss the identity of the true universal functions. -/
noncomputable def cD (b : ℝ) : ℝ := (1 + b * cC b) ^ 2 - cB b * (2 + b * cB b)

theorem cD_eq (b : ℝ) : cD b = b ^ 7 * (1 / 10461394944000 + b * (1 / 23538138624000 + b * (1 / 313841848320000 + b * (1 / 10356780994560000 +
    b * (1 / 632705166213120000 + b * (1 / 61688753705779200000 + b * (1 / 8769293603713843200000 + b * (1 / 1710012252724199424000000)))))))) := by
  unfold cD cB cC; ring

/-- One Horner step of a bound. -/
theorem horner_step {b c q m : ℝ} (hb : |b| ≤ 7 / 10) (hc : 0 ≤ c) (hq : |q| ≤ m) : |c + b * q| ≤ c + 7 / 10 * m := by
  have hm : 0 ≤ m := le_trans (abs_nonneg _) hq
  calc |c + b * q| ≤ |c| + |b * q| := abs_add_le _ _
    _ = c + |b| * |q| := by rw [abs_of_nonneg hc, abs_mul]
    _ ≤ c + 7 / 10 * m := by
        have := mul_le_mul hb hq (abs_nonneg _) (by norm_num)
        linarith

theorem cD_bound {b : ℝ} (hb : |b| ≤ 7 / 10) : |cD b| ≤ 11 / 10 ^ 15 := by
  rw [cD_eq]
  have h8 : |(1 / 1710012252724199424000000 : ℝ)| ≤ 1 / 1710012252724199424000000 := by rw [abs_of_pos (by norm_num)]
  have h7 := horner_step (c := 1 / 8769293603713843200000) hb (by norm_num) h8
  have h6 := horner_step (c := 1 / 61688753705779200000) hb (by norm_num) h7
  have h5 := horner_step (c := 1 / 632705166213120000) hb (by norm_num) h6
  have h4 := horner_step (c := 1 / 10356780994560000) hb (by norm_num) h5
  have h3 := horner_step (c := 1 / 313841848320000) hb (by norm_num) h4
  have h2 := horner_step (c := 1 / 23538138624000) hb (by norm_num) h3
  have h1 := horner_step (c := 1 / 10461394944000) hb (by norm_num) h2
  rw [abs_mul, abs_pow]
  have hp : |b| ^ 7 ≤ (7 / 10) ^ 7 := pow_le_pow_left₀ (abs_nonneg _) hb 7
  refine le_trans (mul_le_mul hp h1 (abs_nonneg _) (by norm_num)) ?_
  norm_num

theorem cB_bounds {b : ℝ} (hb : |b| ≤ 7 / 10) : 46 / 100 ≤ cB b ∧ cB b ≤ 54 / 100 := by
  have h1 : |b / 182 + 1| ≤ 1 + 7 / 10 * (1 / 182) := by
    have := horner_step (c := 1) (q := 1 / 182) (m := 1 / 182) hb (by norm_num) (by rw [abs_of_pos (by norm_num)])
    calc |b / 182 + 1| = |1 + b * (1 / 182)| := by congr 1; ring
      _ ≤ _ := this
  have step : ∀ q c m : ℝ, 0 < c → |q| ≤ m → |q * b / c + 1| ≤ 1 + 7 / 10 * (m / c) := by
    intro q c m hc hq
    have h := horner_step (c := 1) (q := q / c) (m := m / c) hb (by norm_num) (by rw [abs_div, abs_of_pos hc]; gcongr)
    calc |q * b / c + 1| = |1 + b * (q / c)| := by congr 1; ring
      _ ≤ _ := h
  have h2 := step _ 132 _ (by norm_num) h1
  have h3 := step _ 90 _ (by norm_num) h2
  have h4 := step _ 56 _ (by norm_num) h3
  have h5 := step _ 30 _ (by norm_num) h4
  set q := ((((b / 182 + 1) * b / 132 + 1) * b / 90 + 1) * b / 56 + 1) * b / 30 + 1 with hq
  have hqb : |q| ≤ 103 / 100 := le_trans h5 (by norm_num)
  have e : cB b = (q * b / 12 + 1) / 2 := by rw [hq, cB]
  rw [e]
  have hm : |q * b| ≤ 103 / 100 * (7 / 10) := by rw [abs_mul]; exact mul_le_mul hqb hb (abs_nonneg _) (by norm_num)
  rw [abs_le] at hm
  constructor <;> linarith

theorem cC_bounds {b : ℝ} (hb : |b| ≤ 7 / 10) : 16 / 100 ≤ cC b ∧ cC b ≤ 18 / 100 := by
  have h1 : |b / 210 + 1| ≤ 1 + 7 / 10 * (1 / 210) := by
    have := horner_step (c := 1) (q := 1 / 210) (m := 1 / 210) hb (by norm_num) (by rw [abs_of_pos (by norm_num)])
    calc |b / 210 + 1| = |1 + b * (1 / 210)| := by congr 1; ring
      _ ≤ _ := this
  have step : ∀ q c m : ℝ, 0 < c → |q| ≤ m → |q * b / c + 1| ≤ 1 + 7 / 10 * (m / c) := by
    intro q c m hc hq
    have h := horner_step (c := 1) (q := q / c) (m := m / c) hb (by norm_num) (by rw [abs_div, abs_of_pos hc]; gcongr)
    calc |q * b / c + 1| = |1 + b * (q / c)| := by congr 1; ring
      _ ≤ _ := h
  have h2 := step _ 156 _ (by norm_num) h1
  have h3 := step _ 110 _ (by norm_num) h2
  have h4 := step _ 72 _ (by norm_num) h3
  have h5 := step _ 42 _ (by norm_num) h4
  set q := ((((b / 210 + 1) * b / 156 + 1) * b / 110 + 1) * b / 72 + 1) * b / 42 + 1 with hq
  have hqb : |q| ≤ 103 / 100 := le_trans h5 (by norm_num)
  have e : cC b = (q * b / 20 + 1) / 6 := by rw [hq, cC]
  rw [e]
  have hm : |q * b| ≤ 103 / 100 * (7 / 10) := by rw [abs_mul]; exact mul_le_mul hqb hb (abs_nonneg _) (by norm_num)
  rw [abs_le] at hm
  constructor <;> linarith

/-- The identities of the true universal functions, for a slightly different energy a'. -/
def Exact (a' : ℝ) (f : UeFun) : Prop := f.s0 = 1 + a' * f.s2 ∧ f.s1 ^ 2 = f.s2 * (1 + f.s0)

theorem undo_exact (a' : ℝ) (n : ℕ) : ∀ (psj : ℝ) (f : UeFun), Exact a' f → 0 ≤ f.s2 → Exact a' (ueUndo n psj f) ∧ 0 ≤ (ueUndo n psj f).s2 := by
  induction n with
  | zero => intro _ f h h2; exact ⟨h, h2⟩
  | succ n ih =>
    intro psj f h h2
    refine ih _ _ ?_ ?_
    · obtain ⟨e2, e3⟩ := h
      constructor
      · simp only
        linear_combination (2 * f.s0 - 2 * a' * f.s2 + 2 + 2 * a' * f.s2) * e2 - 2 * a' * e3
      · simp only; ring
    · simp only
      have := mul_self_nonneg f.s1
      nlinarith [this]

/-- The functions the code computes satisfy the identities of the true ones up to relative errors of about 1e-14, in one of two ways. -/
theorem ueFun_spec (a psi : ℝ) :
    0 ≤ (ueFun a psi).s2 ∧ ∃ κ δ : ℝ, |κ| ≤ 15 / 10 ^ 15 ∧ |δ| ≤ 11 / 10 ^ 15 ∧ (κ = 0 ∨ δ = 0) ∧ (|a * psi ^ 2| ≤ 7 / 10 → κ = 0) ∧ (7 / 10 < |a * psi ^ 2| → δ = 0) ∧
      (ueFun a psi).s0 = 1 + a * (1 - κ) * (ueFun a psi).s2 ∧ (ueFun a psi).s1 ^ 2 = (ueFun a psi).s2 * (1 + (ueFun a psi).s0) + δ * psi ^ 2 := by
  obtain ⟨k, hk, hb, hz, -⟩ := halve_spec 0 psi (psi * psi) (a * (psi * psi))
  have hu : ueFun a psi = ueUndo k (psi / 2 ^ k) (ueSeries a (psi / 2 ^ k) (psi * psi / 4 ^ k) (a * (psi * psi) / 4 ^ k)) := by
    unfold ueFun; rw [hk]; simp
  have h4 : (4 : ℝ) ^ k = 2 ^ k * 2 ^ k := by rw [← mul_pow]; norm_num
  have h2k : (2 : ℝ) ^ k ≠ 0 := by positivity
  rw [hu, series_def]
  have hp2 : psi * psi / 4 ^ k = (psi / 2 ^ k) ^ 2 := by rw [h4]; field_simp
  have hbe : a * (psi * psi) / 4 ^ k = a * (psi / 2 ^ k) ^ 2 := by rw [mul_div_assoc, hp2]
  rw [hp2, hbe]
  rw [hbe] at hb
  have hBb := cB_bounds hb
  have hCb := cC_bounds hb
  have hDb := cD_bound hb
  have hD : cD (a * (psi / 2 ^ k) ^ 2) = (1 + a * (psi / 2 ^ k) ^ 2 * cC (a * (psi / 2 ^ k) ^ 2)) ^ 2 -
      cB (a * (psi / 2 ^ k) ^ 2) * (2 + a * (psi / 2 ^ k) ^ 2 * cB (a * (psi / 2 ^ k) ^ 2)) := rfl
  have hbC : |a * (psi / 2 ^ k) ^ 2 * cC (a * (psi / 2 ^ k) ^ 2)| ≤ 7 / 10 * (18 / 100) := by
    rw [abs_mul]
    exact mul_le_mul hb (by rw [abs_of_nonneg (by linarith [hCb.1])]; exact hCb.2) (abs_nonneg _) (by norm_num)
  generalize cB (a * (psi / 2 ^ k) ^ 2) = B at *
  generalize cC (a * (psi / 2 ^ k) ^ 2) = C at *
  generalize cD (a * (psi / 2 ^ k) ^ 2) = D at *
  have hpp : (psi / 2 ^ k) ^ 2 * 4 ^ k = psi ^ 2 := by rw [h4]; field_simp
  have hp0 : 0 ≤ (psi / 2 ^ k) ^ 2 := sq_nonneg _
  generalize psi / 2 ^ k = p at *
  have hs20 : 0 ≤ p ^ 2 * B := mul_nonneg hp0 (by linarith [hBb.1])
  cases k with
  | zero =>
    simp only [ueUndo]
    refine ⟨hs20, 0, D, by norm_num, hDb, Or.inl rfl, fun _ => rfl, ?_, by ring, ?_⟩
    · intro h
      rw [pow_zero, mul_one] at hpp
      rw [hpp] at hb
      exact absurd hb (not_le.mpr h)
    · rw [pow_zero, mul_one] at hpp
      rw [← hpp]
      linear_combination (-p ^ 2) * hD
  | succ n =>
    have hnz : ¬ |a * psi ^ 2| ≤ 7 / 10 := by
      intro h
      rw [← pow_two] at hz
      exact absurd (hz h) (Nat.succ_ne_zero n)
    have hpos : (87 / 100 : ℝ) ≤ 1 + a * p ^ 2 * C := by linarith [(abs_le.mp hbC).1]
    have hpos2 : (75 / 100 : ℝ) ≤ (1 + a * p ^ 2 * C) ^ 2 := by nlinarith [hpos]
    set κ := D / (1 + a * p ^ 2 * C) ^ 2 with hκ
    have hκ' : κ * (1 + a * p ^ 2 * C) ^ 2 = D := by rw [hκ]; field_simp
    have hκb : |κ| ≤ 15 / 10 ^ 15 := by
      rw [hκ, abs_div, abs_of_pos (by linarith : (0 : ℝ) < (1 + a * p ^ 2 * C) ^ 2), div_le_iff₀ (by linarith)]
      nlinarith [hDb, hpos2]
    clear_value κ
    simp only [ueUndo]
    obtain ⟨⟨e2, e3⟩, e4⟩ := undo_exact (a * (1 - κ)) n (p + p)
      { s0 := 2 * (1 + a * (p ^ 2 * B)) * (1 + a * (p ^ 2 * B)) - 1, s1 := 2 * (1 + a * (p ^ 2 * B)) * (p + a * (p * p ^ 2 * C)),
        s2 := 2 * (p + a * (p * p ^ 2 * C)) * (p + a * (p * p ^ 2 * C)),
        s3 := 2 * ((1 + a * (p ^ 2 * B)) * (p * p ^ 2 * C) + p * (p ^ 2 * B)), tol := 1 / 10 ^ 13 + 1 / 10 ^ 13 }
      ⟨by simp only; linear_combination (2 * a * p ^ 2) * hD + 2 * a * p ^ 2 * hκ', by simp only; ring⟩ (by
        simp only
        have := mul_self_nonneg (p + a * (p * p ^ 2 * C))
        nlinarith [this])
    refine ⟨e4, κ, 0, hκb, by norm_num, Or.inr rfl, fun h => absurd h hnz, fun _ => rfl, e2, ?_⟩
    rw [e3]; ring

/-- One pass of the iteration. -/
theorem loop_step (u : Univ) (dt : ℝ) (nit : ℕ) (psi plast flast : ℝ) :
    ueLoop u dt nit psi plast flast = .fail (-1) ∨ ueLoop u dt nit psi plast flast = .fail (-2) ∨
    (∃ ψ, ueLoop u dt nit psi plast flast = .done ψ (ueFun u.alpha psi) (ueR u (ueFun u.alpha psi))) ∨
    (nit ≤ 25 ∧ ∃ ψ f, ueLoop u dt nit psi plast flast = ueLoop u dt (nit + 1) ψ psi f) := by
  rw [ueLoop]
  dsimp only
  generalize (if nit = 1 then ueFF u dt (ueFun u.alpha psi) else flast) = fl
  generalize (if ueFF u dt (ueFun u.alpha psi) * fl < 0 then ueFF u dt (ueFun u.alpha psi) * (plast - psi) / (fl - ueFF u dt (ueFun u.alpha psi))
    else ueFF u dt (ueFun u.alpha psi) / ueR u (ueFun u.alpha psi)) = w
  split
  · exact Or.inl rfl
  split
  · exact Or.inr (Or.inl rfl)
  split
  · exact Or.inr (Or.inr (Or.inr ⟨by omega, _, _, rfl⟩))
  · exact Or.inr (Or.inr (Or.inl ⟨_, rfl⟩))

theorem loop_end (u : Univ) (dt : ℝ) : ∀ (n nit : ℕ) (psi plast flast : ℝ), 27 - nit ≤ n →
    ueLoop u dt nit psi plast flast = .fail (-1) ∨ ueLoop u dt nit psi plast flast = .fail (-2) ∨
    (∃ ψ' ψ, ueLoop u dt nit psi plast flast = .done ψ' (ueFun u.alpha ψ) (ueR u (ueFun u.alpha ψ))) := by
  intro n
  induction n with
  | zero =>
    intro nit psi plast flast hn
    rcases loop_step u dt nit psi plast flast with h | h | ⟨ψ, h⟩ | ⟨h, -⟩
    · exact Or.inl h
    · exact Or.inr (Or.inl h)
    · exact Or.inr (Or.inr ⟨ψ, psi, h⟩)
    · omega
  | succ n ih =>
    intro nit psi plast flast hn
    rcases loop_step u dt nit psi plast flast with h | h | ⟨ψ, h⟩ | ⟨h, ψ, f, he⟩
    · exact Or.inl h
    · exact Or.inr (Or.inl h)
    · exact Or.inr (Or.inr ⟨ψ, psi, h⟩)
    · rw [he]; exact ih _ _ _ _ (by omega)

theorem loop_done {u : Univ} {dt : ℝ} {nit : ℕ} {psi plast flast psi' : ℝ} {s : UeFun} {r : ℝ}
    (h : ueLoop u dt nit psi plast flast = .done psi' s r) : ∃ ψ, s = ueFun u.alpha ψ ∧ r = ueR u s := by
  rcases loop_end u dt _ nit psi plast flast (le_refl _) with h' | h' | ⟨ψ', ψ, h'⟩ <;> rw [h] at h' <;> cases h'
  exact ⟨ψ, rfl, rfl⟩

theorem loop_fail {u : Univ} {dt : ℝ} {nit : ℕ} {psi plast flast : ℝ} {j : ℤ} (h : ueLoop u dt nit psi plast flast = .fail j) : j = -1 ∨ j = -2 := by
  rcases loop_end u dt _ nit psi plast flast (le_refl _) with h' | h' | ⟨ψ', ψ, h'⟩ <;> rw [h] at h' <;> cases h'
  · exact Or.inl rfl
  · exact Or.inr rfl

theorem gcon_pos : 0 < gcon := by unfold gcon; norm_num
theorem cd2s_pos : 0 < cd2s := by unfold cd2s spd; exact div_pos gcon_pos (by norm_num)
theorem cd2s_ne : cd2s ≠ 0 := ne_of_gt cd2s_pos

/-- What a successful call of palUe2pv computes. -/
theorem ue2pv_ok {date : ℝ} {u u' : Univ} {pv pv' : PV} (h : palUe2pv date u pv = some (u', pv', 0)) :
    ∃ ψ ψ', u' = { u with t := date, psi := ψ' } ∧ u.r0 ≠ 0 ∧ ueR u (ueFun u.alpha ψ) ≠ 0 ∧
      pv'.p = (fun i => u.p0 i * (1 - u.cm * (ueFun u.alpha ψ).s2 / u.r0) + u.v0 i * ((date - u.t0) * gcon - u.cm * (ueFun u.alpha ψ).s3)) ∧
      pv'.v = (fun i => cd2s * (u.p0 i * (-u.cm * (ueFun u.alpha ψ).s1 / (u.r0 * ueR u (ueFun u.alpha ψ))) +
        u.v0 i * (1 - u.cm * (ueFun u.alpha ψ).s2 / ueR u (ueFun u.alpha ψ)))) := by
  unfold palUe2pv at h
  split at h
  · cases h
  rename_i hr0
  dsimp only at h
  split at h
  · rename_i j hj
    have := loop_fail hj
    simp only [Option.some.injEq, Prod.mk.injEq] at h
    omega
  · rename_i psi s r hd
    obtain ⟨ψ, rfl, rfl⟩ := loop_done hd
    split at h
    · cases h
    rename_i hr
    simp only [Option.some.injEq, Prod.mk.injEq] at h
    obtain ⟨rfl, rfl, -⟩ := h
    exact ⟨ψ, psi, rfl, hr0, hr, rfl, rfl⟩

end Pal.Orbit
