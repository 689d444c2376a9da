import Verif.Model.Refr
import Verif.Spec.Refr
import Verif.Lemmas.Sphere
import Verif.Lemmas.Map
import Mathlib.Tactic.LinearCombination

namespace Pal
open Real Spec

theorem pass_two {node : ℝ → ℝ → ℝ × ℝ} {g : ℝ → ℝ} (hg : ∀ z r, (node z r).2 = g z) (z0 h : ℝ) : ∀ (cnt i : ℕ) (r fo fe : ℝ),
    refroPass node z0 h 2 cnt i r fo fe = (fo + ∑ j ∈ Finset.range cnt, g (z0 + h * ((i : ℝ) + 2 * j)), fe)
  | 0, i, r, fo, fe => by simp [refroPass]
  | cnt + 1, i, r, fo, fe => by
    unfold refroPass
    rw [if_neg (by simp), pass_two hg z0 h cnt, Finset.sum_range_succ', hg]
    congr 1
    have : ∀ j : ℕ, g (z0 + h * (((i + 2 : ℕ) : ℝ) + 2 * j)) = g (z0 + h * ((i : ℝ) + 2 * ((j + 1 : ℕ) : ℝ))) := by
      intro j; congr 1; push_cast; ring
    rw [Finset.sum_congr rfl (fun j _ => this j)]
    push_cast
    simp only [mul_zero, add_zero]
    ring

/-- Interleaving of odd and even grid points. -/
theorem sum_odd_even (F : ℕ → ℝ) : ∀ m : ℕ, 0 < m →
    ∑ i ∈ Finset.range (2 * m - 1), F (i + 1) = ∑ j ∈ Finset.range m, F (2 * j + 1) + ∑ j ∈ Finset.range (m - 1), F (2 * j + 2)
  | 0, h => absurd h (lt_irrefl 0)
  | 1, _ => by simp
  | m + 2, _ => by
    have ih := sum_odd_even F (m + 1) (Nat.succ_pos m)
    have e1 : 2 * (m + 2) - 1 = (2 * (m + 1) - 1) + 1 + 1 := by omega
    rw [e1, Finset.sum_range_succ, Finset.sum_range_succ, ih, Finset.sum_range_succ (n := m + 1)]
    have e2 : m + 2 - 1 = m + 1 := by omega
    have e3 : m + 1 - 1 = m := by omega
    rw [e2, e3, Finset.sum_range_succ (fun j => F (2 * j + 2)) m]
    have e4 : 2 * (m + 1) - 1 + 1 = 2 * m + 2 := by omega
    have e5 : 2 * (m + 1) - 1 + 1 + 1 = 2 * (m + 1) + 1 := by omega
    rw [e5, e4]
    ring

/-- The sum of the integrand over the interior points of a grid with n strips. -/
noncomputable def gridSum (g : ℝ → ℝ) (z0 zr : ℝ) (n : ℕ) : ℝ := ∑ i ∈ Finset.range (n - 1), g (z0 + zr / n * ((i : ℝ) + 1))

theorem gridSum_split (g : ℝ → ℝ) (z0 zr : ℝ) {m : ℕ} (hm : 0 < m) :
    gridSum g z0 zr (2 * m) = (∑ j ∈ Finset.range m, g (z0 + zr / (2 * m : ℕ) * (1 + 2 * (j : ℝ)))) + gridSum g z0 zr m := by
  unfold gridSum
  have := sum_odd_even (fun i => g (z0 + zr / (2 * m : ℕ) * (i : ℝ))) m hm
  have e : ∀ i ∈ Finset.range (2 * m - 1), g (z0 + zr / (2 * m : ℕ) * ((i : ℝ) + 1)) = g (z0 + zr / (2 * m : ℕ) * ((i + 1 : ℕ) : ℝ)) := by
    intro i _; push_cast; rfl
  rw [Finset.sum_congr rfl e, this]
  have hm' : (m : ℝ) ≠ 0 := by exact_mod_cast hm.ne'
  congr 1
  · refine Finset.sum_congr rfl fun j _ => ?_
    push_cast; congr 2; ring
  · refine Finset.sum_congr rfl fun j _ => ?_
    push_cast; congr 2; field_simp

theorem simpson_eq (g : ℝ → ℝ) (z0 zr : ℝ) {m : ℕ} (hm : 0 < m) :
    zr / (2 * m : ℕ) * (g z0 + 4 * (∑ j ∈ Finset.range m, g (z0 + zr / (2 * m : ℕ) * (1 + 2 * (j : ℝ)))) + 2 * gridSum g z0 zr m + g (z0 + zr)) / 3
      = simpson g z0 (z0 + zr) (2 * m) := by
  unfold simpson gridSum
  dsimp only
  have h2 : 2 * m / 2 = m := by omega
  rw [h2, add_sub_cancel_left]
  have hm' : (m : ℝ) ≠ 0 := by exact_mod_cast hm.ne'
  have e1 : ∀ j ∈ Finset.range m, g (z0 + zr / (2 * m : ℕ) * (1 + 2 * (j : ℝ))) = g (z0 + (2 * (j : ℝ) + 1) * (zr / (2 * m : ℕ))) := by
    intro j _; congr 1; ring
  have e2 : ∀ j ∈ Finset.range (m - 1), g (z0 + zr / m * ((j : ℝ) + 1)) = g (z0 + (2 * (j : ℝ) + 2) * (zr / (2 * m : ℕ))) := by
    intro j _; congr 1; push_cast; field_simp
  rw [Finset.sum_congr rfl e1, Finset.sum_congr rfl e2]
  ring

/-- The later passes of the quadrature, with 2m strips and the sum over the coarser grid carried in fe. -/
theorem loop_simpson {node : ℝ → ℝ → ℝ × ℝ} {g : ℝ → ℝ} (hg : ∀ z r, (node z r).2 = g z) (z0 zr rstart tol : ℝ) :
    ∀ (d m : ℕ), 2 * m * 2 ^ d = 16384 → ∀ refold : ℝ,
    ∃ e ≤ d, refroLoop node z0 zr (g z0) (g (z0 + zr)) rstart tol (2 * m) 2 refold 0 (gridSum g z0 zr m) =
        some (simpson g z0 (z0 + zr) (2 * m * 2 ^ e), 2 * m * 2 ^ e) ∧
      (e = d ∨ |simpson g z0 (z0 + zr) (2 * m * 2 ^ e) - (if e = 0 then refold else simpson g z0 (z0 + zr) (2 * m * 2 ^ (e - 1)))| ≤ tol) ∧
      ∀ e' < e, tol < |simpson g z0 (z0 + zr) (2 * m * 2 ^ e') - (if e' = 0 then refold else simpson g z0 (z0 + zr) (2 * m * 2 ^ (e' - 1)))| := by
  intro d
  induction d with
  | zero =>
    intro m hm refold
    have hmp : 0 < m := by rcases Nat.eq_zero_or_pos m with h | h; · simp [h] at hm
                           · exact h
    refine ⟨0, le_refl _, ?_, Or.inl rfl, by simp⟩
    rw [refroLoop]
    have hc : passCount (2 * m) 2 = m := by unfold passCount; omega
    rw [hc, pass_two hg]
    dsimp only
    have hz : (0 : ℝ) + ∑ j ∈ Finset.range m, g (z0 + zr / (2 * m : ℕ) * (((1 : ℕ) : ℝ) + 2 * (j : ℝ))) =
        ∑ j ∈ Finset.range m, g (z0 + zr / (2 * m : ℕ) * (1 + 2 * (j : ℝ))) := by rw [zero_add]; simp
    rw [hz, simpson_eq g z0 zr hmp, if_neg (by rintro ⟨_, h⟩; omega)]
    simp
  | succ d ih =>
    intro m hm refold
    have hmp : 0 < m := by rcases Nat.eq_zero_or_pos m with h | h; · simp [h] at hm
                           · exact h
    have hlt : 2 * m < 16384 := by
      have : 2 * m * 1 < 2 * m * 2 ^ (d + 1) := by
        apply Nat.mul_lt_mul_of_pos_left _ (by omega)
        exact Nat.one_lt_two_pow (by omega)
      omega
    rw [refroLoop]
    have hc : passCount (2 * m) 2 = m := by unfold passCount; omega
    rw [hc, pass_two hg]
    dsimp only
    have hz : (0 : ℝ) + ∑ j ∈ Finset.range m, g (z0 + zr / (2 * m : ℕ) * (((1 : ℕ) : ℝ) + 2 * (j : ℝ))) =
        ∑ j ∈ Finset.range m, g (z0 + zr / (2 * m : ℕ) * (1 + 2 * (j : ℝ))) := by rw [zero_add]; simp
    rw [hz, simpson_eq g z0 zr hmp]
    by_cases hcond : |simpson g z0 (z0 + zr) (2 * m) - refold| > tol
    · rw [if_pos ⟨hcond, hlt⟩, add_comm (gridSum g z0 zr m), ← gridSum_split g z0 zr hmp, ← two_mul]
      obtain ⟨e, he, h1, h2, h3⟩ := ih (2 * m) (by rw [← hm, pow_succ]; ring) (simpson g z0 (z0 + zr) (2 * m))
      have hs : ∀ e : ℕ, 2 * (2 * m) * 2 ^ e = 2 * m * 2 ^ (e + 1) := by intro e; rw [pow_succ]; ring
      refine ⟨e + 1, by omega, ?_, ?_, ?_⟩
      · rw [h1, hs]
      · rcases h2 with h2 | h2
        · left; omega
        · right
          rw [if_neg (by omega)]
          rw [hs] at h2
          rcases Nat.eq_zero_or_pos e with h0 | h0
          · subst h0; simpa using h2
          · rw [if_neg (by omega), hs, Nat.sub_add_cancel h0] at h2
            simpa using h2
      · intro e' he'
        rcases Nat.eq_zero_or_pos e' with h0 | h0
        · subst h0; simpa using hcond
        · have := h3 (e' - 1) (by omega)
          rw [hs, Nat.sub_add_cancel h0] at this
          rw [if_neg (by omega)]
          by_cases h1' : e' - 1 = 0
          · rw [if_pos h1'] at this
            have : e' = 1 := by omega
            subst this; simpa using ‹tol < _›
          · rw [if_neg h1', hs, Nat.sub_add_cancel (by omega)] at this
            exact this
    · rw [if_neg (fun h => hcond h.1)]
      refine ⟨0, Nat.zero_le _, by simp, Or.inr ?_, by simp⟩
      simpa using not_lt.1 hcond

theorem first_pass {node : ℝ → ℝ → ℝ × ℝ} {g : ℝ → ℝ} (hg : ∀ z r, (node z r).2 = g z) (z0 h r : ℝ) :
    refroPass node z0 h 1 7 1 r 0 0 = (∑ j ∈ Finset.range 4, g (z0 + h * (1 + 2 * (j : ℝ))), ∑ j ∈ Finset.range 3, g (z0 + 2 * h * ((j : ℝ) + 1))) := by
  simp only [refroPass, hg, Finset.sum_range_succ, Finset.sum_range_zero]
  norm_num
  · have e1 : 2 * h * 2 = h * 4 := by ring
    have e2 : 2 * h * 3 = h * 6 := by ring
    have e3 : 2 * h = h * 2 := by ring
    rw [e1, e2, e3]

/-- The whole adaptive quadrature when the value at a zenith distance does not depend on the search's starting point. -/
theorem segment_simpson {node : ℝ → ℝ → ℝ × ℝ} {g : ℝ → ℝ} (hg : ∀ z r, (node z r).2 = g z) (z0 zr rstart tol : ℝ) :
    ∃ e ≤ 11, refroSegment node z0 zr (g z0) (g (z0 + zr)) rstart tol = some (simpson g z0 (z0 + zr) (8 * 2 ^ e), 8 * 2 ^ e) ∧
      (e = 11 ∨ |simpson g z0 (z0 + zr) (8 * 2 ^ e) - (if e = 0 then 1 else simpson g z0 (z0 + zr) (8 * 2 ^ (e - 1)))| ≤ tol) ∧
      ∀ e' < e, tol < |simpson g z0 (z0 + zr) (8 * 2 ^ e') - (if e' = 0 then 1 else simpson g z0 (z0 + zr) (8 * 2 ^ (e' - 1)))| := by
  unfold refroSegment
  rw [refroLoop]
  have hc : passCount 8 1 = 7 := by decide
  rw [hc, first_pass hg]
  dsimp only
  have hS : zr / (8 : ℕ) * (g z0 + 4 * (∑ j ∈ Finset.range 4, g (z0 + zr / (8 : ℕ) * (1 + 2 * (j : ℝ)))) +
      2 * (∑ j ∈ Finset.range 3, g (z0 + 2 * (zr / (8 : ℕ)) * ((j : ℝ) + 1))) + g (z0 + zr)) / 3 = simpson g z0 (z0 + zr) 8 := by
    have := simpson_eq g z0 zr (m := 4) (by norm_num)
    rw [← this]
    unfold gridSum
    have e : (2 : ℝ) * (zr / (8 : ℕ)) = zr / (4 : ℕ) := by push_cast; ring
    rw [e]
  rw [hS]
  by_cases hcond : |simpson g z0 (z0 + zr) 8 - 1| > tol
  · rw [if_pos ⟨hcond, by norm_num⟩]
    have hfe : (∑ j ∈ Finset.range 3, g (z0 + 2 * (zr / (8 : ℕ)) * ((j : ℝ) + 1))) + (∑ j ∈ Finset.range 4, g (z0 + zr / (8 : ℕ) * (1 + 2 * (j : ℝ)))) =
        gridSum g z0 zr 8 := by
      have := gridSum_split g z0 zr (m := 4) (by norm_num)
      rw [show (2 * 4 : ℕ) = 8 from rfl] at this
      rw [this, add_comm]
      unfold gridSum
      have e : (2 : ℝ) * (zr / (8 : ℕ)) = zr / (4 : ℕ) := by push_cast; ring
      rw [e]
    rw [hfe]
    obtain ⟨e, he, h1, h2, h3⟩ := loop_simpson hg z0 zr rstart tol 10 8 (by norm_num) (simpson g z0 (z0 + zr) 8)
    have hs : ∀ e : ℕ, 2 * 8 * 2 ^ e = 8 * 2 ^ (e + 1) := by intro e; rw [pow_succ]; ring
    refine ⟨e + 1, by omega, ?_, ?_, ?_⟩
    · rw [show (8 + 8 : ℕ) = 2 * 8 from rfl, h1, hs]
    · rcases h2 with h2 | h2
      · left; omega
      · right
        rw [if_neg (by omega)]
        rw [hs] at h2
        rcases Nat.eq_zero_or_pos e with h0 | h0
        · subst h0; simpa using h2
        · rw [if_neg (by omega), hs, Nat.sub_add_cancel h0] at h2
          simpa using h2
    · intro e' he'
      rcases Nat.eq_zero_or_pos e' with h0 | h0
      · subst h0; simpa using hcond
      · have := h3 (e' - 1) (by omega)
        rw [hs, Nat.sub_add_cancel h0] at this
        rw [if_neg (by omega)]
        by_cases h1' : e' - 1 = 0
        · rw [if_pos h1'] at this
          have : e' = 1 := by omega
          subst this; simpa using ‹tol < _›
        · rw [if_neg h1', hs, Nat.sub_add_cancel (by omega)] at this
          exact this
  · rw [if_neg (fun h => hcond h.1)]
    refine ⟨0, Nat.zero_le _, by simp, Or.inr ?_, by simp⟩
    simpa using not_lt.1 hcond

/-- Termination without any assumption on the integrand. -/
theorem loop_some (node : ℝ → ℝ → ℝ × ℝ) (z0 zr fb ff rstart tol : ℝ) : ∀ (d is n : ℕ), is * 2 ^ d = 16384 → ∀ refold fo fe : ℝ,
    ∃ v, ∃ e ≤ d, refroLoop node z0 zr fb ff rstart tol is n refold fo fe = some (v, is * 2 ^ e) := by
  intro d
  induction d with
  | zero =>
    intro is n his refold fo fe
    rw [refroLoop]
    rw [if_neg (by rintro ⟨_, h⟩; omega)]
    exact ⟨_, 0, le_refl _, by rw [pow_zero, mul_one]⟩
  | succ d ih =>
    intro is n his refold fo fe
    rw [refroLoop]
    split_ifs with hc
    · obtain ⟨v, e, he, h⟩ := ih (is + is) 2 (by rw [← his, pow_succ]; ring)
        (zr / is * (fb + 4 * (refroPass node z0 (zr / is) n (passCount is n) 1 rstart fo fe).1 +
          2 * (refroPass node z0 (zr / is) n (passCount is n) 1 rstart fo fe).2 + ff) / 3) 0
        ((refroPass node z0 (zr / is) n (passCount is n) 1 rstart fo fe).2 + (refroPass node z0 (zr / is) n (passCount is n) 1 rstart fo fe).1)
      exact ⟨v, e + 1, by omega, by rw [h, pow_succ]; congr 2; ring⟩
    · exact ⟨_, 0, Nat.zero_le _, by rw [pow_zero, mul_one]⟩

theorem loop_zero_range {node : ℝ → ℝ → ℝ × ℝ} (z0 fb ff rstart tol : ℝ) : ∀ (d is n : ℕ), is * 2 ^ d = 16384 → ∀ refold fo fe : ℝ,
    ∃ k, refroLoop node z0 0 fb ff rstart tol is n refold fo fe = some (0, k) := by
  intro d
  induction d with
  | zero =>
    intro is n his refold fo fe
    rw [refroLoop]
    rw [if_neg (by rintro ⟨_, h⟩; omega)]
    exact ⟨is, by simp⟩
  | succ d ih =>
    intro is n his refold fo fe
    rw [refroLoop]
    split_ifs with hc
    · exact ih (is + is) 2 (by rw [← his, pow_succ]; ring) _ _ _
    · exact ⟨is, by simp⟩

theorem simpson_zero (a b : ℝ) (n : ℕ) : simpson (fun _ => 0) a b n = 0 := by simp [simpson]

end Pal
