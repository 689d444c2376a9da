import Verif.Model.Fit
import Verif.Spec.Fit
import Verif.Props.Dmat
import Mathlib.Tactic.LinearCombination
import Mathlib.Tactic.FinCases

set_option linter.unusedSectionVars false

namespace Pal
open Matrix Spec

variable {F : Type*} [Field F] [LinearOrder F]

theorem dmatStep_indep {n : ℕ} (sfa : F) (k : Fin n) (s t : DmatSt n F) (h : s.a = t.a ∧ s.d = t.d ∧ s.jf = t.jf ∧ s.iw = t.iw) :
    (dmatStep sfa k s).a = (dmatStep sfa k t).a ∧ (dmatStep sfa k s).d = (dmatStep sfa k t).d ∧
    (dmatStep sfa k s).jf = (dmatStep sfa k t).jf ∧ (dmatStep sfa k s).iw = (dmatStep sfa k t).iw := by
  obtain ⟨a, y, d, jf, iw⟩ := s
  obtain ⟨a', y', d', jf', iw'⟩ := t
  obtain ⟨h1, h2, h3, h4⟩ := h
  simp only at h1 h2 h3 h4
  subst h1 h2 h3 h4
  unfold dmatStep
  dsimp only
  split_ifs <;> exact ⟨rfl, rfl, rfl, rfl⟩

theorem dmatT_indep {n : ℕ} (sfa : F) (A : Matrix (Fin n) (Fin n) F) (y y' : Fin n → F) (iw : Fin n → Fin n) :
    (dmatT sfa A y iw).jf = (dmatT sfa A y' iw).jf ∧ (dmatT sfa A y iw).a = (dmatT sfa A y' iw).a := by
  have h : ∀ k, (dmatIter sfa ⟨A, y, 1, 0, iw⟩ k).a = (dmatIter sfa ⟨A, y', 1, 0, iw⟩ k).a ∧
      (dmatIter sfa ⟨A, y, 1, 0, iw⟩ k).d = (dmatIter sfa ⟨A, y', 1, 0, iw⟩ k).d ∧
      (dmatIter sfa ⟨A, y, 1, 0, iw⟩ k).jf = (dmatIter sfa ⟨A, y', 1, 0, iw⟩ k).jf ∧
      (dmatIter sfa ⟨A, y, 1, 0, iw⟩ k).iw = (dmatIter sfa ⟨A, y', 1, 0, iw⟩ k).iw := by
    intro k
    induction k with
    | zero => exact ⟨rfl, rfl, rfl, rfl⟩
    | succ k ih =>
      simp only [dmatIter]
      split_ifs
      · exact dmatStep_indep sfa _ _ _ ih
      · exact ih
  obtain ⟨h1, h2, h3, h4⟩ := h n
  unfold dmatT
  dsimp only
  rw [h3, h4, h1]
  split_ifs <;> exact ⟨rfl, rfl⟩

variable [IsStrictOrderedRing F]

/-- Least squares from the normal equations, one coordinate. -/
theorem lsq_axis {np : ℕ} (e : Fin np → F) (m : Fin np → F × F) (a b c a' b' c' : F)
    (h0 : (np : F) * a + (∑ i, (m i).1) * b + (∑ i, (m i).2) * c = ∑ i, e i)
    (h1 : (∑ i, (m i).1) * a + (∑ i, (m i).1 * (m i).1) * b + (∑ i, (m i).1 * (m i).2) * c = ∑ i, e i * (m i).1)
    (h2 : (∑ i, (m i).2) * a + (∑ i, (m i).1 * (m i).2) * b + (∑ i, (m i).2 * (m i).2) * c = ∑ i, e i * (m i).2) :
    ∑ i, (a' + b' * (m i).1 + c' * (m i).2 - e i) ^ 2 =
      ∑ i, (a + b * (m i).1 + c * (m i).2 - e i) ^ 2 +
      ∑ i, ((a' - a) + (b' - b) * (m i).1 + (c' - c) * (m i).2) ^ 2 := by
  have r0 : ∑ i, (a + b * (m i).1 + c * (m i).2 - e i) = 0 := by
    simp only [Finset.sum_sub_distrib, Finset.sum_add_distrib, ← Finset.mul_sum, Finset.sum_const, Finset.card_univ, Fintype.card_fin,
      nsmul_eq_mul]
    linear_combination h0
  have r1 : ∑ i, (a + b * (m i).1 + c * (m i).2 - e i) * (m i).1 = 0 := by
    have : ∀ i, (a + b * (m i).1 + c * (m i).2 - e i) * (m i).1 =
        a * (m i).1 + b * ((m i).1 * (m i).1) + c * ((m i).1 * (m i).2) - e i * (m i).1 := fun i => by ring
    simp only [this, Finset.sum_sub_distrib, Finset.sum_add_distrib, ← Finset.mul_sum]
    linear_combination h1
  have r2 : ∑ i, (a + b * (m i).1 + c * (m i).2 - e i) * (m i).2 = 0 := by
    have : ∀ i, (a + b * (m i).1 + c * (m i).2 - e i) * (m i).2 =
        a * (m i).2 + b * ((m i).1 * (m i).2) + c * ((m i).2 * (m i).2) - e i * (m i).2 := fun i => by ring
    simp only [this, Finset.sum_sub_distrib, Finset.sum_add_distrib, ← Finset.mul_sum]
    linear_combination h2
  have key : ∀ i, (a' + b' * (m i).1 + c' * (m i).2 - e i) ^ 2 =
      (a + b * (m i).1 + c * (m i).2 - e i) ^ 2 +
      ((a' - a) + (b' - b) * (m i).1 + (c' - c) * (m i).2) ^ 2 +
      (2 * (a' - a) * (a + b * (m i).1 + c * (m i).2 - e i) +
       2 * (b' - b) * ((a + b * (m i).1 + c * (m i).2 - e i) * (m i).1) +
       2 * (c' - c) * ((a + b * (m i).1 + c * (m i).2 - e i) * (m i).2)) := fun i => by ring
  have hsum : ∑ i, (2 * (a' - a) * (a + b * (m i).1 + c * (m i).2 - e i) +
       2 * (b' - b) * ((a + b * (m i).1 + c * (m i).2 - e i) * (m i).1) +
       2 * (c' - c) * ((a + b * (m i).1 + c * (m i).2 - e i) * (m i).2)) = 0 := by
    rw [Finset.sum_add_distrib, Finset.sum_add_distrib, ← Finset.mul_sum, ← Finset.mul_sum, ← Finset.mul_sum, r0, r1, r2]
    ring
  rw [Finset.sum_congr rfl (fun i _ => key i), Finset.sum_add_distrib, Finset.sum_add_distrib, hsum, add_zero]

/-- The normal matrix applied to a vector that annihilates every sample. -/
theorem fit6Mat_kernel {np : ℕ} (m : Fin np → F × F) (α β γ : F)
    (h : ∀ i, α + β * (m i).1 + γ * (m i).2 = 0) : fit6Mat m *ᵥ ![α, β, γ] = 0 := by
  have e0 : (np : F) * α + (∑ i, (m i).1) * β + (∑ i, (m i).2) * γ = 0 := by
    have : ∑ i, (α + β * (m i).1 + γ * (m i).2) = 0 := Finset.sum_eq_zero (fun i _ => h i)
    simp only [Finset.sum_add_distrib, ← Finset.mul_sum, Finset.sum_const, Finset.card_univ, Fintype.card_fin, nsmul_eq_mul] at this
    linear_combination this
  have e1 : (∑ i, (m i).1) * α + (∑ i, (m i).1 * (m i).1) * β + (∑ i, (m i).1 * (m i).2) * γ = 0 := by
    have : ∑ i, (α * (m i).1 + β * ((m i).1 * (m i).1) + γ * ((m i).1 * (m i).2)) = 0 :=
      Finset.sum_eq_zero (fun i _ => by linear_combination (m i).1 * h i)
    simp only [Finset.sum_add_distrib, ← Finset.mul_sum] at this
    linear_combination this
  have e2 : (∑ i, (m i).2) * α + (∑ i, (m i).1 * (m i).2) * β + (∑ i, (m i).2 * (m i).2) * γ = 0 := by
    have : ∑ i, (α * (m i).2 + β * ((m i).1 * (m i).2) + γ * ((m i).2 * (m i).2)) = 0 :=
      Finset.sum_eq_zero (fun i _ => by linear_combination (m i).2 * h i)
    simp only [Finset.sum_add_distrib, ← Finset.mul_sum] at this
    linear_combination this
  ext i
  fin_cases i <;> simp [fit6Mat, mulVec, dotProduct, Fin.sum_univ_three] <;> assumption

/-- What an accepted six-coefficient fit satisfies: the normal equations of both coordinates, and a regular normal matrix. -/
theorem fit6_normal {np : ℕ} (sfa : F) (hs : 0 < sfa) (hs1 : sfa ≤ 1) (xye xym : Fin np → F × F) (old c : Fin 6 → F)
    (h : fitxy6 sfa xye xym old = (0, c)) :
    3 ≤ np ∧ (fit6Mat xym).det ≠ 0 ∧
    fit6Mat xym *ᵥ ![c 0, c 1, c 2] = ![∑ i, (xye i).1, ∑ i, (xye i).1 * (xym i).1, ∑ i, (xye i).1 * (xym i).2] ∧
    fit6Mat xym *ᵥ ![c 3, c 4, c 5] = ![∑ i, (xye i).2, ∑ i, (xye i).2 * (xym i).1, ∑ i, (xye i).2 * (xym i).2] := by
  unfold fitxy6 at h
  split_ifs at h with hn
  · dsimp only at h
    split_ifs at h with hj
    · obtain ⟨h1, h2, h3, h4⟩ := Props.dmatT_ok _ _ _ sfa hs hs1 hj
      refine ⟨hn, ?_, ?_, ?_⟩
      · intro h0; rw [h0, abs_zero] at h4; exact absurd hs (not_lt.2 h4)
      · simp only [Prod.mk.injEq, true_and] at h
        refine Eq.trans ?_ h2
        congr 1
        rw [← h]
        ext i; fin_cases i <;> simp
      · simp only [Prod.mk.injEq, true_and] at h
        set r := dmatT sfa (fit6Mat xym) ![∑ i, (xye i).1, ∑ i, (xye i).1 * (xym i).1, ∑ i, (xye i).1 * (xym i).2] ![0, 0, 0] with hr
        have hv : (![c 3, c 4, c 5] : Fin 3 → F) = r.a *ᵥ ![∑ i, (xye i).2, ∑ i, (xye i).2 * (xym i).1, ∑ i, (xye i).2 * (xym i).2] := by
          rw [← h]
          ext i
          fin_cases i <;> simp [mxv3, mulVec, dotProduct, Fin.sum_univ_three]
        rw [hv, mulVec_mulVec, mul_eq_one_comm.1 h1, one_mulVec]
    · simp at h
  · simp at h

/-- Least squares from the normal equations of the solid-body fit. -/
theorem lsq_solid {np : ℕ} (ex ey : Fin np → F) (m : Fin np → F × F) (v v' : Fin 4 → F)
    (h : fit4Mat m *ᵥ v = ![∑ i, ex i, ∑ i, (ex i * (m i).1 + ey i * (m i).2), ∑ i, (ex i * (m i).2 - ey i * (m i).1), ∑ i, ey i]) :
    ∑ i, ((v 0 + v 1 * (m i).1 - v 2 * (m i).2 - ex i) ^ 2 + (v 3 + v 2 * (m i).1 + v 1 * (m i).2 - ey i) ^ 2) ≤
    ∑ i, ((v' 0 + v' 1 * (m i).1 - v' 2 * (m i).2 - ex i) ^ 2 + (v' 3 + v' 2 * (m i).1 + v' 1 * (m i).2 - ey i) ^ 2) := by
  have q0 := congrFun h 0
  have q1 := congrFun h 1
  have q2 := congrFun h 2
  have q3 := congrFun h 3
  simp [fit4Mat, mulVec, dotProduct, Fin.sum_univ_four, Finset.sum_add_distrib, Finset.sum_sub_distrib] at q0 q1 q2 q3
  obtain ⟨X, hX⟩ : ∃ X : Fin np → F, X = fun i => v 0 + v 1 * (m i).1 - v 2 * (m i).2 - ex i := ⟨_, rfl⟩
  obtain ⟨Y, hY⟩ : ∃ Y : Fin np → F, Y = fun i => v 3 + v 2 * (m i).1 + v 1 * (m i).2 - ey i := ⟨_, rfl⟩
  have r0 : ∑ i, X i = 0 := by
    subst hX
    simp only [Finset.sum_sub_distrib, Finset.sum_add_distrib, ← Finset.mul_sum, Finset.sum_const, Finset.card_univ, Fintype.card_fin,
      nsmul_eq_mul]
    linear_combination q0
  have r3 : ∑ i, Y i = 0 := by
    subst hY
    simp only [Finset.sum_sub_distrib, Finset.sum_add_distrib, ← Finset.mul_sum, Finset.sum_const, Finset.card_univ, Fintype.card_fin,
      nsmul_eq_mul]
    linear_combination q3
  have r1 : ∑ i, (X i * (m i).1 + Y i * (m i).2) = 0 := by
    have : ∀ i, X i * (m i).1 + Y i * (m i).2 = v 0 * (m i).1 + v 1 * ((m i).1 * (m i).1) + v 1 * ((m i).2 * (m i).2) + v 3 * (m i).2
        - ex i * (m i).1 - ey i * (m i).2 := by intro i; subst hX hY; ring
    simp only [this, Finset.sum_sub_distrib, Finset.sum_add_distrib, ← Finset.mul_sum]
    linear_combination q1
  have r2 : ∑ i, (X i * (m i).2 - Y i * (m i).1) = 0 := by
    have : ∀ i, X i * (m i).2 - Y i * (m i).1 = v 0 * (m i).2 - v 2 * ((m i).1 * (m i).1) - v 2 * ((m i).2 * (m i).2) - v 3 * (m i).1
        - (ex i * (m i).2 - ey i * (m i).1) := by intro i; subst hX hY; ring
    simp only [this, Finset.sum_sub_distrib, Finset.sum_add_distrib, ← Finset.mul_sum]
    linear_combination q2
  have key : ∀ i, (v' 0 + v' 1 * (m i).1 - v' 2 * (m i).2 - ex i) ^ 2 + (v' 3 + v' 2 * (m i).1 + v' 1 * (m i).2 - ey i) ^ 2 =
      ((v 0 + v 1 * (m i).1 - v 2 * (m i).2 - ex i) ^ 2 + (v 3 + v 2 * (m i).1 + v 1 * (m i).2 - ey i) ^ 2) +
      (((v' 0 - v 0) + (v' 1 - v 1) * (m i).1 - (v' 2 - v 2) * (m i).2) ^ 2 + ((v' 3 - v 3) + (v' 2 - v 2) * (m i).1 + (v' 1 - v 1) * (m i).2) ^ 2) +
      (2 * (v' 0 - v 0) * X i + 2 * (v' 3 - v 3) * Y i + 2 * (v' 1 - v 1) * (X i * (m i).1 + Y i * (m i).2)
        - 2 * (v' 2 - v 2) * (X i * (m i).2 - Y i * (m i).1)) := by
    intro i; subst hX hY; ring
  have hsum : ∑ i, (2 * (v' 0 - v 0) * X i + 2 * (v' 3 - v 3) * Y i + 2 * (v' 1 - v 1) * (X i * (m i).1 + Y i * (m i).2)
        - 2 * (v' 2 - v 2) * (X i * (m i).2 - Y i * (m i).1)) = 0 := by
    rw [Finset.sum_sub_distrib, Finset.sum_add_distrib, Finset.sum_add_distrib, ← Finset.mul_sum, ← Finset.mul_sum, ← Finset.mul_sum, ← Finset.mul_sum, r0, r1, r2, r3]
    ring
  have hq : 0 ≤ ∑ i, (((v' 0 - v 0) + (v' 1 - v 1) * (m i).1 - (v' 2 - v 2) * (m i).2) ^ 2 + ((v' 3 - v 3) + (v' 2 - v 2) * (m i).1 + (v' 1 - v 1) * (m i).2) ^ 2) :=
    Finset.sum_nonneg (fun i _ => add_nonneg (sq_nonneg _) (sq_nonneg _))
  rw [← sub_nonneg, ← Finset.sum_sub_distrib]
  have e : ∀ i, (v' 0 + v' 1 * (m i).1 - v' 2 * (m i).2 - ex i) ^ 2 + (v' 3 + v' 2 * (m i).1 + v' 1 * (m i).2 - ey i) ^ 2 -
      ((v 0 + v 1 * (m i).1 - v 2 * (m i).2 - ex i) ^ 2 + (v 3 + v 2 * (m i).1 + v 1 * (m i).2 - ey i) ^ 2) =
      (((v' 0 - v 0) + (v' 1 - v 1) * (m i).1 - (v' 2 - v 2) * (m i).2) ^ 2 + ((v' 3 - v 3) + (v' 2 - v 2) * (m i).1 + (v' 1 - v 1) * (m i).2) ^ 2) +
      (2 * (v' 0 - v 0) * X i + 2 * (v' 3 - v 3) * Y i + 2 * (v' 1 - v 1) * (X i * (m i).1 + Y i * (m i).2)
        - 2 * (v' 2 - v 2) * (X i * (m i).2 - Y i * (m i).1)) := fun i => by rw [key i]; ring
  rw [Finset.sum_congr rfl (fun i _ => e i), Finset.sum_add_distrib, hsum, add_zero]
  exact hq

/-- Coinciding measured points make the four-coefficient normal matrix singular. -/
theorem fit4Mat_singular {np : ℕ} (m : Fin np → F × F) (x y : F) (h : ∀ i, m i = (x, y)) : (fit4Mat m).det = 0 := by
  rw [← exists_mulVec_eq_zero_iff]
  refine ⟨![-x, 1, 0, -y], ?_, ?_⟩
  · intro h0; have := congrFun h0 1; simp at this
  · ext i
    fin_cases i <;> simp [fit4Mat, mulVec, dotProduct, Fin.sum_univ_four, h] <;> ring

/-- A pass that palDmat accepts is least squares among the models of its handedness. -/
theorem fit4Pass_ok {np : ℕ} (sfa : F) (hs : 0 < sfa) (hs1 : sfa ≤ 1) (xye xym : Fin np → F × F) (sgn : F)
    (h : (fit4Pass sfa xye xym sgn).2.2 = 0) :
    (fit4Mat xym).det ≠ 0 ∧
    (let v := (fit4Pass sfa xye xym sgn).1
     (fit4Pass sfa xye xym sgn).2.1 = ∑ i, ((v 0 + v 1 * (xym i).1 - v 2 * (xym i).2 - (xye i).1 * sgn) ^ 2 +
            (v 3 + v 2 * (xym i).1 + v 1 * (xym i).2 - (xye i).2) ^ 2) ∧
     ∀ v' : Fin 4 → F, (fit4Pass sfa xye xym sgn).2.1 ≤
        ∑ i, ((v' 0 + v' 1 * (xym i).1 - v' 2 * (xym i).2 - (xye i).1 * sgn) ^ 2 +
            (v' 3 + v' 2 * (xym i).1 + v' 1 * (xym i).2 - (xye i).2) ^ 2)) := by
  unfold fit4Pass at h ⊢
  dsimp only at h ⊢
  obtain ⟨h1, h2, h3, h4⟩ := Props.dmatT_ok _ _ _ sfa hs hs1 h
  refine ⟨?_, ?_, ?_⟩
  · intro h0; rw [h0, abs_zero] at h4; exact absurd hs (not_lt.2 h4)
  · rw [if_pos h]
  · intro v'
    rw [if_pos h]
    exact lsq_solid (fun i => (xye i).1 * sgn) (fun i => (xye i).2) xym _ v' h2

/-- A model through two samples with distinct measured points. -/
theorem two_point (x0 y0 x1 y1 ex0 ey0 ex1 ey1 : F) (h : x0 ≠ x1 ∨ y0 ≠ y1) :
    ∃ v : Fin 4 → F, v 0 + v 1 * x0 - v 2 * y0 - ex0 = 0 ∧ v 3 + v 2 * x0 + v 1 * y0 - ey0 = 0 ∧
      v 0 + v 1 * x1 - v 2 * y1 - ex1 = 0 ∧ v 3 + v 2 * x1 + v 1 * y1 - ey1 = 0 := by
  have hr : (x1 - x0) ^ 2 + (y1 - y0) ^ 2 ≠ 0 := by
    intro h0
    have a : (x1 - x0) ^ 2 = 0 := by nlinarith [sq_nonneg (x1 - x0), sq_nonneg (y1 - y0)]
    have b : (y1 - y0) ^ 2 = 0 := by nlinarith [sq_nonneg (x1 - x0), sq_nonneg (y1 - y0)]
    have a' := pow_eq_zero_iff two_ne_zero |>.1 a
    have b' := pow_eq_zero_iff two_ne_zero |>.1 b
    rcases h with h | h
    · exact h (by linear_combination -a')
    · exact h (by linear_combination -b')
  obtain ⟨R, hR⟩ : ∃ R, R = (x1 - x0) ^ 2 + (y1 - y0) ^ 2 := ⟨_, rfl⟩
  rw [← hR] at hr
  obtain ⟨B, hB⟩ : ∃ B, B = ((x1 - x0) * (ex1 - ex0) + (y1 - y0) * (ey1 - ey0)) / R := ⟨_, rfl⟩
  obtain ⟨C, hC⟩ : ∃ C, C = ((x1 - x0) * (ey1 - ey0) - (y1 - y0) * (ex1 - ex0)) / R := ⟨_, rfl⟩
  have kx : B * (x1 - x0) - C * (y1 - y0) = ex1 - ex0 := by
    rw [hB, hC]; field_simp; rw [hR]; ring
  have ky : C * (x1 - x0) + B * (y1 - y0) = ey1 - ey0 := by
    rw [hB, hC]; field_simp; rw [hR]; ring
  refine ⟨![ex0 - B * x0 + C * y0, B, C, ey0 - C * x0 - B * y0], ?_, ?_, ?_, ?_⟩ <;> simp
  · ring
  · ring
  · linear_combination kx
  · linear_combination ky

end Pal
