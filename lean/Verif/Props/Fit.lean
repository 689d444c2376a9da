import Verif.Lemmas.Fit
import Mathlib.Analysis.SpecialFunctions.Pow.Real

/-!
# Properties C21–C25, C72 of the plate-model functions
-/

namespace Pal.Props
open Pal Pal.Spec Matrix

set_option linter.unusedSectionVars false

variable {F : Type*} [Field F] [LinearOrder F] [IsStrictOrderedRing F]

private theorem sfa_pos : (0 : F) < 1 / 10 ^ 20 := by positivity
private theorem sfa_le : (1 : F) / 10 ^ 20 ≤ 1 := by
  rw [div_le_one (by positivity)]; exact one_le_pow₀ (by norm_num)

private theorem sumSqRes_split {np : ℕ} (xye xym : Fin np → F × F) (c : Fin 6 → F) :
    sumSqRes xye xym c = ∑ i, (c 0 + c 1 * (xym i).1 + c 2 * (xym i).2 - (xye i).1) ^ 2 +
      ∑ i, (c 3 + c 4 * (xym i).1 + c 5 * (xym i).2 - (xye i).2) ^ 2 := by
  unfold sumSqRes modelX modelY
  rw [Finset.sum_add_distrib]

/-- **C21** For any number of samples: if palFitxy with itype 6 reports success, its coefficients are the unique minimiser of the sum of squared
residuals among all six-coefficient models. -/
theorem C21_fitxy6_least_squares {np : ℕ} (xye xym : Fin np → F × F) (old c : Fin 6 → F)
    (h : palFitxy 6 xye xym old = (0, c)) (c' : Fin 6 → F) :
    sumSqRes xye xym c ≤ sumSqRes xye xym c' ∧ (sumSqRes xye xym c' = sumSqRes xye xym c → c' = c) := by
  unfold palFitxy fitxyT at h
  rw [if_pos rfl] at h
  obtain ⟨hn, hdet, hx, hy⟩ := fit6_normal _ sfa_pos sfa_le xye xym old c h
  have x0 := congrFun hx 0
  have x1 := congrFun hx 1
  have x2 := congrFun hx 2
  have y0 := congrFun hy 0
  have y1 := congrFun hy 1
  have y2 := congrFun hy 2
  simp [fit6Mat, mulVec, dotProduct, Fin.sum_univ_three] at x0 x1 x2 y0 y1 y2
  have ex := lsq_axis (fun i => (xye i).1) xym (c 0) (c 1) (c 2) (c' 0) (c' 1) (c' 2) x0 x1 x2
  have ey := lsq_axis (fun i => (xye i).2) xym (c 3) (c 4) (c 5) (c' 3) (c' 4) (c' 5) y0 y1 y2
  rw [sumSqRes_split, sumSqRes_split, ex, ey]
  have n1 : 0 ≤ ∑ i, ((c' 0 - c 0) + (c' 1 - c 1) * (xym i).1 + (c' 2 - c 2) * (xym i).2) ^ 2 := Finset.sum_nonneg (fun i _ => sq_nonneg _)
  have n2 : 0 ≤ ∑ i, ((c' 3 - c 3) + (c' 4 - c 4) * (xym i).1 + (c' 5 - c 5) * (xym i).2) ^ 2 := Finset.sum_nonneg (fun i _ => sq_nonneg _)
  refine ⟨by linarith, fun heq => ?_⟩
  have z1 : ∑ i, ((c' 0 - c 0) + (c' 1 - c 1) * (xym i).1 + (c' 2 - c 2) * (xym i).2) ^ 2 = 0 := by linarith
  have z2 : ∑ i, ((c' 3 - c 3) + (c' 4 - c 4) * (xym i).1 + (c' 5 - c 5) * (xym i).2) ^ 2 = 0 := by linarith
  have k : ∀ α β γ : F, ∑ i, (α + β * (xym i).1 + γ * (xym i).2) ^ 2 = 0 → α = 0 ∧ β = 0 ∧ γ = 0 := by
    intro α β γ hz
    rw [Finset.sum_eq_zero_iff_of_nonneg (fun i _ => sq_nonneg _)] at hz
    have hk := fit6Mat_kernel xym α β γ (fun i => pow_eq_zero_iff two_ne_zero |>.1 (hz i (Finset.mem_univ i)))
    have := eq_zero_of_mulVec_eq_zero hdet hk
    exact ⟨by simpa using congrFun this 0, by simpa using congrFun this 1, by simpa using congrFun this 2⟩
  obtain ⟨a0, a1, a2⟩ := k _ _ _ z1
  obtain ⟨a3, a4, a5⟩ := k _ _ _ z2
  ext i
  fin_cases i
  · exact sub_eq_zero.1 a0
  · exact sub_eq_zero.1 a1
  · exact sub_eq_zero.1 a2
  · exact sub_eq_zero.1 a3
  · exact sub_eq_zero.1 a4
  · exact sub_eq_zero.1 a5

/-- **C21** (recovery) If the expected positions are generated from the measured ones by a six-coefficient model, a successful fit returns exactly that model. -/
theorem C21_fitxy6_recovers {np : ℕ} (xym : Fin np → F × F) (g old c : Fin 6 → F)
    (h : palFitxy 6 (fun i => palXy2xy (xym i).1 (xym i).2 g) xym old = (0, c)) : c = g := by
  obtain ⟨h1, h2⟩ := C21_fitxy6_least_squares _ _ old c h g
  have hg : sumSqRes (fun i => palXy2xy (xym i).1 (xym i).2 g) xym g = 0 := by
    unfold sumSqRes modelX modelY palXy2xy
    apply Finset.sum_eq_zero; intro i _; ring
  have hc : 0 ≤ sumSqRes (fun i => palXy2xy (xym i).1 (xym i).2 g) xym c :=
    Finset.sum_nonneg (fun i _ => add_nonneg (sq_nonneg _) (sq_nonneg _))
  exact (h2 (le_antisymm (by rw [hg]; exact hc) h1)).symm

/-- **C22** If palFitxy with itype 4 reports success — and, for exactly two samples, the scale it returns is not zero — its
coefficients are a solid-body model and no solid-body model of either handedness has a smaller sum of squared residuals. -/
theorem C22_fitxy4_least_squares {np : ℕ} (xye xym : Fin np → F × F) (old c : Fin 6 → F)
    (h : palFitxy 4 xye xym old = (0, c)) (h2 : np ≠ 2 ∨ c 1 ≠ 0 ∨ c 2 ≠ 0) :
    SolidBody c ∧ ∀ c', SolidBody c' → sumSqRes xye xym c ≤ sumSqRes xye xym c' := by
  unfold palFitxy fitxyT at h
  rw [if_neg (by decide), if_pos rfl] at h
  unfold fitxy4 at h
  split_ifs at h with hn
  swap
  · simp at h
  dsimp only at h
  have hindep : (fit4Pass (1 / 10 ^ 20) xye xym 1).2.2 = (fit4Pass (1 / 10 ^ 20) xye xym (-1)).2.2 := by
    unfold fit4Pass; exact (dmatT_indep _ _ _ _ _).1
  -- both passes are accepted
  have hacc : (fit4Pass (1 / 10 ^ 20) xye xym 1).2.2 = 0 := by
    by_contra hne
    have hne2 := hne
    rw [hindep] at hne2
    rw [if_neg hne, if_neg hne] at h
    have hs : (fit4Pass (1 / 10 ^ 20) xye xym (-1)).2.1 = -1 := by
      unfold fit4Pass at hne2 ⊢; dsimp only at hne2 ⊢; rw [if_neg hne2]
    rw [hs, if_neg hne2] at h
    split_ifs at h with hc
    · obtain ⟨_, hc2⟩ := hc
      rcases hc2 with hc2 | hc2
      · linarith
      · simp only [Prod.mk.injEq, true_and] at h
        rcases h2 with h2 | h2 | h2
        · exact h2 hc2
        · apply h2; rw [← h]; simp
        · apply h2; rw [← h]; simp
    · simp at h
  have hacc2 := hacc
  rw [hindep] at hacc2
  obtain ⟨hdet, hs1, hm1⟩ := fit4Pass_ok _ sfa_pos sfa_le xye xym 1 hacc
  obtain ⟨_, hs2, hm2⟩ := fit4Pass_ok _ sfa_pos sfa_le xye xym (-1) hacc2
  rw [if_pos hacc, if_pos hacc, if_pos hacc2] at h
  set r1 := fit4Pass (1 / 10 ^ 20) xye xym 1
  set r2 := fit4Pass (1 / 10 ^ 20) xye xym (-1)
  -- the minimum over both handednesses
  have hle : ∀ c', SolidBody c' → r1.2.1 ≤ sumSqRes xye xym c' ∨ r2.2.1 ≤ sumSqRes xye xym c' := by
    intro c' hc'
    rcases hc' with ⟨a, b⟩ | ⟨a, b⟩
    · left
      refine (hm1 ![c' 0, c' 1, -c' 2, c' 3]).trans (le_of_eq ?_)
      unfold sumSqRes modelX modelY
      apply Finset.sum_congr rfl; intro i _
      rw [a, b]; simp
    · right
      refine (hm2 ![-c' 0, -c' 1, c' 2, c' 3]).trans (le_of_eq ?_)
      unfold sumSqRes modelX modelY
      apply Finset.sum_congr rfl; intro i _
      rw [a, b]; simp; ring
  have hnn : 0 ≤ r1.2.1 := by
    rw [hs1]; exact Finset.sum_nonneg (fun i _ => add_nonneg (sq_nonneg _) (sq_nonneg _))
  have hnn2 : 0 ≤ r2.2.1 := by
    rw [hs2]; exact Finset.sum_nonneg (fun i _ => add_nonneg (sq_nonneg _) (sq_nonneg _))
  have htwo : np = 2 → r1.2.1 ≤ r2.2.1 := by
    intro h2np
    subst h2np
    have hd : (xym 0).1 ≠ (xym 1).1 ∨ (xym 0).2 ≠ (xym 1).2 := by
      by_contra hc
      push Not at hc
      apply hdet
      apply fit4Mat_singular xym (xym 0).1 (xym 0).2
      intro i
      fin_cases i
      · rfl
      · exact Prod.ext hc.1.symm hc.2.symm
    obtain ⟨v, e1, e2, e3, e4⟩ := two_point (xym 0).1 (xym 0).2 (xym 1).1 (xym 1).2 (xye 0).1 (xye 0).2 (xye 1).1 (xye 1).2 hd
    have := hm1 v
    rw [Fin.sum_univ_two, mul_one, mul_one, e1, e2, e3, e4] at this
    simp at this
    linarith
  split_ifs at h with hc
  · simp only [Prod.mk.injEq, true_and] at h
    have hr : sumSqRes xye xym c = r1.2.1 := by
      rw [hs1]; unfold sumSqRes modelX modelY
      apply Finset.sum_congr rfl; intro i _
      rw [← h]; simp; ring
    refine ⟨Or.inl (by rw [← h]; simp), fun c' hc' => ?_⟩
    rw [hr]
    have h12 : r1.2.1 ≤ r2.2.1 := by
      rcases hc.2 with h | h
      · exact h
      · exact htwo h
    rcases hle c' hc' with h | h
    · exact h
    · exact h12.trans h
  · simp only [Prod.mk.injEq, true_and] at h
    have hr : sumSqRes xye xym c = r2.2.1 := by
      rw [hs2]; unfold sumSqRes modelX modelY
      apply Finset.sum_congr rfl; intro i _
      rw [← h]; simp; ring
    refine ⟨Or.inr (by rw [← h]; simp), fun c' hc' => ?_⟩
    rw [hr]
    have h21 : r2.2.1 ≤ r1.2.1 := by
      have : ¬ r1.2.1 ≤ r2.2.1 := fun h => hc ⟨hnn, Or.inl h⟩
      linarith
    rcases hle c' hc' with h | h
    · exact h21.trans h
    · exact h

/-- **C23** (bad input) An itype other than 4 and 6 gives -1, too few samples -2; the coefficients are then unchanged.  The status is always one of
0, -1, -2, -3. -/
theorem C23_fitxy_bad_input {np : ℕ} (itype : ℤ) (xye xym : Fin np → F × F) (old : Fin 6 → F) :
    (itype ≠ 4 → itype ≠ 6 → palFitxy itype xye xym old = (-1, old)) ∧
    (np < 2 → palFitxy 4 xye xym old = (-2, old)) ∧
    (np < 3 → palFitxy 6 xye xym old = (-2, old)) ∧
    (palFitxy itype xye xym old).1 ∈ ({0, -1, -2, -3} : Set ℤ) ∧
    ((palFitxy itype xye xym old).1 ≠ 0 → (palFitxy itype xye xym old).2 = old) := by
  unfold palFitxy fitxyT
  refine ⟨fun h4 h6 => by rw [if_neg h6, if_neg h4], fun h => ?_, fun h => ?_, ?_, ?_⟩
  · rw [if_neg (by decide), if_pos rfl]; unfold fitxy4; rw [if_neg (by omega)]
  · rw [if_pos rfl]; unfold fitxy6; rw [if_neg (by omega)]
  · unfold fitxy6 fitxy4
    dsimp only
    split_ifs <;> simp
  · unfold fitxy6 fitxy4
    dsimp only
    split_ifs <;> simp

/-- **C23** (singular, itype 6) Collinear (or coinciding) measured points give -3 for any number of samples ≥ 3. -/
theorem C23_fitxy6_collinear {np : ℕ} (hn : 3 ≤ np) (xye xym : Fin np → F × F) (old : Fin 6 → F) (hc : Collinear xym) :
    palFitxy 6 xye xym old = (-3, old) := by
  have h1 := (C23_fitxy_bad_input 6 xye xym old).2.2.2
  have hne : ¬ (palFitxy 6 xye xym old).1 = 0 := by
    intro h0
    have h : palFitxy 6 xye xym old = (0, (palFitxy 6 xye xym old).2) := by rw [← h0]
    unfold palFitxy fitxyT at h
    rw [if_pos rfl] at h
    obtain ⟨_, hdet, _⟩ := fit6_normal _ sfa_pos sfa_le xye xym old _ h
    obtain ⟨α, β, γ, h3, h4⟩ := hc
    have := eq_zero_of_mulVec_eq_zero hdet (fit6Mat_kernel xym α β γ h4)
    have e0 : α = 0 := by simpa using congrFun this 0
    have e1 : β = 0 := by simpa using congrFun this 1
    have e2 : γ = 0 := by simpa using congrFun this 2
    rcases h3 with h | h | h <;> contradiction
  have h3 : (palFitxy 6 xye xym old).1 = -3 := by
    revert hne
    unfold palFitxy fitxyT
    rw [if_pos rfl]
    unfold fitxy6
    rw [if_pos hn]
    dsimp only
    split_ifs <;> simp
  exact Prod.ext h3 (h1.2 hne)

/-- **C23** (singular, itype 4) Coinciding measured points give -3 if there are at least three of them … -/
theorem C23_fitxy4_coincident_partial {np : ℕ} (hn : 3 ≤ np) (xye xym : Fin np → F × F) (old : Fin 6 → F) (x y : F)
    (hc : ∀ i, xym i = (x, y)) : palFitxy 4 xye xym old = (-3, old) := by
  have hdet := fit4Mat_singular xym x y hc
  have hj : ∀ sgn, ¬ (fit4Pass (1 / 10 ^ 20) xye xym sgn).2.2 = 0 := by
    intro sgn h
    exact (fit4Pass_ok _ sfa_pos sfa_le xye xym sgn h).1 hdet
  have hs : (fit4Pass (1 / 10 ^ 20) xye xym (-1)).2.1 = -1 := by
    have := hj (-1)
    unfold fit4Pass at this ⊢; dsimp only at this ⊢; rw [if_neg this]
  unfold palFitxy fitxyT
  rw [if_neg (by decide), if_pos rfl]
  unfold fitxy4
  rw [if_pos (by omega)]
  dsimp only
  rw [if_neg (hj 1), if_neg (hj 1), if_neg (hj (-1)), hs, if_neg]
  rintro ⟨_, h | h⟩
  · linarith
  · omega

/-- … (refuted) but exactly two coinciding measured points are reported as a success with all coefficients zero, whatever the expected positions. -/
theorem C23_fitxy4_two_coincident (xye xym : Fin 2 → F × F) (old : Fin 6 → F) (hc : xym 0 = xym 1) :
    palFitxy 4 xye xym old = (0, 0) := by
  have hdet := fit4Mat_singular xym (xym 0).1 (xym 0).2 (by
    intro i; fin_cases i
    · rfl
    · exact hc.symm)
  have hj : ∀ sgn, ¬ (fit4Pass (1 / 10 ^ 20) xye xym sgn).2.2 = 0 := by
    intro sgn h
    exact (fit4Pass_ok _ sfa_pos sfa_le xye xym sgn h).1 hdet
  unfold palFitxy fitxyT
  rw [if_neg (by decide), if_pos rfl]
  unfold fitxy4
  rw [if_pos le_rfl]
  dsimp only
  rw [if_neg (hj 1), if_neg (hj 1), if_pos ⟨le_rfl, Or.inr rfl⟩]
  congr 1
  ext i
  fin_cases i <;> simp

/-- **C72** (refuted) Non-degenerate samples in small units are rejected (three samples one arcsecond apart in radians: -3), and two such samples even give a
zero model with a success status. -/
theorem C72_fitxy_small_units :
    (let m : Fin 3 → ℚ × ℚ := ![(0, 0), (1 / 200000, 0), (0, 1 / 200000)]
     ¬ Collinear m ∧ (palFitxy 6 m m 0).1 = -3) ∧
    (let m : Fin 2 → ℚ × ℚ := ![(0, 0), (1 / 200000, 0)]
     m 0 ≠ m 1 ∧ palFitxy 4 m m (fun _ => 1) = (0, fun _ => 0)) := by
  refine ⟨⟨?_, by decide +kernel⟩, ?_⟩
  · rintro ⟨α, β, γ, h, h'⟩
    have e0 := h' 0
    have e1 := h' 1
    have e2 := h' 2
    simp at e0 e1 e2
    subst e0
    simp at e1 e2
    subst e1 e2
    simp at h
  · decide +kernel

/-- **C72** (partial) For every non-collinear configuration of at least three samples there is a positive threshold of palDmat below which itype 6 succeeds. -/
theorem C72_fitxy6_accepts_partial {np : ℕ} (hn : 3 ≤ np) (xye xym : Fin np → F × F) (old : Fin 6 → F) (hc : ¬ Collinear xym) :
    ∃ ε : F, 0 < ε ∧ ∀ sfa, 0 < sfa → sfa ≤ ε → (fitxyT sfa 6 xye xym old).1 = 0 := by
  have hdet : (fit6Mat xym).det ≠ 0 := by
    intro h0
    obtain ⟨v, hv, hk⟩ := exists_mulVec_eq_zero_iff.2 h0
    apply hc
    refine ⟨v 0, v 1, v 2, ?_, ?_⟩
    · by_contra hall
      push Not at hall
      apply hv; ext i; fin_cases i
      · exact hall.1
      · exact hall.2.1
      · exact hall.2.2
    · have k0 := congrFun hk 0
      have k1 := congrFun hk 1
      have k2 := congrFun hk 2
      simp [fit6Mat, mulVec, dotProduct, Fin.sum_univ_three] at k0 k1 k2
      have hsum : ∑ i, (v 0 + v 1 * (xym i).1 + v 2 * (xym i).2) ^ 2 = 0 := by
        have e : ∀ i, (v 0 + v 1 * (xym i).1 + v 2 * (xym i).2) ^ 2 =
          v 0 * v 0 + 2 * v 0 * v 1 * (xym i).1 + 2 * v 0 * v 2 * (xym i).2 + v 1 * v 1 * ((xym i).1 * (xym i).1) +
          2 * v 1 * v 2 * ((xym i).1 * (xym i).2) + v 2 * v 2 * ((xym i).2 * (xym i).2) := fun i => by ring
        rw [Finset.sum_congr rfl (fun i _ => e i)]
        simp only [Finset.sum_add_distrib, ← Finset.mul_sum, Finset.sum_const, Finset.card_univ, Fintype.card_fin, nsmul_eq_mul]
        linear_combination v 0 * k0 + v 1 * k1 + v 2 * k2
      rw [Finset.sum_eq_zero_iff_of_nonneg (fun i _ => sq_nonneg _)] at hsum
      intro i
      exact pow_eq_zero_iff two_ne_zero |>.1 (hsum i (Finset.mem_univ i))
  obtain ⟨ε, he, hall⟩ := C71_dmat_nonsingular_partial (fit6Mat xym) ![∑ i, (xye i).1, ∑ i, (xye i).1 * (xym i).1, ∑ i, (xye i).1 * (xym i).2] ![0, 0, 0] hdet
  refine ⟨ε, he, fun sfa _ hle => ?_⟩
  unfold fitxyT
  rw [if_pos rfl]
  unfold fitxy6
  rw [if_pos hn]
  dsimp only
  rw [if_pos (hall sfa hle)]

example : let m : Fin 4 → ℚ × ℚ := ![(0, 0), (1, 0), (0, 1), (2, 3)]
    palFitxy 6 (fun i => palXy2xy (m i).1 (m i).2 ![1, 2, 3, 4, 5, 7]) m (fun _ => 0) = (0, ![1, 2, 3, 4, 5, 7]) := by decide +kernel
example : let m : Fin 3 → ℚ × ℚ := ![(0, 0), (1, 0), (0, 1)]
    palFitxy 4 (fun i => palXy2xy (m i).1 (m i).2 ![1, -2, 3, 4, 3, 2]) m (fun _ => 0) = (0, ![1, -2, 3, 4, 3, 2]) := by decide +kernel

/-- **C24** (inverse) If palInvf reports 0, then going forward and then back, or back and then forward, with palXy2xy returns every point, and inverting twice
returns the original coefficients. -/
theorem C24_invf_inverse (f old b : Fin 6 → F) (h : palInvf f old = (0, b)) (x y : F) :
    (let p := palXy2xy x y f; palXy2xy p.1 p.2 b = (x, y)) ∧
    (let p := palXy2xy x y b; palXy2xy p.1 p.2 f = (x, y)) ∧
    ∀ old', palInvf b old' = (0, f) := by
  unfold palInvf at h
  dsimp only at h
  split_ifs at h with hd
  · simp only [Prod.mk.injEq, true_and] at h
    subst h
    obtain ⟨D, hD⟩ : ∃ D, D = f 1 * f 5 - f 2 * f 4 := ⟨_, rfl⟩
    rw [← hD] at hd ⊢
    refine ⟨?_, ?_, fun old' => ?_⟩
    · unfold palXy2xy
      ext
      · simp; field_simp; rw [hD]; ring
      · simp; field_simp; rw [hD]; ring
    · unfold palXy2xy
      ext
      · simp; field_simp; rw [hD]; ring
      · simp; field_simp; rw [hD]; ring
    · unfold palInvf
      have hdd : f 5 / D * (f 1 / D) - -f 2 / D * (-f 4 / D) = 1 / D := by
        field_simp; rw [hD]; ring
      dsimp only
      simp only [cons_val_zero, cons_val_one, cons_val, hdd]
      rw [if_pos (one_div_ne_zero hd)]
      congr 1
      ext i
      fin_cases i <;> simp <;> field_simp <;> (try rw [hD]) <;> ring
  · simp at h

/-- **C24** (status) It reports 0 exactly if the model is non-degenerate; otherwise -1 and the output is unchanged; and a degenerate model has no inverse: it maps two
different points to the same point. -/
theorem C24_invf_status (f old : Fin 6 → F) :
    (f 1 * f 5 - f 2 * f 4 ≠ 0 → (palInvf f old).1 = 0) ∧
    (f 1 * f 5 - f 2 * f 4 = 0 → palInvf f old = (-1, old) ∧
      ∃ x y x' y', (x, y) ≠ (x', y') ∧ palXy2xy x y f = palXy2xy x' y' f) := by
  constructor
  · intro h; unfold palInvf; dsimp only; rw [if_pos h]
  · intro h
    refine ⟨by unfold palInvf; dsimp only; rw [if_neg (not_not.2 h)], ?_⟩
    by_cases h0 : f 1 = 0 ∧ f 2 = 0
    · by_cases h1 : f 4 = 0 ∧ f 5 = 0
      · exact ⟨0, 0, 1, 0, by simp, by simp [palXy2xy, h0, h1]⟩
      · refine ⟨0, 0, f 5, -f 4, ?_, ?_⟩
        · intro hc; simp only [Prod.mk.injEq] at hc
          exact h1 ⟨by have := hc.2; linear_combination this, hc.1.symm⟩
        · unfold palXy2xy; ext
          · simp [h0]
          · simp; ring
    · refine ⟨0, 0, f 2, -f 1, ?_, ?_⟩
      · intro hc; simp only [Prod.mk.injEq] at hc
        exact h0 ⟨by have := hc.2; linear_combination this, hc.1.symm⟩
      · unfold palXy2xy; ext
        · simp; ring
        · simp; linear_combination h

example : palInvf (![1, 2, 3, 4, 5, 7] : Fin 6 → ℚ) (fun _ => 0) = (0, ![-5, -7, 3, 3, 5, -2]) := by decide +kernel

/-- **C25** palPxy predicts for each sample the model applied to the measured point, the RMS values are the root mean squares of the residuals in x, y and
radially (with no samples: zero), and rrms² = xrms² + yrms². -/
theorem C25_pxy {np : ℕ} (xye xym : Fin np → ℝ × ℝ) (c : Fin 6 → ℝ) :
    let r := palPxy xye xym c
    (∀ i, r.1 i = (modelX c (xym i), modelY c (xym i))) ∧
    0 ≤ r.2.1 ∧ 0 ≤ r.2.2.1 ∧ 0 ≤ r.2.2.2 ∧
    np * r.2.1 ^ 2 = ∑ i, ((xye i).1 - modelX c (xym i)) ^ 2 ∧
    np * r.2.2.1 ^ 2 = ∑ i, ((xye i).2 - modelY c (xym i)) ^ 2 ∧
    np * r.2.2.2 ^ 2 = sumSqRes xye xym c ∧
    r.2.2.2 ^ 2 = r.2.1 ^ 2 + r.2.2.1 ^ 2 ∧
    (np = 0 → r.2 = (0, 0, 0)) := by
  have hX : 0 ≤ ∑ i, ((xye i).1 - modelX c (xym i)) ^ 2 := Finset.sum_nonneg (fun i _ => sq_nonneg _)
  have hY : 0 ≤ ∑ i, ((xye i).2 - modelY c (xym i)) ^ 2 := Finset.sum_nonneg (fun i _ => sq_nonneg _)
  obtain ⟨p, hp⟩ : ∃ p : ℝ, p = (if (1 : ℝ) > (np : ℝ) then (1 : ℝ) else (np : ℝ)) := ⟨_, rfl⟩
  have hp0 : 0 < p := by
    rw [hp]; split_ifs with h
    · norm_num
    · push Not at h; linarith
  have e1 : (palPxy xye xym c).2.1 = √((∑ i, ((xye i).1 - modelX c (xym i)) ^ 2) / p) := by
    simp only [palPxy, ← hp, palXy2xy, modelX, sq]
  have e2 : (palPxy xye xym c).2.2.1 = √((∑ i, ((xye i).2 - modelY c (xym i)) ^ 2) / p) := by
    simp only [palPxy, ← hp, palXy2xy, modelY, sq]
  have e3 : (palPxy xye xym c).2.2.2 ^ 2 = (palPxy xye xym c).2.1 ^ 2 + (palPxy xye xym c).2.2.1 ^ 2 := by
    have : (palPxy xye xym c).2.2.2 = √((palPxy xye xym c).2.1 * (palPxy xye xym c).2.1 + (palPxy xye xym c).2.2.1 * (palPxy xye xym c).2.2.1) := rfl
    rw [this, Real.sq_sqrt (add_nonneg (mul_self_nonneg _) (mul_self_nonneg _))]; ring
  have k : ∀ S : ℝ, 0 ≤ S → (np = 0 → S = 0) → np * √(S / p) ^ 2 = S := by
    intro S hS h0
    rw [Real.sq_sqrt (div_nonneg hS hp0.le)]
    by_cases hnp : np = 0
    · rw [h0 hnp, hnp]; simp
    · have : (1 : ℝ) ≤ np := by exact_mod_cast Nat.one_le_iff_ne_zero.2 hnp
      rw [hp, if_neg (by linarith)]
      field_simp
  have z1 : np = 0 → ∑ i, ((xye i).1 - modelX c (xym i)) ^ 2 = 0 := by intro h; subst h; simp
  have z2 : np = 0 → ∑ i, ((xye i).2 - modelY c (xym i)) ^ 2 = 0 := by intro h; subst h; simp
  have a1 := k _ hX z1
  have a2 := k _ hY z2
  intro r
  refine ⟨fun i => rfl, Real.sqrt_nonneg _, Real.sqrt_nonneg _, Real.sqrt_nonneg _, ?_, ?_, ?_, e3, ?_⟩
  · rw [e1]; exact a1
  · rw [e2]; exact a2
  · rw [e3, mul_add, e1, e2, a1, a2]
    unfold sumSqRes
    rw [← Finset.sum_add_distrib]
    apply Finset.sum_congr rfl; intro i _; ring
  · intro h
    have r1 : r.2.1 = 0 := by rw [e1, z1 h]; simp
    have r2 : r.2.2.1 = 0 := by rw [e2, z2 h]; simp
    have r3 : r.2.2.2 = 0 := by
      have := e3
      change r.2.2.2 ^ 2 = r.2.1 ^ 2 + r.2.2.1 ^ 2 at this
      rw [r1, r2] at this
      simpa using this
    exact Prod.ext r1 (Prod.ext r2 r3)

example : (palPxy (fun _ : Fin 2 => ((3 : ℝ), 4)) (fun _ => (0, 0)) ![0, 0, 0, 0, 0, 0]).2 = (3, 4, 5) := by
  have h9 : √(9 : ℝ) = 3 := by rw [show (9 : ℝ) = 3 ^ 2 by norm_num]; exact Real.sqrt_sq (by norm_num)
  have h16 : √(16 : ℝ) = 4 := by rw [show (16 : ℝ) = 4 ^ 2 by norm_num]; exact Real.sqrt_sq (by norm_num)
  have h25 : √(25 : ℝ) = 5 := by rw [show (25 : ℝ) = 5 ^ 2 by norm_num]; exact Real.sqrt_sq (by norm_num)
  simp [palPxy, palXy2xy]
  norm_num [h9, h16, h25]

end Pal.Props
