import Verif.Model.Dmat
import Mathlib.LinearAlgebra.Matrix.Determinant.Basic
import Mathlib.LinearAlgebra.Matrix.NonsingularInverse
import Mathlib.LinearAlgebra.Matrix.ToLinearEquiv
import Mathlib.Tactic.FieldSimp
import Mathlib.Tactic.Linarith

set_option linter.unusedSectionVars false

namespace Pal
open Matrix

variable {F : Type*} [Field F] [LinearOrder F]

theorem foldl_pivot {n : ℕ} (a : Matrix (Fin n) (Fin n) F) (k : Fin n) (l : List (Fin n)) (b : Fin n) :
    let r := l.foldl (fun imx i => if |a imx k| < |a i k| then i else imx) b
    (r = b ∨ r ∈ l) ∧ |a b k| ≤ |a r k| ∧ ∀ i ∈ l, |a i k| ≤ |a r k| := by
  induction l generalizing b with
  | nil => simp
  | cons x l ih =>
    simp only [List.foldl_cons]
    have := ih (if |a b k| < |a x k| then x else b)
    dsimp only at this
    obtain ⟨h1, h2, h3⟩ := this
    set r := l.foldl (fun imx i => if |a imx k| < |a i k| then i else imx) (if |a b k| < |a x k| then x else b)
    split_ifs at h1 h2 with hc
    · refine ⟨?_, hc.le.trans h2, ?_⟩
      · rcases h1 with h | h
        · right; simp [h]
        · right; simp [h]
      · intro i hi
        rcases List.mem_cons.1 hi with rfl | hi
        · exact h2
        · exact h3 i hi
    · push Not at hc
      refine ⟨?_, h2, ?_⟩
      · rcases h1 with h | h
        · left; exact h
        · right; simp [h]
      · intro i hi
        rcases List.mem_cons.1 hi with rfl | hi
        · exact hc.trans h2
        · exact h3 i hi

theorem pivot_ge {n : ℕ} (a : Matrix (Fin n) (Fin n) F) (k : Fin n) : k ≤ dmatPivot a k := by
  rcases (foldl_pivot a k ((List.finRange n).filter (fun i => decide (k < i))) k).1 with h | h
  · unfold dmatPivot; rw [h]
  · have : dmatPivot a k ∈ _ := h
    simp at this
    exact this.le

theorem pivot_max {n : ℕ} (a : Matrix (Fin n) (Fin n) F) (k i : Fin n) (h : k ≤ i) :
    |a i k| ≤ |a (dmatPivot a k) k| := by
  have := foldl_pivot a k ((List.finRange n).filter (fun i => decide (k < i))) k
  dsimp only at this
  rcases h.eq_or_lt with rfl | h
  · exact this.2.1
  · exact this.2.2 i (by simp [h])

/-- Row exchange as a permutation of rows (also for equal rows). -/
theorem swapRows_eq {n : ℕ} (a : Matrix (Fin n) (Fin n) F) (k l : Fin n) :
    swapRows a k l = a.submatrix (Equiv.swap k l) id := by
  ext i j
  simp only [swapRows, submatrix_apply, id, Equiv.swap_apply_def]
  split_ifs <;> rfl

theorem swapVec_eq {n : ℕ} (a : Fin n → F) (k l : Fin n) :
    swapVec a k l = a ∘ (Equiv.swap k l) := by
  ext i
  simp only [swapVec, Function.comp, Equiv.swap_apply_def]
  split_ifs <;> rfl

theorem swapCols_eq {n : ℕ} (a : Matrix (Fin n) (Fin n) F) (k l : Fin n) :
    swapCols a k l = a.submatrix id (Equiv.swap k l) := by
  ext i j
  simp only [swapCols, submatrix_apply, id, Equiv.swap_apply_def]
  split_ifs <;> rfl

/-- First `k` entries from `u`, the others from `v`. -/
def mix {n : ℕ} (k : ℕ) (u v : Fin n → F) : Fin n → F := fun i => if i.val < k then u i else v i

/-- The partly reduced matrix: unit columns below `k`. -/
def redMat {n : ℕ} (k : ℕ) (a : Matrix (Fin n) (Fin n) F) : Matrix (Fin n) (Fin n) F :=
  fun i j => if j.val < k then (if i = j then 1 else 0) else a i j

/-- Loop invariant of palDmat on non-flagged runs: `σ` is the row permutation so far. -/
structure DmatInv {n : ℕ} (A : Matrix (Fin n) (Fin n) F) (b : Fin n → F) (k : ℕ) (s : DmatSt n F)
    (σ : Equiv.Perm (Fin n)) : Prop where
  exch : ∀ x : Fin n → F, s.a *ᵥ mix k (fun i => (A *ᵥ x) (σ i)) (-x) = mix k x (fun i => (-(A *ᵥ x)) (σ i))
  vec : s.y = s.a *ᵥ mix k (fun i => b (σ i)) 0 + mix k 0 (fun i => b (σ i))
  det : A.det = s.d * (redMat k s.a).det

theorem inv_zero {n : ℕ} (A : Matrix (Fin n) (Fin n) F) (b : Fin n → F) (iw : Fin n → Fin n) :
    DmatInv A b 0 ⟨A, b, 1, 0, iw⟩ 1 := by
  have m0 : ∀ u v : Fin n → F, mix 0 u v = v := by intro u v; ext i; simp [mix]
  have r0 : redMat 0 A = A := by ext i j; simp [redMat]
  refine ⟨fun x => ?_, ?_, ?_⟩
  · simp only [m0, Matrix.mulVec_neg]; rfl
  · simp only [m0]; simp
  · simp only [r0]; simp

theorem inv_swap {n : ℕ} {A : Matrix (Fin n) (Fin n) F} {b : Fin n → F} {s : DmatSt n F} {σ : Equiv.Perm (Fin n)}
    (k l : Fin n) (hkl : k < l) (h : DmatInv A b k s σ) (jf : ℤ) (iw : Fin n → Fin n) :
    DmatInv A b k ⟨swapRows s.a k l, swapVec s.y k l, -s.d, jf, iw⟩ (σ * Equiv.swap k l) := by
  have hk : ∀ i : Fin n, i.val < k.val → Equiv.swap k l i = i := by
    intro i hi
    apply Equiv.swap_apply_of_ne_of_ne
    · rintro rfl; omega
    · rintro rfl; rw [Fin.lt_def] at hkl; omega
  have hk2 : ∀ i : Fin n, (Equiv.swap k l i).val < k.val ↔ i.val < k.val := by
    intro i
    constructor
    · intro hi
      have := hk _ hi
      simp only [Equiv.swap_apply_self] at this
      rw [this]; exact hi
    · intro hi; rw [hk i hi]; exact hi
  have mixl : ∀ u v : Fin n → F, mix k (fun i => u ((σ * Equiv.swap k l) i)) v = mix k (fun i => u (σ i)) v := by
    intro u v; ext i
    simp only [mix, Equiv.Perm.mul_apply]
    split_ifs with hi
    · rw [hk i hi]
    · rfl
  have mixr : ∀ u v : Fin n → F, mix k u (fun i => v ((σ * Equiv.swap k l) i)) = mix k u (fun i => v (σ i)) ∘ Equiv.swap k l := by
    intro u v; ext i
    simp only [mix, Equiv.Perm.mul_apply, Function.comp, hk2]
    split_ifs with hi
    · rw [hk i hi]
    · rfl
  have mv : ∀ (M : Matrix (Fin n) (Fin n) F) (v : Fin n → F), (M.submatrix (Equiv.swap k l) id) *ᵥ v = (M *ᵥ v) ∘ Equiv.swap k l := by
    intro M v; rfl
  refine ⟨fun x => ?_, ?_, ?_⟩
  · rw [mixl (A *ᵥ x), mixr, ← h.exch x]
    simp only
    rw [swapRows_eq, mv]
  · simp only
    rw [mixl, mixr, swapRows_eq, mv, swapVec_eq, h.vec]
    rfl
  · simp only
    have : redMat k (swapRows s.a k l) = (redMat k s.a).submatrix (Equiv.swap k l) id := by
      ext i j
      rw [swapRows_eq]
      simp only [redMat, submatrix_apply, id]
      split_ifs with h1 h2 h3 h4 <;> try rfl
      · subst h2; exact absurd (hk i h1) h3
      · exfalso; apply h2
        have := hk j h1
        rw [← this, ← h4]; simp
    rw [this, det_permute, Equiv.Perm.sign_swap hkl.ne]
    rw [h.det]
    simp

theorem sum_split {n : ℕ} (k : Fin n) (f : Fin n → F) : ∑ j, f j = f k + ∑ j ∈ Finset.univ.erase k, f j :=
  (Finset.add_sum_erase _ f (Finset.mem_univ k)).symm

/-- Effect of the elimination step on a product: exchange of `x_k` and `z_k`. -/
theorem elim_exch {n : ℕ} (a : Matrix (Fin n) (Fin n) F) (k : Fin n) (hp : a k k ≠ 0) (u u' : Fin n → F)
    (hu : ∀ j, j ≠ k → u' j = u j) (huk : u' k = -(a *ᵥ u) k) (i : Fin n) :
    (dmatElim a k *ᵥ u') i = if i = k then -u k else (a *ᵥ u) i := by
  have hk : (a *ᵥ u) k = a k k * u k + ∑ j ∈ Finset.univ.erase k, a k j * u j := by
    rw [mulVec, dotProduct, sum_split k]
  rw [mulVec, dotProduct, sum_split k, huk]
  by_cases hi : i = k
  · subst hi
    rw [if_pos rfl]
    have e : ∑ j ∈ Finset.univ.erase i, dmatElim a i i j * u' j = (1 / a i i) * ∑ j ∈ Finset.univ.erase i, a i j * u j := by
      rw [Finset.mul_sum]
      apply Finset.sum_congr rfl
      intro j hj
      have hj' : j ≠ i := Finset.ne_of_mem_erase hj
      rw [hu j hj']
      simp only [dmatElim, if_pos, if_neg hj']
      ring
    rw [e, hk]
    simp only [dmatElim, if_pos]
    field_simp
    ring
  · rw [if_neg hi]
    have e : ∑ j ∈ Finset.univ.erase k, dmatElim a k i j * u' j =
        (∑ j ∈ Finset.univ.erase k, a i j * u j) - a i k * (1 / a k k) * ∑ j ∈ Finset.univ.erase k, a k j * u j := by
      rw [Finset.mul_sum, ← Finset.sum_sub_distrib]
      apply Finset.sum_congr rfl
      intro j hj
      have hj' : j ≠ k := Finset.ne_of_mem_erase hj
      rw [hu j hj']
      simp only [dmatElim, if_neg hi, if_neg hj']
      ring
    have hii : (a *ᵥ u) i = a i k * u k + ∑ j ∈ Finset.univ.erase k, a i j * u j := by
      rw [mulVec, dotProduct, sum_split k]
    rw [e, hk, hii]
    simp only [dmatElim, if_neg hi, if_pos]
    field_simp
    ring

theorem inv_elim {n : ℕ} {A : Matrix (Fin n) (Fin n) F} {b : Fin n → F} {a : Matrix (Fin n) (Fin n) F} {y : Fin n → F} {d : F}
    {jf : ℤ} {iw : Fin n → Fin n} {σ : Equiv.Perm (Fin n)} (k : Fin n)
    (h : DmatInv A b k ⟨a, y, d, jf, iw⟩ σ) (hp : a k k ≠ 0) (jf' : ℤ) (iw' : Fin n → Fin n) :
    DmatInv A b (k + 1) ⟨dmatElim a k, dmatElimY a y k, d * a k k, jf', iw'⟩ σ := by
  have mk1 : ∀ u v : Fin n → F, ∀ j, j ≠ k → mix (k + 1) u v j = mix k u v j := by
    intro u v j hj
    have : j.val ≠ k.val := fun h => hj (Fin.ext h)
    simp only [mix]
    by_cases h1 : j.val < k.val
    · rw [if_pos h1, if_pos (by omega)]
    · rw [if_neg h1, if_neg (by omega)]
  have mk2 : ∀ u v : Fin n → F, mix (k + 1) u v k = u k := by intro u v; simp [mix]
  have mk3 : ∀ u v : Fin n → F, mix k u v k = v k := by intro u v; simp [mix]
  refine ⟨fun x => ?_, ?_, ?_⟩
  · have hx := h.exch x
    simp only at hx ⊢
    ext i
    rw [elim_exch a k hp (mix k (fun i => (A *ᵥ x) (σ i)) (-x)) _ (mk1 _ _) (by rw [mk2, hx, mk3]; simp)]
    split_ifs with hi
    · subst hi; rw [mk2, mk3]; simp
    · rw [hx, mk1 _ _ i hi]
  · have hy := h.vec
    simp only at hy ⊢
    ext i
    obtain ⟨u, hudef⟩ : ∃ u : Fin n → F, u = mix k (fun i => b (σ i)) 0 := ⟨_, rfl⟩
    rw [← hudef] at hy
    have huk : u k = 0 := by rw [hudef, mk3]; rfl
    have hyk : y k = (∑ j ∈ Finset.univ.erase k, a k j * u j) + b (σ k) := by
      rw [hy, Pi.add_apply, mk3, mulVec, dotProduct, sum_split k, huk]; simp
    have hnew : (dmatElim a k *ᵥ mix (k + 1) (fun i => b (σ i)) 0) i =
        dmatElim a k i k * b (σ k) + ∑ j ∈ Finset.univ.erase k, dmatElim a k i j * u j := by
      rw [mulVec, dotProduct, sum_split k, mk2]
      congr 1
      apply Finset.sum_congr rfl
      intro j hj
      rw [mk1 _ _ j (Finset.ne_of_mem_erase hj), hudef]
    rw [Pi.add_apply, hnew]
    simp only [dmatElimY]
    by_cases hi : i = k
    · subst hi
      have e : ∑ j ∈ Finset.univ.erase i, dmatElim a i i j * u j = (1 / a i i) * ∑ j ∈ Finset.univ.erase i, a i j * u j := by
        rw [Finset.mul_sum]
        apply Finset.sum_congr rfl
        intro j hj
        simp only [dmatElim, if_pos, if_neg (Finset.ne_of_mem_erase hj)]
        ring
      rw [if_pos rfl, mk2, e, hyk]
      simp only [dmatElim, if_pos]
      simp only [Pi.zero_apply]
      ring
    · have e : ∑ j ∈ Finset.univ.erase k, dmatElim a k i j * u j =
          (∑ j ∈ Finset.univ.erase k, a i j * u j) - a i k * (1 / a k k) * ∑ j ∈ Finset.univ.erase k, a k j * u j := by
        rw [Finset.mul_sum, ← Finset.sum_sub_distrib]
        apply Finset.sum_congr rfl
        intro j hj
        simp only [dmatElim, if_neg hi, if_neg (Finset.ne_of_mem_erase hj)]
        ring
      have hyi : y i = (∑ j ∈ Finset.univ.erase k, a i j * u j) + mix k 0 (fun i => b (σ i)) i := by
        rw [hy, Pi.add_apply, mulVec, dotProduct, sum_split k, huk]; simp
      rw [if_neg hi, e, mk1 _ _ i hi, hyi, hyk]
      simp only [dmatElim, if_neg hi, if_pos]
      ring
  · rw [h.det]
    simp only
    rw [mul_assoc]
    congr 1
    -- scale row k, then subtract multiples of it
    have h1 : (redMat k a).det = a k k * ((redMat k a).updateRow k ((a k k)⁻¹ • (redMat k a) k)).det := by
      rw [det_updateRow_smul, updateRow_eq_self, ← mul_assoc, mul_inv_cancel₀ hp, one_mul]
    rw [h1]
    congr 1
    symm
    apply det_eq_of_forall_row_eq_smul_add_const (fun i => if i = k then 0 else - a i k) k (by simp)
    intro i j
    have hkk : ¬ (k.val < k.val) := lt_irrefl _
    by_cases hi : i = k
    · subst hi
      simp only [updateRow_self, if_pos, zero_mul, add_zero, Pi.smul_apply, smul_eq_mul]
      simp only [redMat, dmatElim]
      by_cases hj : j = i
      · subst hj
        rw [if_pos (by omega), if_pos rfl, if_neg hkk]
        rw [inv_mul_cancel₀ hp]
      · have : j.val ≠ i.val := fun h => hj (Fin.ext h)
        by_cases h2 : j.val < i.val
        · rw [if_pos (by omega), if_neg (Ne.symm hj), if_pos h2, mul_zero]
        · rw [if_neg (by omega), if_neg h2, if_pos trivial, if_neg hj]; ring
    · simp only [updateRow_ne hi, if_neg hi]
      simp only [updateRow_self, Pi.smul_apply, smul_eq_mul]
      simp only [redMat, dmatElim]
      by_cases hj : j = k
      · subst hj
        simp only [lt_irrefl, if_false, Nat.lt_succ_self, if_true, if_neg hi, inv_mul_cancel₀ hp]
        ring
      · have hjv : j.val ≠ k.val := fun h => hj (Fin.ext h)
        by_cases h2 : j.val < k.val
        · have h3 : j.val < k.val + 1 := by omega
          have h4 : ¬ k = j := Ne.symm hj
          simp only [h2, h3, h4, if_true, if_false]; ring
        · have h3 : ¬ j.val < k.val + 1 := by omega
          simp only [h2, h3, hi, hj, if_false]; ring

/-- The row permutation recorded in `iw` by the first `k` passes. -/
def permUpTo {n : ℕ} (iw : Fin n → Fin n) : ℕ → Equiv.Perm (Fin n)
  | 0 => 1
  | k + 1 => if h : k < n then permUpTo iw k * Equiv.swap ⟨k, h⟩ (iw ⟨k, h⟩) else permUpTo iw k

theorem permUpTo_congr {n : ℕ} (iw iw' : Fin n → Fin n) (k : ℕ) (h : ∀ i : Fin n, i.val < k → iw i = iw' i) :
    permUpTo iw k = permUpTo iw' k := by
  induction k with
  | zero => rfl
  | succ k ih =>
    simp only [permUpTo]
    rw [ih (fun i hi => h i (by omega))]
    split_ifs with hk
    · rw [h ⟨k, hk⟩ (Nat.lt_succ_self k)]
    · rfl

theorem unswap_eq {n : ℕ} (iw : Fin n → Fin n) (a : Matrix (Fin n) (Fin n) F) (m : ℕ) :
    dmatUnswap iw a m = a.submatrix id ((permUpTo iw m)⁻¹ : Equiv.Perm (Fin n)) := by
  induction m generalizing a with
  | zero => ext i j; simp [dmatUnswap, permUpTo]
  | succ m ih =>
    simp only [dmatUnswap, permUpTo]
    split_ifs with h h2
    · rw [ih, swapCols_eq, submatrix_submatrix]
      ext i j; simp
    · rw [ih]
      have : iw ⟨m, h⟩ = ⟨m, h⟩ := by
        by_contra hc; exact h2 (Ne.symm hc)
      rw [this]
      ext i j; simp
    · rw [ih]

theorem dmatStep_jf {n : ℕ} (sfa : F) (k : Fin n) (s : DmatSt n F) (h : (dmatStep sfa k s).jf = 0) : s.jf = 0 := by
  unfold dmatStep at h
  dsimp only at h
  split_ifs at h <;> simp_all

/-- The conditions under which a pass does not flag the matrix, and the state it then produces. -/
theorem inv_step [IsStrictOrderedRing F] {n : ℕ} {A : Matrix (Fin n) (Fin n) F} {b : Fin n → F} (sfa : F) (k : Fin n)
    (s : DmatSt n F) (h : DmatInv A b k s (permUpTo s.iw k))
    (hp : sfa ≤ |s.a (dmatPivot s.a k) k|) (hd : sfa ≤ |s.d * s.a (dmatPivot s.a k) k|)
    (hne : s.a (dmatPivot s.a k) k ≠ 0) :
    DmatInv A b (k + 1) (dmatStep sfa k s) (permUpTo (dmatStep sfa k s).iw (k + 1)) ∧
    (dmatStep sfa k s).jf = s.jf ∧ |(dmatStep sfa k s).d| = |s.d * s.a (dmatPivot s.a k) k| := by
  have hge := pivot_ge s.a k
  set imx := dmatPivot s.a k with himx
  have hperm : permUpTo (fun i => if i = k then imx else s.iw i) (k + 1) = permUpTo s.iw k * Equiv.swap k imx := by
    simp only [permUpTo, k.isLt, dif_pos]
    rw [permUpTo_congr _ s.iw k]
    · simp
    · intro i hi
      have : i ≠ k := by rintro rfl; omega
      simp [this]
  unfold dmatStep
  simp only [← himx]
  rw [if_neg (not_lt.2 hp)]
  by_cases hik : imx = k
  · have hn : ¬ (imx ≠ k) := not_not.2 hik
    simp only [if_neg hn]
    have hd' : ¬ |s.d * s.a k k| < sfa := by rw [hik] at hd; exact not_lt.2 hd
    rw [if_neg hd']
    refine ⟨?_, rfl, by rw [hik]⟩
    simp only [hperm]
    rw [hik, Equiv.swap_self]
    have : permUpTo s.iw k * Equiv.refl (Fin n) = permUpTo s.iw k := mul_one _
    rw [this]
    exact inv_elim k h (by rw [hik] at hne; exact hne) _ _
  · simp only [if_pos hik, ne_eq]
    have hkk : swapRows s.a k imx k k = s.a imx k := by simp [swapRows]
    rw [hkk]
    have hd' : ¬ |-s.d * s.a imx k| < sfa := by rw [neg_mul, abs_neg]; exact not_lt.2 hd
    rw [if_neg hd']
    refine ⟨?_, rfl, by simp [neg_mul, abs_neg]⟩
    simp only [hperm]
    have hsw := inv_swap k imx (lt_of_le_of_ne hge (Ne.symm hik)) h s.jf s.iw
    have := inv_elim k hsw (by rw [hkk]; exact hne) s.jf (fun i => if i = k then imx else s.iw i)
    rw [hkk] at this
    exact this

/-- A pass that does not flag the matrix meets those conditions. -/
theorem step_unflagged [IsStrictOrderedRing F] {n : ℕ} (sfa : F) (hs : 0 < sfa) (k : Fin n) (s : DmatSt n F)
    (h : (dmatStep sfa k s).jf = 0) :
    sfa ≤ |s.a (dmatPivot s.a k) k| ∧ sfa ≤ |s.d * s.a (dmatPivot s.a k) k| ∧ s.a (dmatPivot s.a k) k ≠ 0 := by
  unfold dmatStep at h
  dsimp only at h
  by_cases h1 : |s.a (dmatPivot s.a k) k| < sfa
  · rw [if_pos h1] at h; simp at h
  · rw [if_neg h1] at h
    push Not at h1
    have hne : s.a (dmatPivot s.a k) k ≠ 0 := by
      intro h0; rw [h0, abs_zero] at h1; exact absurd hs (not_lt.2 h1)
    refine ⟨h1, ?_, hne⟩
    by_contra h2
    push Not at h2
    by_cases hik : dmatPivot s.a k = k
    · have hn : ¬ (dmatPivot s.a k ≠ k) := not_not.2 hik
      simp only [if_neg hn] at h
      rw [hik] at h2
      rw [if_pos h2] at h
      simp at h
    · simp only [if_pos hik, ne_eq] at h
      have hkk : swapRows s.a k (dmatPivot s.a k) k k = s.a (dmatPivot s.a k) k := by simp [swapRows]
      rw [hkk, neg_mul, abs_neg, if_pos h2] at h
      simp at h

theorem iter_inv [IsStrictOrderedRing F] {n : ℕ} (A : Matrix (Fin n) (Fin n) F) (b : Fin n → F) (iw : Fin n → Fin n) (sfa : F) (hs : 0 < sfa)
    (k : ℕ) (hk : k ≤ n) (h : (dmatIter sfa ⟨A, b, 1, 0, iw⟩ k).jf = 0) :
    DmatInv A b k (dmatIter sfa ⟨A, b, 1, 0, iw⟩ k) (permUpTo (dmatIter sfa ⟨A, b, 1, 0, iw⟩ k).iw k) ∧
    (k = 0 ∨ sfa ≤ |(dmatIter sfa ⟨A, b, 1, 0, iw⟩ k).d|) := by
  induction k with
  | zero => exact ⟨inv_zero A b iw, Or.inl rfl⟩
  | succ k ih =>
    have hk' : k < n := hk
    simp only [dmatIter, dif_pos hk'] at h ⊢
    have ih' := (ih (by omega) (dmatStep_jf _ _ _ h)).1
    obtain ⟨h1, h2, h3⟩ := step_unflagged sfa hs _ _ h
    obtain ⟨g1, g2, g3⟩ := inv_step sfa ⟨k, hk'⟩ _ ih' h1 h2 h3
    exact ⟨g1, Or.inr (by rw [g3]; exact h2)⟩

/-- Conclusion of the invariant after all passes. -/
theorem inv_final {n : ℕ} {A : Matrix (Fin n) (Fin n) F} {b : Fin n → F} {s : DmatSt n F} {σ : Equiv.Perm (Fin n)}
    (h : DmatInv A b n s σ) :
    s.a.submatrix id (σ⁻¹ : Equiv.Perm (Fin n)) * A = 1 ∧ A *ᵥ s.y = b ∧ A.det = s.d := by
  have m1 : ∀ u v : Fin n → F, mix n u v = u := by intro u v; ext i; simp [mix]
  have hinv : s.a.submatrix id (σ⁻¹ : Equiv.Perm (Fin n)) * A = 1 := by
    ext i l
    have := congrFun (h.exch (Pi.single l 1)) i
    rw [m1, m1] at this
    have hone : (1 : Matrix (Fin n) (Fin n) F) i l = (Pi.single l 1 : Fin n → F) i := by
      rw [Matrix.one_apply, Pi.single_apply]
    rw [hone, ← this, mul_apply, mulVec, dotProduct]
    rw [← Equiv.sum_comp σ]
    apply Finset.sum_congr rfl
    intro j _
    simp [mulVec_single]
  refine ⟨hinv, ?_, ?_⟩
  · have hy := h.vec
    rw [m1, m1, add_zero] at hy
    have hy' : s.y = (s.a.submatrix id (σ⁻¹ : Equiv.Perm (Fin n))) *ᵥ b := by
      rw [hy]; ext i
      simp only [mulVec, dotProduct, submatrix_apply, id]
      rw [← Equiv.sum_comp σ (fun j => s.a i (σ⁻¹ j) * b j)]
      simp
    rw [hy', mulVec_mulVec, mul_eq_one_comm.1 hinv, one_mulVec]
  · have : redMat n s.a = 1 := by
      ext i j; simp [redMat, Matrix.one_apply]
    rw [h.det, this, det_one, mul_one]

theorem pivot_ne_zero [IsStrictOrderedRing F] {n : ℕ} {A : Matrix (Fin n) (Fin n) F} {b : Fin n → F} {s : DmatSt n F}
    {σ : Equiv.Perm (Fin n)} (k : Fin n) (h : DmatInv A b k s σ) (hA : A.det ≠ 0) :
    s.a (dmatPivot s.a k) k ≠ 0 ∧ s.d ≠ 0 := by
  have hd : s.d ≠ 0 := by intro h0; apply hA; rw [h.det, h0, zero_mul]
  refine ⟨fun h0 => ?_, hd⟩
  have hz : ∀ i : Fin n, k ≤ i → s.a i k = 0 := by
    intro i hi
    have := pivot_max s.a k i hi
    rw [h0, abs_zero] at this
    exact abs_eq_zero.1 (le_antisymm this (abs_nonneg _))
  apply hA
  rw [h.det]
  have : (redMat k s.a).det = 0 := by
    rw [← exists_mulVec_eq_zero_iff]
    refine ⟨fun j => if j.val < k.val then - s.a j k else if j = k then 1 else 0, ?_, ?_⟩
    · intro hv
      have := congrFun hv k
      simp at this
    · ext i
      simp only [mulVec, dotProduct, Pi.zero_apply]
      rw [sum_split k]
      have e1 : redMat k s.a i k = s.a i k := by simp [redMat]
      rw [e1]
      simp only [lt_irrefl, if_false, if_true, mul_one]
      by_cases hi : i.val < k.val
      · have hne : i ≠ k := by rintro rfl; omega
        have hmem : i ∈ Finset.univ.erase k := Finset.mem_erase.2 ⟨hne, Finset.mem_univ _⟩
        rw [Finset.sum_eq_single_of_mem i hmem]
        · simp [redMat, hi]
        · intro j hj hji
          have hjk : j ≠ k := Finset.ne_of_mem_erase hj
          by_cases h2 : j.val < k.val
          · simp [redMat, h2, Ne.symm hji]
          · simp [h2, hjk]
      · rw [hz i (Fin.le_def.2 (by omega)), zero_add]
        apply Finset.sum_eq_zero
        intro j hj
        have hjk : j ≠ k := Finset.ne_of_mem_erase hj
        by_cases h2 : j.val < k.val
        · have : i ≠ j := by rintro rfl; exact hi h2
          simp [redMat, h2, this]
        · simp [h2, hjk]
  rw [this, mul_zero]

/-- For a non-singular matrix no pass flags singularity once the threshold is small enough. -/
theorem iter_small [IsStrictOrderedRing F] {n : ℕ} (A : Matrix (Fin n) (Fin n) F) (b : Fin n → F) (iw : Fin n → Fin n) (hA : A.det ≠ 0)
    (k : ℕ) (hk : k ≤ n) :
    ∃ ε : F, 0 < ε ∧ ∃ s : DmatSt n F, s.jf = 0 ∧ DmatInv A b k s (permUpTo s.iw k) ∧
      ∀ sfa, sfa ≤ ε → dmatIter sfa ⟨A, b, 1, 0, iw⟩ k = s := by
  induction k with
  | zero => exact ⟨1, zero_lt_one, _, rfl, inv_zero A b iw, fun _ _ => rfl⟩
  | succ k ih =>
    have hk' : k < n := hk
    obtain ⟨ε, he, s, hj, hinv, hit⟩ := ih (by omega)
    obtain ⟨hp, hd⟩ := pivot_ne_zero ⟨k, hk'⟩ hinv hA
    set P := s.a (dmatPivot s.a ⟨k, hk'⟩) ⟨k, hk'⟩
    set e' := min ε (min |P| |s.d * P|) with he'
    have hpos : 0 < e' := lt_min he (lt_min (abs_pos.2 hp) (abs_pos.2 (mul_ne_zero hd hp)))
    have h1 : e' ≤ |P| := (min_le_right _ _).trans (min_le_left _ _)
    have h2 : e' ≤ |s.d * P| := (min_le_right _ _).trans (min_le_right _ _)
    obtain ⟨g1, g2, g3⟩ := inv_step e' ⟨k, hk'⟩ s hinv h1 h2 hp
    refine ⟨e', hpos, dmatStep e' ⟨k, hk'⟩ s, by rw [g2, hj], g1, ?_⟩
    intro sfa hsfa
    simp only [dmatIter, dif_pos hk']
    rw [hit sfa (hsfa.trans (min_le_left _ _))]
    -- both thresholds take the same branches
    have key : ∀ t, t ≤ e' → dmatStep t ⟨k, hk'⟩ s = dmatStep (min t 0) ⟨k, hk'⟩ s := by
      intro t ht
      have ha : |(if dmatPivot s.a ⟨k, hk'⟩ ≠ ⟨k, hk'⟩ then -s.d else s.d) *
          (if dmatPivot s.a ⟨k, hk'⟩ ≠ ⟨k, hk'⟩ then swapRows s.a ⟨k, hk'⟩ (dmatPivot s.a ⟨k, hk'⟩) else s.a) ⟨k, hk'⟩ ⟨k, hk'⟩| = |s.d * P| := by
        by_cases hik : dmatPivot s.a ⟨k, hk'⟩ = ⟨k, hk'⟩
        · simp only [P, hik]; simp
        · simp only [if_pos hik, ne_eq, P]
          simp [swapRows, abs_mul]
      unfold dmatStep
      dsimp only
      rw [if_neg (not_lt.2 (ht.trans h1)), if_neg (not_lt.2 ((min_le_right t 0).trans (abs_nonneg _))), ha,
        if_neg (not_lt.2 (ht.trans h2)), if_neg (not_lt.2 ((min_le_right t 0).trans (abs_nonneg _)))]
    rw [key sfa hsfa, key e' le_rfl]
    have key2 : ∀ t : F, t ≤ 0 → dmatStep t ⟨k, hk'⟩ s = dmatStep 0 ⟨k, hk'⟩ s := by
      intro t ht
      unfold dmatStep
      dsimp only
      have q1 : ∀ x : F, ¬ |x| < t := fun x => not_lt.2 (ht.trans (abs_nonneg _))
      have q2 : ∀ x : F, ¬ |x| < 0 := fun x => not_lt.2 (abs_nonneg _)
      simp only [q1, q2, if_false]
    rw [key2 _ (min_le_right _ _), key2 _ (min_le_right _ _)]

end Pal
