import Verif.Model.DmatMem
import Mathlib.Tactic.Linarith
import Mathlib.Tactic.SplitIfs
import Mathlib.Tactic.Ring
import Mathlib.Data.List.Sort
import Mathlib.Data.List.NodupEquivFin

/-!
# Running palDmat's statements on memory
-/

namespace Pal.DmatMem
open Pal

/-- The fragment runs from `s` without error and ends with result and state satisfying `Q`. -/
def Runs {α : Type} (c : Prog α) (s : St) (Q : α → St → Prop) : Prop := ∃ r s', c s = some (r, s') ∧ Q r s'

theorem runs_bind {α β : Type} {c : Prog α} {f : α → Prog β} {s : St} {Q : β → St → Prop} (h : Runs c s fun r s' => Runs (f r) s' Q) : Runs (c >>= f) s Q := by
  obtain ⟨r, s', e, r2, s2, e2, q⟩ := h
  exact ⟨r2, s2, by simp [bind, StateT.bind, e, e2], q⟩

theorem runs_pure {α : Type} {a : α} {s : St} {Q : α → St → Prop} (h : Q a s) : Runs (pure a : Prog α) s Q := ⟨a, s, rfl, h⟩

theorem runs_of {α : Type} {c : Prog α} {s : St} {Q : α → St → Prop} {r : α} {s' : St} (e : c s = some (r, s')) (h : Q r s') : Runs c s Q := ⟨r, s', e, h⟩

theorem runs_mono {α : Type} {c : Prog α} {s : St} {Q Q' : α → St → Prop} (h : Runs c s Q) (hq : ∀ r s', Q r s' → Q' r s') : Runs c s Q' := by
  obtain ⟨r, s', e, q⟩ := h
  exact ⟨r, s', e, hq _ _ q⟩

theorem runs_times {β : Type} {f : ℕ → β → Prog β} {N : ℕ} (P : ℕ → β → St → Prop) (h : ∀ i b s, i < N → P i b s → Runs (f i b) s (P (i + 1))) (m i : ℕ) (b : β) (s : St)
    (hm : i + m ≤ N) (h0 : P i b s) : Runs (times f m i b) s (P (i + m)) := by
  induction m generalizing i b s with
  | zero => exact runs_pure h0
  | succ m ih =>
    refine runs_bind (runs_mono (h i b s (by omega) h0) fun b' s' q => ?_)
    have := ih (i + 1) b' s' (by omega) q
    rwa [show i + 1 + m = i + (m + 1) by omega] at this

theorem runs_loop {β : Type} {f : ℕ → β → Prog β} {n : ℕ} (P : ℕ → β → St → Prop) (b : β) (s : St) (h0 : P 0 b s) (h : ∀ i b s, i < n → P i b s → Runs (f i b) s (P (i + 1))) :
    Runs (loop 0 n b f) s (P n) := by
  have := runs_times P h n 0 b s (by omega) h0
  rwa [Nat.zero_add] at this

theorem runs_forUp {f : ℕ → Prog Unit} {n : ℕ} (P : ℕ → St → Prop) (s : St) (h0 : P 0 s) (h : ∀ i s, i < n → P i s → Runs (f i) s fun _ => P (i + 1)) :
    Runs (forUp 0 n f) s fun _ => P n :=
  runs_loop (fun i _ => P i) () s h0 fun i _ s hi hp => h i s hi hp

/-- The two arrays do not overlap. -/
def Args.sep (g : Args) : Prop := g.a + g.n * g.n ≤ g.y ∨ g.y + g.n ≤ g.a

/-- State `s` holds the matrix `A`, the vector `Y`, ints `I`, and `*d`, `*jf`; doubles elsewhere are those of `m`. -/
structure Rep (g : Args) (m : ℕ → ℝ) (s : St) (A : Matrix (Fin g.n) (Fin g.n) ℝ) (Y : Fin g.n → ℝ) (I : ℕ → ℤ) (d : ℝ) (jf : ℤ) : Prop where
  mat : ∀ i j : Fin g.n, s.mem (g.a + i * g.n + j) = A i j
  vec : ∀ i : Fin g.n, s.mem (g.y + i) = Y i
  out : ∀ p, ¬g.ok p → s.mem p = m p
  int : s.int = I
  det : s.d = d
  flag : s.jf = jf

/-- The matrix with one element changed. -/
def setAt {n : ℕ} (A : Matrix (Fin n) (Fin n) ℝ) (i j : Fin n) (v : ℝ) : Matrix (Fin n) (Fin n) ℝ := fun i' j' => if i' = i ∧ j' = j then v else A i' j'

theorem cell_lt {n : ℕ} (i j : Fin n) : (i : ℕ) * n + j < n * n := by
  have h1 := i.2
  have h2 := j.2
  calc (i : ℕ) * n + j < i * n + n := by omega
    _ = (i + 1) * n := by ring
    _ ≤ n * n := Nat.mul_le_mul_right _ h1

theorem cell_inj {n : ℕ} {i j i' j' : Fin n} (h : (i : ℕ) * n + j = i' * n + j') : i = i' ∧ j = j' := by
  have h2 := j.2
  have h4 := j'.2
  have e : (i : ℕ) = i' := by
    have a1 := congrArg (· / n) h
    have hn : 0 < n := by omega
    simp only [Nat.add_comm ((i : ℕ) * n), Nat.add_comm ((i' : ℕ) * n), Nat.add_mul_div_right _ _ hn, Nat.div_eq_of_lt h2, Nat.div_eq_of_lt h4, Nat.zero_add] at a1
    exact a1
  rw [e] at h
  exact ⟨Fin.ext e, Fin.ext (by omega)⟩

variable {g : Args} {m : ℕ → ℝ} {s : St} {A : Matrix (Fin g.n) (Fin g.n) ℝ} {Y : Fin g.n → ℝ} {I : ℕ → ℤ} {d : ℝ} {jf : ℤ}

theorem ok_mat (i j : Fin g.n) : g.ok (g.a + i * g.n + j) := by
  have := cell_lt i j
  exact Or.inl ⟨by omega, by omega⟩

theorem ok_vec (i : Fin g.n) : g.ok (g.y + i) := Or.inr ⟨by omega, by omega⟩

theorem load_mat (h : Rep g m s A Y I d jf) (i j : Fin g.n) : load g (g.a + i * g.n + j) s = some (A i j, s) := by
  rw [load, if_pos (ok_mat i j), h.mat]

theorem load_vec (h : Rep g m s A Y I d jf) (i : Fin g.n) : load g (g.y + i) s = some (Y i, s) := by
  rw [load, if_pos (ok_vec i), h.vec]

theorem store_mat (hs : g.sep) (h : Rep g m s A Y I d jf) (i j : Fin g.n) (v : ℝ) :
    ∃ s', store g (g.a + i * g.n + j) v s = some ((), s') ∧ Rep g m s' (setAt A i j v) Y I d jf := by
  refine ⟨{ s with mem := Function.update s.mem (g.a + i * g.n + j) v }, by rw [store, if_pos (ok_mat i j)], ?_, ?_, ?_, h.int, h.det, h.flag⟩
  · intro i' j'
    dsimp only [setAt]
    by_cases e : i' = i ∧ j' = j
    · rw [if_pos e, e.1, e.2, Function.update_self]
    · rw [if_neg e, Function.update_of_ne, h.mat]
      intro c
      exact e (cell_inj (by omega))
  · intro i'
    dsimp only
    rw [Function.update_of_ne, h.vec]
    have := cell_lt i j
    rcases hs with k | k <;> omega
  · intro p hp
    dsimp only
    rw [Function.update_of_ne, h.out p hp]
    rintro rfl
    exact hp (ok_mat i j)

theorem store_vec (hs : g.sep) (h : Rep g m s A Y I d jf) (i : Fin g.n) (v : ℝ) :
    ∃ s', store g (g.y + i) v s = some ((), s') ∧ Rep g m s' A (Function.update Y i v) I d jf := by
  refine ⟨{ s with mem := Function.update s.mem (g.y + i) v }, by rw [store, if_pos (ok_vec i)], ?_, ?_, ?_, h.int, h.det, h.flag⟩
  · intro i' j'
    dsimp only
    rw [Function.update_of_ne, h.mat]
    have := cell_lt i' j'
    rcases hs with k | k <;> omega
  · intro i'
    dsimp only
    by_cases e : i' = i
    · rw [e, Function.update_self, Function.update_self]
    · rw [Function.update_of_ne, Function.update_of_ne e, h.vec]
      intro c
      exact e (Fin.ext (by omega))
  · intro p hp
    dsimp only
    rw [Function.update_of_ne, h.out p hp]
    rintro rfl
    exact hp (ok_vec i)


theorem runs_getD (h : Rep g m s A Y I d jf) : getD s = some (d, s) := by rw [getD, h.det]

theorem runs_setD (h : Rep g m s A Y I d jf) (v : ℝ) : ∃ s', setD v s = some ((), s') ∧ Rep g m s' A Y I v jf :=
  ⟨_, rfl, h.mat, h.vec, h.out, h.int, rfl, h.flag⟩

theorem runs_setJf (h : Rep g m s A Y I d jf) (v : ℤ) : ∃ s', setJf v s = some ((), s') ∧ Rep g m s' A Y I d v :=
  ⟨_, rfl, h.mat, h.vec, h.out, h.int, h.det, rfl⟩

theorem runs_istore (h : Rep g m s A Y I d jf) (k : Fin g.n) (v : ℤ) :
    ∃ s', istore g (g.iw + k) v s = some ((), s') ∧ Rep g m s' A Y (Function.update I (g.iw + k) v) d jf := by
  refine ⟨{ s with int := Function.update s.int (g.iw + k) v }, ?_, h.mat, h.vec, h.out, ?_, h.det, h.flag⟩
  · rw [istore, if_pos ⟨by omega, by omega⟩]
  · dsimp only
    rw [h.int]

theorem runs_iload (h : Rep g m s A Y I d jf) (k : Fin g.n) : iload g (g.iw + k) s = some (I (g.iw + k), s) := by
  rw [iload, if_pos ⟨by omega, by omega⟩, h.int]

theorem rep_cast {A' : Matrix (Fin g.n) (Fin g.n) ℝ} {Y' : Fin g.n → ℝ} (h : Rep g m s A Y I d jf) (e : A = A') (e' : Y = Y') : Rep g m s A' Y' I d jf := by
  subst e e'; exact h

theorem runs_swap (hs : g.sep) (h : Rep g m s A Y I d jf) {k l : Fin g.n} (hkl : l ≠ k) :
    Runs (memSwap g k l (g.a + k * g.n) (g.a + l * g.n)) s fun _ s' => Rep g m s' (swapRows A k l) (swapVec Y k l) I (-d) jf := by
  unfold memSwap
  refine runs_bind (runs_mono (runs_forUp (fun j s => Rep g m s (fun i' j' => if (j' : ℕ) < j then swapRows A k l i' j' else A i' j') Y I d jf) s ?_ ?_) ?_)
  · simpa using h
  · intro j s hj hr
    refine runs_bind (runs_of (load_mat hr k ⟨j, hj⟩) ?_)
    refine runs_bind (runs_of (load_mat hr l ⟨j, hj⟩) ?_)
    obtain ⟨s1, e1, h1⟩ := store_mat hs hr k ⟨j, hj⟩ (A l ⟨j, hj⟩)
    dsimp only
    rw [if_neg (lt_irrefl _), if_neg (lt_irrefl _)]
    refine runs_bind (runs_of e1 ?_)
    obtain ⟨s2, e2, h2⟩ := store_mat hs h1 l ⟨j, hj⟩ (A k ⟨j, hj⟩)
    refine runs_of e2 (rep_cast h2 ?_ rfl)
    funext i' j'
    simp only [setAt, swapRows]
    grind
  · intro _ s hr
    refine runs_bind (runs_of (load_vec hr k) ?_)
    refine runs_bind (runs_of (load_vec hr l) ?_)
    obtain ⟨s1, e1, h1⟩ := store_vec hs hr k (Y l)
    refine runs_bind (runs_of e1 ?_)
    obtain ⟨s2, e2, h2⟩ := store_vec hs h1 l (Y k)
    refine runs_bind (runs_of e2 ?_)
    refine runs_bind (runs_of (runs_getD h2) ?_)
    obtain ⟨s3, e3, h3⟩ := runs_setD h2 (-d)
    refine runs_of e3 (rep_cast h3 ?_ ?_)
    · funext i' j'
      simp
    · funext i'
      simp only [swapVec, Function.update_apply]
      grind


theorem runs_elim (hs : g.sep) (h : Rep g m s A Y I d jf) (k : Fin g.n) :
    Runs (memElim g k (g.a + k * g.n)) s fun _ s' => Rep g m s' (dmatElim A k) (dmatElimY A Y k) I d jf := by
  unfold memElim
  refine runs_bind (runs_of (load_mat h k k) ?_)
  obtain ⟨s1, e1, h1⟩ := store_mat hs h k k (1 / A k k)
  refine runs_bind (runs_of e1 ?_)
  refine runs_bind (runs_mono (runs_forUp (fun j s => Rep g m s (fun i' j' => if i' = k ∧ (j' = k ∨ (j' : ℕ) < j) then dmatElim A k i' j' else A i' j') Y I d jf) s1 ?_ ?_) ?_)
  · refine rep_cast h1 ?_ rfl
    funext i' j'
    simp only [setAt, dmatElim]
    grind
  · intro j s hj hr
    by_cases hjk : j = k
    · rw [if_neg (not_not.2 hjk)]
      refine runs_pure (rep_cast hr ?_ rfl)
      funext i' j'
      grind
    · rw [if_pos hjk]
      refine runs_bind (runs_of (load_mat hr k ⟨j, hj⟩) ?_)
      refine runs_bind (runs_of (load_mat hr k k) ?_)
      obtain ⟨s2, e2, h2⟩ := store_mat hs hr k ⟨j, hj⟩ (A k ⟨j, hj⟩ * (1 / A k k))
      have c1 : ¬(k = k ∧ ((⟨j, hj⟩ : Fin g.n) = k ∨ j < j)) := by
        rintro ⟨-, h | h⟩
        · exact hjk (by rw [← h])
        · omega
      dsimp only
      rw [if_neg c1, if_pos ⟨rfl, Or.inl rfl⟩, show dmatElim A k k k = 1 / A k k by simp [dmatElim]]
      refine runs_of e2 (rep_cast h2 ?_ rfl)
      funext i' j'
      simp only [setAt, dmatElim]
      grind
  intro _ s hr
  refine runs_bind (runs_of (load_vec hr k) ?_)
  refine runs_bind (runs_of (load_mat hr k k) ?_)
  dsimp only
  rw [if_pos ⟨rfl, Or.inl rfl⟩, show dmatElim A k k k = 1 / A k k by simp [dmatElim]]
  obtain ⟨s2, e2, h2⟩ := store_vec hs hr k (Y k * (1 / A k k))
  refine runs_bind (runs_of e2 ?_)
  refine runs_bind (runs_mono (runs_loop (fun i b s => b = g.a + i * g.n ∧ Rep g m s (fun i' j' => if i' = k ∨ ((i' : ℕ) < i ∧ j' ≠ k) then dmatElim A k i' j' else A i' j')
    (fun i' => if i' = k ∨ (i' : ℕ) < i then dmatElimY A Y k i' else Y i') I d jf) g.a s2 ?_ ?_) ?_)
  · refine ⟨by simp, rep_cast h2 ?_ ?_⟩
    · funext i' j'
      grind
    · funext i'
      simp only [Function.update_apply, dmatElimY]
      grind
  · rintro i b s hi ⟨rfl, hr⟩
    by_cases hik : i = k
    · rw [if_neg (not_not.2 hik)]
      refine runs_pure ⟨by ring, rep_cast hr ?_ ?_⟩
      · funext i' j'
        grind
      · funext i'
        grind
    · rw [if_pos hik]
      refine runs_bind (runs_mono (runs_forUp (fun j s => Rep g m s (fun i' j' => if i' = k ∨ (((i' : ℕ) < i ∨ ((i' : ℕ) = i ∧ (j' : ℕ) < j)) ∧ j' ≠ k) then dmatElim A k i' j' else A i' j')
        (fun i' => if i' = k ∨ (i' : ℕ) < i then dmatElimY A Y k i' else Y i') I d jf) s ?_ ?_) ?_)
      · refine rep_cast hr ?_ rfl
        funext i' j'
        grind
      · intro j s hj hr
        by_cases hjk : j = k
        · rw [if_neg (not_not.2 hjk)]
          refine runs_pure (rep_cast hr ?_ rfl)
          funext i' j'
          grind
        · rw [if_pos hjk]
          have n1 : (⟨i, hi⟩ : Fin g.n) ≠ k := fun c => hik (by rw [← c])
          have n2 : (⟨j, hj⟩ : Fin g.n) ≠ k := fun c => hjk (by rw [← c])
          refine runs_bind (runs_of (load_mat hr ⟨i, hi⟩ ⟨j, hj⟩) ?_)
          refine runs_bind (runs_of (load_mat hr ⟨i, hi⟩ k) ?_)
          refine runs_bind (runs_of (load_mat hr k ⟨j, hj⟩) ?_)
          obtain ⟨s3, e3, h3⟩ := store_mat hs hr ⟨i, hi⟩ ⟨j, hj⟩ (A ⟨i, hi⟩ ⟨j, hj⟩ - A ⟨i, hi⟩ k * (A k ⟨j, hj⟩ * (1 / A k k)))
          dsimp only
          rw [if_neg (by simp [n1]), if_neg (by simp [n1]), if_pos (Or.inl rfl), show dmatElim A k k ⟨j, hj⟩ = A k ⟨j, hj⟩ * (1 / A k k) by simp [dmatElim, n2]]
          refine runs_of e3 (rep_cast h3 ?_ rfl)
          funext i' j'
          simp only [setAt, dmatElim]
          grind
      · intro _ s hr
        have n1 : (⟨i, hi⟩ : Fin g.n) ≠ k := fun c => hik (by rw [← c])
        refine runs_bind (runs_of (load_vec hr ⟨i, hi⟩) ?_)
        refine runs_bind (runs_of (load_mat hr ⟨i, hi⟩ k) ?_)
        obtain ⟨s3, e3, h3⟩ := store_vec hs hr ⟨i, hi⟩ (Y ⟨i, hi⟩ - A ⟨i, hi⟩ k * (Y k * (1 / A k k)))
        dsimp only
        rw [if_neg (by simp [n1]), if_neg (by simp [n1])]
        refine runs_bind (runs_of e3 (runs_pure ⟨by ring, rep_cast h3 ?_ ?_⟩))
        · funext i' j'
          grind
        · funext i'
          simp only [Function.update_apply, dmatElimY]
          grind
  rintro _ s ⟨-, hr⟩
  refine runs_bind (runs_mono (runs_loop (fun i b s => b = g.a + i * g.n ∧ Rep g m s (fun i' j' => if i' = k ∨ j' ≠ k ∨ (i' : ℕ) < i then dmatElim A k i' j' else A i' j')
    (dmatElimY A Y k) I d jf) g.a s ?_ ?_) ?_)
  · refine ⟨by simp, rep_cast hr ?_ ?_⟩
    · funext i' j'
      grind
    · funext i'
      grind
  · rintro i b s hi ⟨rfl, hr⟩
    by_cases hik : i = k
    · rw [if_neg (not_not.2 hik)]
      refine runs_pure ⟨by ring, rep_cast hr ?_ rfl⟩
      funext i' j'
      grind
    · rw [if_pos hik]
      have n1 : (⟨i, hi⟩ : Fin g.n) ≠ k := fun c => hik (by rw [← c])
      refine runs_bind (runs_of (load_mat hr ⟨i, hi⟩ k) ?_)
      refine runs_bind (runs_of (load_mat hr k k) ?_)
      obtain ⟨s3, e3, h3⟩ := store_mat hs hr ⟨i, hi⟩ k (A ⟨i, hi⟩ k * -(1 / A k k))
      dsimp only
      rw [if_neg (by simp [n1]), if_pos (Or.inl rfl), show dmatElim A k k k = 1 / A k k by simp [dmatElim]]
      refine runs_bind (runs_of e3 (runs_pure ⟨by ring, rep_cast h3 ?_ rfl⟩))
      funext i' j'
      simp only [setAt, dmatElim]
      grind
  · rintro _ s ⟨-, hr⟩
    refine runs_pure (rep_cast hr ?_ rfl)
    funext i' j'
    grind


theorem filter_range {n : ℕ} (k : Fin n) : ((List.finRange n).filter (fun i => decide (k < i))).map (Fin.val) = List.range' (k + 1) (n - (k + 1)) := by
  have hp : (((List.finRange n).filter (fun i => decide (k < i))).map Fin.val).Perm (List.range' (k + 1) (n - (k + 1))) := by
    refine (List.perm_ext_iff_of_nodup ?_ (List.nodup_range' ..)).2 ?_
    · exact ((List.nodup_finRange n).filter _).map Fin.val_injective
    · intro x
      simp only [List.mem_map, List.mem_filter, List.mem_finRange, true_and, decide_eq_true_eq, List.mem_range'_1]
      constructor
      · rintro ⟨i, hi, rfl⟩
        have := i.2
        have h' : (k : ℕ) < i := hi
        omega
      · rintro ⟨h1, h2⟩
        exact ⟨⟨x, by omega⟩, by rw [Fin.lt_def]; dsimp only; omega, rfl⟩
  refine hp.eq_of_pairwise' (r := (· ≤ ·)) ?_ ?_
  · rw [List.pairwise_map]
    refine List.Pairwise.filter _ ?_
    exact (List.pairwise_lt_finRange n).imp fun h => le_of_lt h
  · exact (List.pairwise_lt_range' ..).imp fun h => le_of_lt h

theorem runs_pivot (h : Rep g m s A Y I d jf) (k : Fin g.n) :
    Runs (memPivot g k (g.a + k * g.n)) s fun r s' => s' = s ∧ r = (|A (dmatPivot A k) k|, (dmatPivot A k : ℕ), g.a + dmatPivot A k * g.n) := by
  have key : ∀ (L : List (Fin g.n)) (i mm : ℕ) (imx : Fin g.n), L.map Fin.val = List.range' i mm →
      Runs (times (fun i (b : (ℝ × ℕ × ℕ) × ℕ) => do
        let t1 ← load g (b.2 + k)
        let t := |t1|
        return (if t > b.1.1 then (t, i, b.2) else b.1, b.2 + g.n)) mm i ((|A imx k|, (imx : ℕ), g.a + imx * g.n), g.a + i * g.n)) s
        fun r s' => s' = s ∧ r.1 = (|A (L.foldl (fun imx i => if |A imx k| < |A i k| then i else imx) imx) k|,
          ((L.foldl (fun imx i => if |A imx k| < |A i k| then i else imx) imx : Fin g.n) : ℕ), g.a + (L.foldl (fun imx i => if |A imx k| < |A i k| then i else imx) imx : Fin g.n) * g.n) := by
    intro L
    induction L with
    | nil =>
      intro i mm imx hL
      cases mm with
      | zero => exact runs_pure ⟨rfl, rfl⟩
      | succ mm => simp [List.range'_succ] at hL
    | cons x L ih =>
      intro i mm imx hL
      cases mm with
      | zero => simp at hL
      | succ mm =>
        rw [List.map_cons, List.range'_succ, List.cons.injEq] at hL
        obtain ⟨rfl, hL⟩ := hL
        refine runs_bind (runs_bind (runs_of (load_mat h x k) (runs_pure ?_)))
        have := ih (x + 1) mm (if |A imx k| < |A x k| then x else imx) hL
        rw [List.foldl_cons]
        convert this using 3
        · dsimp only
          split_ifs <;> rfl
        · ring
  unfold memPivot
  refine runs_bind (runs_of (load_mat h k k) ?_)
  refine runs_bind (runs_mono ?_ fun r s' (hq : s' = s ∧ r.1 = _) => runs_pure hq)
  have := key _ (k + 1) (g.n - (k + 1)) k (filter_range k)
  rw [loop, show g.a + k * g.n + g.n = g.a + (k + 1) * g.n by ring]
  exact this

theorem runs_pass (hs : g.sep) (sfa : ℝ) (k : Fin g.n) (t : DmatSt g.n ℝ) (h : Rep g m s t.a t.y I t.d t.jf) :
    ∃ J, (J = I ∨ J = Function.update I (g.iw + k) ((dmatStep sfa k t).iw k : ℕ)) ∧ ((dmatStep sfa k t).jf = 0 → J = Function.update I (g.iw + k) ((dmatStep sfa k t).iw k : ℕ)) ∧
      Runs (memPass g sfa k (g.a + k * g.n)) s fun _ s' => Rep g m s' (dmatStep sfa k t).a (dmatStep sfa k t).y J (dmatStep sfa k t).d (dmatStep sfa k t).jf := by
  unfold memPass
  by_cases c : |t.a (dmatPivot t.a k) k| < sfa
  · refine ⟨I, Or.inl rfl, fun hj => ?_, ?_⟩
    · exfalso
      simp [dmatStep, c] at hj
    refine runs_bind (runs_mono (runs_pivot h k) ?_)
    rintro _ _ ⟨rfl, rfl⟩
    dsimp only
    rw [if_pos c]
    obtain ⟨s1, e1, h1⟩ := runs_setJf h (-1)
    refine runs_of e1 ?_
    unfold dmatStep
    simpa [c] using h1
  · have ei : (dmatStep sfa k t).iw k = dmatPivot t.a k := by
      unfold dmatStep
      simp only [c, if_false]
      split_ifs <;> simp
    refine ⟨Function.update I (g.iw + k) (dmatPivot t.a k : ℕ), Or.inr (by rw [ei]), fun _ => (by rw [ei]), ?_⟩
    refine runs_bind (runs_mono (runs_pivot h k) ?_)
    rintro _ _ ⟨rfl, rfl⟩
    dsimp only
    rw [if_neg c]
    set l := dmatPivot t.a k with hl
    have main : ∀ (B : Matrix (Fin g.n) (Fin g.n) ℝ) (Z : Fin g.n → ℝ) (e : ℝ) (s : St), Rep g m s B Z I e t.jf →
        Runs (do
          istore g (g.iw + k) (l : ℕ)
          let d ← getD
          let p ← load g (g.a + k * g.n + k)
          setD (d * p)
          let d ← getD
          if |d| < sfa then setJf (-1) else memElim g k (g.a + k * g.n)) s
          fun _ s' => if |e * B k k| < sfa then Rep g m s' B Z (Function.update I (g.iw + k) (l : ℕ)) (e * B k k) (-1)
            else Rep g m s' (dmatElim B k) (dmatElimY B Z k) (Function.update I (g.iw + k) (l : ℕ)) (e * B k k) t.jf := by
      intro B Z e s hr
      obtain ⟨s1, e1, h1⟩ := runs_istore hr k (l : ℕ)
      refine runs_bind (runs_of e1 ?_)
      refine runs_bind (runs_of (runs_getD h1) ?_)
      refine runs_bind (runs_of (load_mat h1 k k) ?_)
      obtain ⟨s2, e2, h2⟩ := runs_setD h1 (e * B k k)
      refine runs_bind (runs_of e2 ?_)
      refine runs_bind (runs_of (runs_getD h2) ?_)
      by_cases c2 : |e * B k k| < sfa
      · simp only [if_pos c2]
        obtain ⟨s3, e3, h3⟩ := runs_setJf h2 (-1)
        exact runs_of e3 h3
      · simp only [if_neg c2]
        exact runs_elim hs h2 k
    by_cases hlk : l = k
    · rw [if_neg (by simp [hlk])]
      refine runs_mono (main _ _ _ _ h) fun _ s' hq => ?_
      unfold dmatStep
      rw [hlk] at hq c
      simp only [← hl, hlk, c, if_false, ne_eq, not_true_eq_false]
      split_ifs at hq ⊢ <;> exact hq
    · rw [if_pos (fun q => hlk (Fin.ext q))]
      refine runs_bind (runs_mono (runs_swap hs h hlk) fun _ s' hr => ?_)
      refine runs_mono (main _ _ _ _ hr) fun _ s' hq => ?_
      unfold dmatStep
      simp only [← hl, c, if_false, hlk, ne_eq, not_false_eq_true, if_true]
      split_ifs at hq ⊢ <;> exact hq

theorem runs_unswap (hs : g.sep) (h : Rep g m s A Y I d jf) (k l : Fin g.n) (hI : I (g.iw + k) = (l : ℕ)) :
    Runs (memUnswap g k) s fun _ s' => Rep g m s' (if k ≠ l then swapCols A k l else A) Y I d jf := by
  unfold memUnswap
  refine runs_bind (runs_of (runs_iload h k) ?_)
  rw [hI]
  by_cases hkl : k = l
  · subst hkl
    rw [if_neg (by simp), if_neg (by simp)]
    exact runs_pure h
  · have hne : ((k : ℕ) : ℤ) ≠ ((l : ℕ) : ℤ) := fun c => hkl (Fin.ext (by exact_mod_cast c))
    rw [if_pos hne, if_neg (by omega), if_pos hkl]
    refine runs_bind (runs_mono (runs_loop (fun i b s => b = g.a + i * g.n ∧ Rep g m s (fun i' j' => if (i' : ℕ) < i then swapCols A k l i' j' else A i' j') Y I d jf) g.a s ?_ ?_) ?_)
    · exact ⟨by simp, by simpa using h⟩
    · rintro i b s hi ⟨rfl, hr⟩
      rw [show (((l : ℕ) : ℤ).toNat) = (l : ℕ) by simp]
      refine runs_bind (runs_of (load_mat hr ⟨i, hi⟩ k) ?_)
      refine runs_bind (runs_of (load_mat hr ⟨i, hi⟩ l) ?_)
      dsimp only
      rw [if_neg (lt_irrefl _), if_neg (lt_irrefl _)]
      obtain ⟨s1, e1, h1⟩ := store_mat hs hr ⟨i, hi⟩ k (A ⟨i, hi⟩ l)
      refine runs_bind (runs_of e1 ?_)
      obtain ⟨s2, e2, h2⟩ := store_mat hs h1 ⟨i, hi⟩ l (A ⟨i, hi⟩ k)
      refine runs_bind (runs_of e2 (runs_pure ⟨by ring, rep_cast h2 ?_ rfl⟩))
      funext i' j'
      simp only [setAt, swapCols]
      grind
    · rintro _ s ⟨-, hr⟩
      refine runs_pure (rep_cast hr ?_ rfl)
      funext i' j'
      simp

theorem runs_down (hs : g.sep) (iw : Fin g.n → Fin g.n) (hI : ∀ k : Fin g.n, I (g.iw + k) = (iw k : ℕ)) (q : ℕ) (hq : q ≤ g.n) (s : St) (A : Matrix (Fin g.n) (Fin g.n) ℝ)
    (h : Rep g m s A Y I d jf) : Runs (forDown (memUnswap g) q) s fun _ s' => Rep g m s' (dmatUnswap iw A q) Y I d jf := by
  induction q generalizing s A with
  | zero => exact runs_pure h
  | succ q ih =>
    have hq' : q < g.n := hq
    refine runs_bind (runs_mono (runs_unswap hs h ⟨q, hq'⟩ (iw ⟨q, hq'⟩) (hI _)) fun _ s' hr => ?_)
    refine runs_mono (ih (by omega) s' _ hr) fun _ s2 hr2 => ?_
    rw [dmatUnswap, dif_pos hq']
    exact hr2

theorem step_jf {n : ℕ} (sfa : ℝ) (k : Fin n) (t : DmatSt n ℝ) (h : (dmatStep sfa k t).jf = 0) : t.jf = 0 ∧ ∀ i, i ≠ k → (dmatStep sfa k t).iw i = t.iw i := by
  unfold dmatStep at h ⊢
  dsimp only at h ⊢
  split_ifs at h ⊢
  · simp at h
  · simp at h
  · refine ⟨h, fun i hi => if_neg hi⟩
  all_goals first | exact ⟨h, fun i hi => if_neg hi⟩ | (simp at h)

theorem runs_dmat (hs : g.sep) (sfa : ℝ) (iw : Fin g.n → Fin g.n) (s : St) (h : Rep g s.mem s A Y s.int s.d s.jf) :
    Runs (memDmatT g sfa) s fun _ s' => ∃ J, Rep g s.mem s' (dmatT sfa A Y iw).a (dmatT sfa A Y iw).y J (dmatT sfa A Y iw).d (dmatT sfa A Y iw).jf ∧ ∀ p, ¬g.iok p → J p = s.int p := by
  unfold memDmatT
  obtain ⟨s1, e1, h1⟩ := runs_setJf h 0
  refine runs_bind (runs_of e1 ?_)
  obtain ⟨s2, e2, h2⟩ := runs_setD h1 1
  refine runs_bind (runs_of e2 ?_)
  refine runs_bind (runs_mono (runs_loop (fun k b s' => b = g.a + k * g.n ∧ ∃ J, Rep g s.mem s' (dmatIter sfa ⟨A, Y, 1, 0, iw⟩ k).a (dmatIter sfa ⟨A, Y, 1, 0, iw⟩ k).y J
    (dmatIter sfa ⟨A, Y, 1, 0, iw⟩ k).d (dmatIter sfa ⟨A, Y, 1, 0, iw⟩ k).jf ∧ (∀ p, ¬g.iok p → J p = s.int p) ∧
    ((dmatIter sfa ⟨A, Y, 1, 0, iw⟩ k).jf = 0 → ∀ i : Fin g.n, (i : ℕ) < k → J (g.iw + i) = ((dmatIter sfa ⟨A, Y, 1, 0, iw⟩ k).iw i : ℕ))) g.a s2 ?_ ?_) ?_)
  · exact ⟨by simp, s.int, h2, fun _ _ => rfl, fun _ i hi => absurd hi (by omega)⟩
  · rintro k b s' hk ⟨rfl, J, hr, ho, hw⟩
    have es : dmatIter sfa ⟨A, Y, 1, 0, iw⟩ (k + 1) = dmatStep sfa ⟨k, hk⟩ (dmatIter sfa ⟨A, Y, 1, 0, iw⟩ k) := by rw [dmatIter, dif_pos hk]
    rw [es]
    obtain ⟨J', c1, c2, hrun⟩ := runs_pass hs sfa ⟨k, hk⟩ _ hr
    refine runs_bind (runs_mono hrun fun _ s3 h3 => runs_pure ⟨by ring, J', h3, ?_, ?_⟩)
    · intro p hp
      rcases c1 with rfl | rfl
      · exact ho p hp
      · rw [Function.update_of_ne, ho p hp]
        rintro rfl
        exact hp ⟨by omega, by dsimp only; omega⟩
    · intro h0 i hi
      obtain ⟨j1, j2⟩ := step_jf sfa _ _ h0
      rw [c2 h0]
      by_cases hik : i = ⟨k, hk⟩
      · subst hik
        rw [Function.update_self]
      · rw [Function.update_of_ne, j2 i hik]
        · refine hw j1 i ?_
          have : (i : ℕ) ≠ k := fun c => hik (Fin.ext c)
          omega
        · intro c
          exact hik (Fin.ext (by dsimp only at c ⊢; omega))
  · rintro _ s3 ⟨-, J, hr, ho, hw⟩
    refine runs_bind (runs_of (show getJf s3 = some (s3.jf, s3) from rfl) ?_)
    rw [hr.flag]
    unfold dmatT
    dsimp only
    split_ifs with hj
    · obtain ⟨s4, e4, h4⟩ := runs_setD hr 0
      exact runs_of e4 ⟨J, h4, ho⟩
    · refine runs_mono (runs_down hs _ (fun k => hw (not_not.1 hj) k k.2) g.n le_rfl s3 _ hr) fun _ s4 h4 => ⟨J, h4, ho⟩

end Pal.DmatMem
