import Verif.Lemmas.FlMappa
import Verif.Props.FlMap

/-!
# How the mean-to-apparent conversions depend on their parameters

Exact arithmetic throughout: two parameter blocks that differ by what rounding does in palMappa.
-/

namespace Pal
open Real Pal.Spec Pal.Props Matrix
variable {fl : ℝ → ℝ} {L : Libm}

theorem len_sum4 (a b c d : Vec3) : len (fun i => a i + b i + c i + d i) ≤ len a + len b + len c + len d := by
  have h1 := len_add_le (fun i => a i + b i + c i) d
  have h2 := len_add_le (fun i => a i + b i) c
  have h3 := len_add_le a b
  linarith

theorem len_sum3 (a b c : Vec3) : len (fun i => a i + b i + c i) ≤ len a + len b + len c := by
  have h2 := len_add_le (fun i => a i + b i) c
  have h3 := len_add_le a b
  linarith

theorem dot_diff {P P' E E' : Vec3} {a b A B : ℝ} (ha : len (fun i => P i - P' i) ≤ a) (hb : len (fun i => E i - E' i) ≤ b) (hE : len E ≤ A) (hP : len P' ≤ B) : |dot P E - dot P' E'| ≤ a * A + B * b := by
  have e : dot P E - dot P' E' = dot (fun i => P i - P' i) E + dot P' (fun i => E i - E' i) := by rw [dot_eq, dot_eq, dot_eq, dot_eq]; ring
  rw [e]
  have h1 := (dot_le_len (fun i => P i - P' i) E).trans (mul_le_mul ha hE (len_nonneg _) ((len_nonneg _).trans ha))
  have h2 := (dot_le_len P' (fun i => E i - E' i)).trans (mul_le_mul hP hb (len_nonneg _) ((len_nonneg _).trans hP))
  exact (abs_add_le _ _).trans (add_le_add h1 h2)

/-- Light deflection with slightly different constants and star. -/
theorem defl0_sens {g g' a b : ℝ} {E E' P P' : Vec3} (hE' : len E' = 1) (hP : len P = 1) (hP' : len P' = 1) (ha : len (fun i => P i - P' i) ≤ a) (hb : len (fun i => E i - E' i) ≤ b) (hab : a + b ≤ 1.8e-14)
    (hg0 : 0 ≤ g) (hg : g ≤ 2.1e-8) (hgg : |g - g'| ≤ 3e-22) : len (fun i => defl0 g E P i - defl0 g' E' P' i) ≤ 1.96 * a + 0.96 * b + 7e-17 := by
  have a0 := (len_nonneg _).trans ha
  have b0 := (len_nonneg _).trans hb
  have lE := abs_le.1 ((len_rev_tri E E').trans hb)
  rw [hE'] at lE
  have lE1 : len E ≤ 1.0001 := by norm_num at *; linarith
  have hk := dot_diff ha hb lE1 hP'.le
  obtain ⟨hv, hc, hD, hD2⟩ := perp_len (by rw [hE']; norm_num) hP'
  have hDD : |max (dot P E + 1) (1 / 10 ^ 5) - max (dot P' E' + 1) (1 / 10 ^ 5)| ≤ a * 1.0001 + 1 * b :=
    max_err (by rw [add_sub_add_right_eq_sub]; exact hk) (noerr _) (by positivity)
  obtain ⟨f1, f2, f3, f4, f5, f6⟩ := factor_err hg0 hg hD hDD (by norm_num at *; linarith) hv
  have e : (fun i => defl0 g E P i - defl0 g' E' P' i) = fun i => (P i - P' i) + (g / max (dot P E + 1) (1 / 10 ^ 5) - g / max (dot P' E' + 1) (1 / 10 ^ 5)) * (E' i - dot P' E' * P' i) +
      ((g - g') / max (dot P' E' + 1) (1 / 10 ^ 5)) * (E' i - dot P' E' * P' i) + g / max (dot P E + 1) (1 / 10 ^ 5) * ((E i - dot P E * P i) - (E' i - dot P' E' * P' i)) := by
    funext i; unfold defl0; rw [ite_max, ite_max]; ring
  have hd : len (fun i => (E i - dot P E * P i) - (E' i - dot P' E' * P' i)) ≤ 2 * b + 2.01 * a := by
    have e2 : (fun i => (E i - dot P E * P i) - (E' i - dot P' E' * P' i)) = fun i => (E i - E' i) + (-(dot P E - dot P' E')) * P i + (-(dot P' E')) * (P i - P' i) := by funext i; ring
    rw [e2]
    refine (len_sum3 (fun i => E i - E' i) (fun i => (-(dot P E - dot P' E')) * P i) (fun i => (-(dot P' E')) * (P i - P' i))).trans ?_
    rw [len_smul, len_smul (-(dot P' E')) (fun i => P i - P' i), hP, abs_neg, abs_neg]
    have h3 := mul_le_mul hc ha (len_nonneg _) (by norm_num)
    norm_num at *; linarith
  have lV : len (fun i => E' i - dot P' E' * P' i) ≤ 2.1 := by
    refine abs_le_of_sq_le_sq' (a := len (fun i => E' i - dot P' E' * P' i)) ?_ (by norm_num) |>.2
    refine hv.trans ((mul_le_mul_of_nonneg_left hD2 (by norm_num)).trans (by norm_num))
  generalize max (dot P E + 1) (1 / 10 ^ 5) = D at *
  generalize max (dot P' E' + 1) (1 / 10 ^ 5) = D' at *
  have D0 : 0 < D' := lt_of_lt_of_le (by norm_num) hD
  rw [e]
  refine (len_sum4 (fun i => P i - P' i) (fun i => (g / D - g / D') * (E' i - dot P' E' * P' i)) (fun i => ((g - g') / D') * (E' i - dot P' E' * P' i)) (fun i => g / D * ((E i - dot P E * P i) - (E' i - dot P' E' * P' i)))).trans ?_
  rw [len_smul (g / D - g / D') (fun i => E' i - dot P' E' * P' i), len_smul ((g - g') / D') (fun i => E' i - dot P' E' * P' i), len_smul (g / D) (fun i => (E i - dot P E * P i) - (E' i - dot P' E' * P' i))]
  rw [abs_of_nonneg (len_nonneg _)] at f1
  have t3 : |(g - g') / D'| ≤ 3e-17 := by
    rw [abs_div, abs_of_pos D0, div_le_iff₀ D0]; norm_num at *; linarith
  have t3' := mul_le_mul t3 lV (len_nonneg _) (by norm_num)
  have t4 : |g / D| ≤ 2.2e-3 := by
    have := abs_le.1 f6
    rw [abs_of_nonneg (div_nonneg hg0 f5.le)]; norm_num at *; linarith
  have t4' := mul_le_mul t4 hd (len_nonneg _) (by norm_num)
  norm_num at *; linarith

/-- Aberration with slightly different constants, star and deflected star. -/
theorem aber_sens {k k' α : ℝ} {v v' Q Q' A A' : Vec3} (hk : 0.999 ≤ k) (hk1 : k ≤ 1) (hk' : 0.999 ≤ k') (hkk : |k - k'| ≤ 1.8e-16) (hv : len v' ≤ 1.07e-4) (hvv : len (fun i => v i - v' i) ≤ 2.5e-18)
    (hQ : len Q' ≤ 1.2) (hQQ : len (fun i => Q i - Q' i) ≤ 1e-13) (hA : len A' ≤ 1.01) (hAA : len (fun i => A i - A' i) ≤ α) :
    len (fun i => (k * A i + (1 + dot Q v / (k + 1)) * v i) - (k' * A' i + (1 + dot Q' v' / (k' + 1)) * v' i)) ≤ α + 1.9e-16 := by
  have α0 := (len_nonneg _).trans hAA
  have lv := abs_le.1 ((len_rev_tri v v').trans hvv)
  have lv1 : len v ≤ 1.08e-4 := by norm_num at *; linarith
  have hs := dot_diff hQQ hvv lv1 hQ
  have s2 : |dot Q' v'| ≤ 1.3e-4 := (dot_le_len Q' v').trans ((mul_le_mul hQ hv (len_nonneg _) (by norm_num)).trans (by norm_num))
  have p1 : 0 < k + 1 := by norm_num at *; linarith
  have p2 : 0 < k' + 1 := by norm_num at *; linarith
  have e : (fun i => (k * A i + (1 + dot Q v / (k + 1)) * v i) - (k' * A' i + (1 + dot Q' v' / (k' + 1)) * v' i)) =
      fun i => k * (A i - A' i) + (k - k') * A' i + (dot Q v / (k + 1) - dot Q' v' / (k' + 1)) * v i + (1 + dot Q' v' / (k' + 1)) * (v i - v' i) := by funext i; ring
  rw [e]
  refine (len_sum4 (fun i => k * (A i - A' i)) (fun i => (k - k') * A' i) (fun i => (dot Q v / (k + 1) - dot Q' v' / (k' + 1)) * v i) (fun i => (1 + dot Q' v' / (k' + 1)) * (v i - v' i))).trans ?_
  rw [len_smul k (fun i => A i - A' i), len_smul, len_smul, len_smul (1 + dot Q' v' / (k' + 1)) (fun i => v i - v' i)]
  generalize dot Q v = s at *
  generalize dot Q' v' = s' at *
  have q : |s / (k + 1) - s' / (k' + 1)| ≤ 1e-16 := by
    have e2 : s / (k + 1) - s' / (k' + 1) = (s - s') / (k + 1) + s' * (k' - k) / ((k + 1) * (k' + 1)) := by field_simp; ring
    rw [e2]
    have c1 : |(s - s') / (k + 1)| ≤ 2e-17 := by
      rw [abs_div, abs_of_pos p1, div_le_iff₀ p1]; norm_num at *; linarith
    have c2 : |s' * (k' - k) / ((k + 1) * (k' + 1))| ≤ 1.3e-4 * 1.8e-16 / (1.999 * 1.999) := by
      rw [abs_div, abs_mul, abs_of_pos (mul_pos p1 p2), abs_sub_comm]
      have : (1.999 : ℝ) * 1.999 ≤ (k + 1) * (k' + 1) := mul_le_mul (by norm_num at *; linarith) (by norm_num at *; linarith) (by norm_num) p1.le
      gcongr
    have := abs_add_le ((s - s') / (k + 1)) (s' * (k' - k) / ((k + 1) * (k' + 1)))
    norm_num at *; linarith
  have q2 : |1 + s' / (k' + 1)| ≤ 1.001 := by
    have : |s' / (k' + 1)| ≤ 1e-4 := by rw [abs_div, abs_of_pos p2, div_le_iff₀ p2]; norm_num at *; linarith
    have := abs_add_le 1 (s' / (k' + 1))
    rw [abs_one] at this
    norm_num at *; linarith
  have t1 : |k| * len (fun i => A i - A' i) ≤ 1 * α := mul_le_mul (by rw [abs_of_pos (by norm_num at *; linarith)]; exact hk1) hAA (len_nonneg _) zero_le_one
  have t2 := mul_le_mul hkk hA (len_nonneg _) (by norm_num)
  have t3 := mul_le_mul q lv1 (len_nonneg _) (by norm_num)
  have t4 := mul_le_mul q2 hvv (len_nonneg _) (by norm_num)
  clear e hs lv hAA hQQ
  norm_num at *; linarith

/-- Unit vectors along two vectors of length about 1. -/
theorem unit_sens {p P u U : Vec3} {e : ℝ} (hu : (fun i => len p * u i) = p) (hU : (fun i => len P * U i) = P) (h : len (fun i => p i - P i) ≤ e) (he : e ≤ 1e-12) (hP : 0.9985 ≤ len P) :
    len (fun i => u i - U i) ≤ 1.0016 * e := by
  have e0 := (len_nonneg _).trans h
  have l := abs_le.1 ((len_rev_tri p P).trans h)
  have lp : 0.9984 ≤ len p := by norm_num at *; linarith
  have p0 : 0 < len p := lt_of_lt_of_le (by norm_num) lp
  have P0 : 0 < len P := lt_of_lt_of_le (by norm_num) hP
  have c := unit_close p0 P0
  have e1 : (fun i => p i / len p - P i / len P) = fun i => u i - U i := by
    funext i
    have := congrFun hu i
    have h2 := congrFun hU i
    beta_reduce at this h2
    rw [(div_eq_iff p0.ne').2 (by rw [← this]; ring : p i = u i * len p), (div_eq_iff P0.ne').2 (by rw [← h2]; ring : P i = U i * len P)]
  rw [e1] at c
  refine abs_le_of_sq_le_sq' (a := len (fun i => u i - U i)) ?_ (by positivity) |>.2
  have s1 := pow_le_pow_left₀ (len_nonneg _) h 2
  have s2 : (0.9984 : ℝ) * 0.9985 ≤ len p * len P := mul_le_mul lp hP (by norm_num) p0.le
  have s3 := mul_le_mul_of_nonneg_right s2 (sq_nonneg (len (fun i => u i - U i)))
  have s4 : 0 ≤ e ^ 2 := sq_nonneg e
  rw [mul_pow]
  norm_num at *; linarith

/-- The last rotation with a slightly different matrix. -/
theorem finish_sens {M M' : Mat3} {W W' : Vec3} {e β : ℝ} (hM : IsRotation M') (h : Small (M - M') e) (he : e ≤ 1e-13) (hW : len (fun i => W i - W' i) ≤ β) (hβ : β ≤ 1e-13) (h1 : 0.9985 ≤ len W') (h2 : len W' ≤ 1.001) :
    len (fun i => dir (mapFinish M W).1 (mapFinish M W).2 i - dir (mapFinish M' W').1 (mapFinish M' W').2 i) ≤ 1.002 * β + 1.003 * e := by
  have e0 := h.nonneg
  have b0 := (len_nonneg _).trans hW
  have lw := abs_le.1 ((len_rev_tri W W').trans hW)
  have t1 : len (fun i => (M *ᵥ W) i - (M' *ᵥ W) i) ≤ e * 1.0011 := by
    have := h W
    rw [Matrix.sub_mulVec] at this
    exact le_trans this (mul_le_mul_of_nonneg_left (by norm_num at *; linarith) e0)
  have t2 : len (fun i => (M' *ᵥ W) i - (M' *ᵥ W') i) ≤ β := by
    have : (fun i => (M' *ᵥ W) i - (M' *ᵥ W') i) = M' *ᵥ (fun i => W i - W' i) := (Matrix.mulVec_sub _ W W').symm
    rw [this, rot_len hM]; exact hW
  have t3 := len_tri (M *ᵥ W) (M' *ᵥ W) (M' *ᵥ W')
  have := unit_sens (finish_dir M W) (finish_dir M' W') (t3.trans (add_le_add t1 t2)) (by norm_num at *; linarith) (by rw [rot_len hM]; exact h1)
  refine this.trans ?_
  norm_num at *; linarith

/-- A matrix close to a rotation is nearly orthogonal. -/
theorem near_orth2 {M Q : Mat3} {e : ℝ} (hQ : IsRotation Q) (h : Small (M - Q) e) (he : e ≤ 1e-12) (i j : Fin 3) :
    |(M.transpose * M) i j - (1 : Mat3) i j| ≤ 1e-10 ∧ |(M * M.transpose) i j - (1 : Mat3) i j| ≤ 1e-10 := by
  have e0 := h.nonneg
  have h' : Small (Q - M) e := by rw [← neg_sub]; exact h.neg
  have hb : e + (1 + e) * e ≤ 1e-10 := by nlinarith
  constructor
  · have p := Small.prod (rot_transpose hQ) hQ h'.transp h'
    rw [rot_trans_mul hQ] at p
    have := p.entry i j
    rw [Matrix.sub_apply, abs_sub_comm] at this
    exact this.trans hb
  · have p := Small.prod hQ (rot_transpose hQ) h' h'.transp
    rw [hQ.1] at p
    have := p.entry i j
    rw [Matrix.sub_apply, abs_sub_comm] at this
    exact this.trans hb

end Pal
