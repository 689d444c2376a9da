import Verif.Lemmas.MapSens2

/-!
# palAmpqk with two nearby parameter blocks
-/

namespace Pal
open Real Pal.Spec Pal.Props Matrix

theorem pn_smul {a : Vec3} (h : 0 < len a) : (fun i => len a * (eraPn a).2 i) = a := by
  rw [pn_val h.ne']; funext i; field_simp

/-- A quotient (1 + s)/k. -/
theorem one_add_div_diff {s s' k k' σ : ℝ} (hk : 0.99999998 ≤ k) (hk' : 0.99999998 ≤ k') (hs' : |s'| ≤ 1.3e-4) (hs : |s - s'| ≤ σ) (hkk : |k - k'| ≤ 1.8e-16) :
    |(1 + s) / k - (1 + s') / k'| ≤ 1.0000001 * σ + 1.82e-16 := by
  have k0 : 0 < k := lt_of_lt_of_le (by norm_num) hk
  have k0' : 0 < k' := lt_of_lt_of_le (by norm_num) hk'
  have σ0 := (abs_nonneg _).trans hs
  have e : (1 + s) / k - (1 + s') / k' = (s - s') / k + (1 + s') * (k' - k) / (k * k') := by field_simp; ring
  rw [e]
  have c1 : |(s - s') / k| ≤ 1.0000001 * σ := by
    rw [abs_div, abs_of_pos k0, div_le_iff₀ k0]
    have : 1.0000001 * σ * 0.99999998 ≤ 1.0000001 * σ * k := mul_le_mul_of_nonneg_left hk (by positivity)
    norm_num at *; linarith
  have c2 : |(1 + s') * (k' - k) / (k * k')| ≤ 1.82e-16 := by
    have kk : (0.99999998 : ℝ) * 0.99999998 ≤ k * k' := mul_le_mul hk hk' (by norm_num) k0.le
    rw [abs_div, abs_mul, abs_of_pos (mul_pos k0 k0'), abs_sub_comm, div_le_iff₀ (mul_pos k0 k0')]
    have a := abs_add_le 1 s'
    rw [abs_one] at a
    have b := mul_le_mul (by norm_num at *; linarith : |1 + s'| ≤ 1.00013) hkk (abs_nonneg _) (by norm_num)
    norm_num at *; linarith
  exact (abs_add_le _ _).trans (add_le_add c1 c2)

namespace BlockClose
variable {o x : Amprms} {m : ℝ} (h : BlockClose o x m)
include h

/-- One pass of the aberration loop. -/
theorem aberr {P2 P2' P1 P1' : Vec3} {e2 e1 : ℝ} (h2 : len (fun i => P2 i - P2' i) ≤ e2) (h1 : len (fun i => P1 i - P1' i) ≤ e1) (he2 : e2 ≤ 5e-13) (he1 : e1 ≤ 6e-13) (l2 : len P2' = 1) (l1 : len P1' ≤ 1.1) :
    len (fun i => ampAberr o P2 P1 i - ampAberr x P2' P1' i) ≤ 1.0018 * e2 + 1.2e-4 * e1 + 2e-16 := by
  have e20 := (len_nonneg _).trans h2
  have e10 := (len_nonneg _).trans h1
  have lv := h.hv
  have lv' := h.abvx
  have ha := h.ha
  have ha' := h.ab1x
  have ak1 := h.ab1x'
  have a0 : 0 < o.ab1 := lt_of_lt_of_le (by norm_num) ha
  have a0' : 0 < x.ab1 := lt_of_lt_of_le (by norm_num) ha'
  have hs := dot_diff h1 h.abv lv l1
  have s2 : |dot P1' x.abv| ≤ 1.2e-4 := (dot_le_len P1' x.abv).trans ((mul_le_mul l1 lv' (len_nonneg _) (by norm_num)).trans (by norm_num))
  have ex : ampAberr x P2' P1' = (eraPn (fun i => ((1 + dot P1' x.abv) * P2' i - (1 + dot P1' x.abv / (x.ab1 + 1)) * x.abv i) / x.ab1)).2 := by
    unfold ampAberr; dsimp only; rw [eraPdp_eq]
  have eo : ampAberr o P2 P1 = (eraPn (fun i => ((1 + dot P1 o.abv) * P2 i - (1 + dot P1 o.abv / (o.ab1 + 1)) * o.abv i) / o.ab1)).2 := by
    unfold ampAberr; dsimp only; rw [eraPdp_eq]
  rw [ex, eo]
  have hkk := h.ab1
  have hvv := h.abv
  generalize dot P1 o.abv = s at *
  generalize dot P1' x.abv = s' at *
  generalize o.ab1 = k at *
  generalize x.ab1 = k' at *
  generalize o.abv = v at *
  generalize x.abv = v' at *
  have hs' : |s - s'| ≤ 1.08e-4 * e1 + 2.8e-18 := by norm_num at *; linarith
  have p1 : 0 < k + 1 := by linarith
  have p2 : 0 < k' + 1 := by linarith
  have q : |s / (k + 1) - s' / (k' + 1)| ≤ 1e-4 * e1 + 1e-17 := by
    have e2 : s / (k + 1) - s' / (k' + 1) = (s - s') / (k + 1) + s' * (k' - k) / ((k + 1) * (k' + 1)) := by field_simp; ring
    rw [e2]
    have c1 : |(s - s') / (k + 1)| ≤ 0.6e-4 * e1 + 2e-18 := by
      rw [abs_div, abs_of_pos p1, div_le_iff₀ p1]
      have : (0.6e-4 * e1 + 2e-18) * 1.9 ≤ (0.6e-4 * e1 + 2e-18) * (k + 1) := mul_le_mul_of_nonneg_left (by norm_num at *; linarith) (by positivity)
      norm_num at *; linarith
    have c2 : |s' * (k' - k) / ((k + 1) * (k' + 1))| ≤ 1.2e-4 * 1.8e-16 / (1.999 * 1.999) := by
      rw [abs_div, abs_mul, abs_of_pos (mul_pos p1 p2), abs_sub_comm]
      have : (1.999 : ℝ) * 1.999 ≤ (k + 1) * (k' + 1) := mul_le_mul (by norm_num at *; linarith) (by norm_num at *; linarith) (by norm_num) p1.le
      gcongr
    have := abs_add_le ((s - s') / (k + 1)) (s' * (k' - k) / ((k + 1) * (k' + 1)))
    norm_num at *; linarith
  have q2 : |s' / (k' + 1)| ≤ 1e-4 := by rw [abs_div, abs_of_pos p2, div_le_iff₀ p2]; norm_num at *; linarith
  have D1 := one_add_div_diff ha (ha'.trans' (by norm_num)) (s2.trans (by norm_num)) hs' hkk
  have D2 := one_add_div_diff ha (ha'.trans' (by norm_num)) (q2.trans (by norm_num)) q hkk
  generalize s / (k + 1) = z at *
  generalize s' / (k' + 1) = z' at *
  have B : ∀ t : ℝ, |t| ≤ 1.3e-4 → |(1 + t) / k| ≤ 1.00014 := fun t ht => by
    rw [abs_div, abs_of_pos a0, div_le_iff₀ a0]
    have := abs_add_le 1 t
    rw [abs_one] at this
    norm_num at *; linarith
  have B' : ∀ t : ℝ, |t| ≤ 1.3e-4 → |(1 + t) / k'| ≤ 1.00014 := fun t ht => by
    rw [abs_div, abs_of_pos a0', div_le_iff₀ a0']
    have := abs_add_le 1 t
    rw [abs_one] at this
    norm_num at *; linarith
  have bs : |s| ≤ 1.3e-4 := by
    have := abs_sub_abs_le_abs_sub s s'
    norm_num at *; linarith
  have bz : |z| ≤ 1.3e-4 := by
    have := abs_sub_abs_le_abs_sub z z'
    norm_num at *; linarith
  have near : len (fun i => ((1 + s) * P2 i - (1 + z) * v i) / k - ((1 + s') * P2' i - (1 + z') * v' i) / k') ≤ 1.00015 * e2 + 1.1e-4 * e1 + 1.9e-16 := by
    have e : (fun i => ((1 + s) * P2 i - (1 + z) * v i) / k - ((1 + s') * P2' i - (1 + z') * v' i) / k') = fun i => (1 + s) / k * (P2 i - P2' i) + ((1 + s) / k - (1 + s') / k') * P2' i + (-((1 + z) / k)) * (v i - v' i) + (-((1 + z) / k - (1 + z') / k')) * v' i := by
      funext i; ring
    rw [e]
    refine (len_sum4 (fun i => (1 + s) / k * (P2 i - P2' i)) (fun i => ((1 + s) / k - (1 + s') / k') * P2' i) (fun i => (-((1 + z) / k)) * (v i - v' i)) (fun i => (-((1 + z) / k - (1 + z') / k')) * v' i)).trans ?_
    rw [len_smul ((1 + s) / k) (fun i => P2 i - P2' i), len_smul ((1 + s) / k - (1 + s') / k'), len_smul (-((1 + z) / k)) (fun i => v i - v' i), len_smul (-((1 + z) / k - (1 + z') / k')), abs_neg, abs_neg, l2]
    have r1 := mul_le_mul (B s bs) h2 (len_nonneg _) (by norm_num)
    have r3 := mul_le_mul (B z bz) hvv (len_nonneg _) (by norm_num)
    have r4 := mul_le_mul D2 lv' (len_nonneg _) (by positivity)
    have r5 : 1.0000001 * (1e-4 * e1 + 1e-17) + 1.82e-16 ≤ 1.01e-4 * e1 + 2e-16 := by norm_num at *; linarith
    have r6 := mul_le_mul_of_nonneg_right r5 (show (0 : ℝ) ≤ 1.07e-4 by norm_num)
    clear e B B' hs q
    norm_num at *; linarith
  have big : 0.9985 ≤ len (fun i => ((1 + s') * P2' i - (1 + z') * v' i) / k') := by
    have e : (fun i => ((1 + s') * P2' i - (1 + z') * v' i) / k') = fun i => (1 + s') / k' * P2' i + (-((1 + z') / k')) * v' i := by funext i; ring
    have r := len_rev_tri (fun i => ((1 + s') * P2' i - (1 + z') * v' i) / k') (fun i => (1 + s') / k' * P2' i)
    rw [e] at r ⊢
    have e' : (fun i => ((1 + s') * P2' i - (1 + z') * v' i) / k' - (1 + s') / k' * P2' i) = fun i => (-((1 + z') / k')) * v' i := by funext i; ring
    rw [e'] at r
    rw [len_smul ((1 + s') / k'), len_smul (-((1 + z') / k')), abs_neg, l2] at r
    have r1 := mul_le_mul (B' z' (q2.trans (by norm_num))) lv' (len_nonneg _) (by norm_num)
    have r2 := (abs_le.1 r).1
    have r3 : 0.999 ≤ |(1 + s') / k'| := by
      have hs1 := (abs_le.1 s2).1
      have : 0.999 ≤ (1 + s') / k' := by
        rw [le_div_iff₀ a0']
        norm_num at *; linarith
      exact this.trans (le_abs_self _)
    clear e B B' hs q near
    norm_num at *; linarith
  have lb : 0 < len (fun i => ((1 + s') * P2' i - (1 + z') * v' i) / k') := lt_of_lt_of_le (by norm_num) big
  have la : 0 < len (fun i => ((1 + s) * P2 i - (1 + z) * v i) / k) := by
    have := (abs_le.1 ((len_rev_tri _ _).trans near)).1
    clear B B' hs q near
    norm_num at *; linarith
  have := unit_sens (pn_smul la) (pn_smul lb) near (by norm_num at *; linarith) big
  refine this.trans ?_
  clear B B' hs q near this
  norm_num at *; linarith

/-- One pass of the deflection loop. -/
theorem defl {P1 P1' P P' : Vec3} {e1 a : ℝ} (h1 : len (fun i => P1 i - P1' i) ≤ e1) (hP : len (fun i => P i - P' i) ≤ a) (he1 : e1 ≤ 5e-13) (ha : a ≤ 6e-13) (l1 : len P1 = 1) (l1' : len P1' = 1) (lP : len P = 1) (lP' : len P' = 1)
    (hd : 1e-3 ≤ 1 + dot P o.ehn) (hd' : 1e-3 ≤ 1 + dot P' x.ehn) :
    len (fun i => ampDefl o P1 P i - ampDefl x P1' P' i) ≤ 1.0018 * e1 + 0.0427 * a + 5.5e-16 := by
  have e10 := (len_nonneg _).trans h1
  have a0 := (len_nonneg _).trans hP
  have hE := abs_le.1 h.he
  have lE : len o.ehn ≤ 1.000001 := by norm_num at *; linarith
  have hc := dot_diff hP h.ehn lE lP'.le
  have lE' := h.ehnx
  have c1 : |dot P o.ehn| ≤ 1.000001 := by
    have := dot_le_len P o.ehn
    rw [lP, one_mul] at this
    exact this.trans lE
  have c1' : |dot P' x.ehn| ≤ 1 := by
    have := dot_le_len P' x.ehn
    rw [lP', one_mul, lE'] at this
    exact this
  have ex : ampDefl x P1' P' = (eraPn (fun i => ((1 + dot P' x.ehn) * P1' i - x.gr2e * x.ehn i) / (1 + dot P' x.ehn - x.gr2e * dot P' x.ehn))).2 := by
    unfold ampDefl; dsimp only; rw [eraPdp_eq]
  have eo : ampDefl o P1 P = (eraPn (fun i => ((1 + dot P o.ehn) * P1 i - o.gr2e * o.ehn i) / (1 + dot P o.ehn - o.gr2e * dot P o.ehn))).2 := by
    unfold ampDefl; dsimp only; rw [eraPdp_eq]
  rw [ex, eo]
  obtain ⟨g0, g1⟩ := h.hg
  have g0' : 0 ≤ x.gr2e := le_trans (by norm_num) h.grx
  have g1' : x.gr2e ≤ 2.1e-8 := h.grx'.trans (by norm_num)
  have gg := h.gr
  have EE := h.ehn
  clear ex eo hE
  generalize dot P o.ehn = c at *
  generalize dot P' x.ehn = c' at *
  generalize o.gr2e = g at *
  generalize x.gr2e = g' at *
  generalize o.ehn = E at *
  generalize x.ehn = E' at *
  have gc : ∀ {u t : ℝ}, 0 ≤ u → u ≤ 2.1e-8 → |t| ≤ 1.000001 → |u * t| ≤ 2.2e-8 := fun {u t} hu hu1 ht => by
    rw [abs_mul, abs_of_nonneg hu]
    exact (mul_le_mul hu1 ht (abs_nonneg _) (by norm_num)).trans (by norm_num)
  have gc1 := abs_le.1 (gc g0 g1 c1)
  have gc1' := abs_le.1 (gc g0' g1' (c1'.trans (by norm_num)))
  have W : 0.9999e-3 ≤ 1 + c - g * c := by norm_num at *; linarith
  have W' : 0.9999e-3 ≤ 1 + c' - g' * c' := by norm_num at *; linarith
  have hW : |(1 + c - g * c) - (1 + c' - g' * c')| ≤ |c - c'| + 3e-22 := by
    have e : (1 + c - g * c) - (1 + c' - g' * c') = (1 - g) * (c - c') + (-(g - g')) * c' := by ring
    rw [e]
    refine (abs_add_le _ _).trans ?_
    rw [abs_mul, abs_mul, abs_neg]
    have r1 : |1 - g| * |c - c'| ≤ 1 * |c - c'| := mul_le_mul_of_nonneg_right (by rw [abs_le]; constructor <;> norm_num at * <;> linarith) (abs_nonneg _)
    have r2 := mul_le_mul gg c1' (abs_nonneg _) (by norm_num)
    linarith
  have cc : |c - c'| ≤ 1.000001 * a + 1.25e-14 := by linarith
  have f0 : |g / (1 + c - g * c)| ≤ 2.2e-5 := by
    have w0 : 0 < 1 + c - g * c := lt_of_lt_of_le (by norm_num) W
    rw [abs_of_nonneg (div_nonneg g0 w0.le), div_le_iff₀ w0]; norm_num at *; linarith
  have f0' : |g' / (1 + c' - g' * c')| ≤ 2.2e-5 := by
    have w0 : 0 < 1 + c' - g' * c' := lt_of_lt_of_le (by norm_num) W'
    rw [abs_of_nonneg (div_nonneg g0' w0.le), div_le_iff₀ w0]; norm_num at *; linarith
  have eN : ∀ {u t : ℝ} {p q : ℝ}, 1 + t - u * t ≠ 0 → ((1 + t) * p - u * q) / (1 + t - u * t) = p + u / (1 + t - u * t) * (t * p - q) := fun {u t p q} hn => by
    rw [div_eq_iff hn]; have := div_mul_cancel₀ u hn; linear_combination (-(t * p - q)) * this
  have n0 : 1 + c - g * c ≠ 0 := (lt_of_lt_of_le (by norm_num) W).ne'
  have n0' : 1 + c' - g' * c' ≠ 0 := (lt_of_lt_of_le (by norm_num) W').ne'
  have ff : |g / (1 + c - g * c) - g' / (1 + c' - g' * c')| ≤ 0.02101 * (1.000001 * a + 1.25e-14) + 4e-19 := by
    generalize 1 + c - g * c = w at *
    generalize 1 + c' - g' * c' = w' at *
    have w0 : 0 < w := lt_of_lt_of_le (by norm_num) W
    have w0' : 0 < w' := lt_of_lt_of_le (by norm_num) W'
    have e : g / w - g' / w' = (g - g') / w + g' * -(w - w') / (w * w') := by field_simp; ring
    rw [e]
    have t1 : |(g - g') / w| ≤ 3.1e-19 := by
      rw [abs_div, abs_of_pos w0, div_le_iff₀ w0]; norm_num at *; linarith
    have ww : (0.9999e-3 : ℝ) * 0.9999e-3 ≤ w * w' := mul_le_mul W W' (by norm_num) w0.le
    have t2 : |g' * -(w - w') / (w * w')| ≤ 0.02101 * (1.000001 * a + 1.25e-14 + 3e-22) := by
      rw [abs_div, abs_mul, abs_neg, abs_of_nonneg g0', abs_of_pos (mul_pos w0 w0'), div_le_iff₀ (mul_pos w0 w0')]
      have r1 := mul_le_mul g1' (hW.trans (add_le_add_left cc _)) (abs_nonneg _) (by norm_num)
      have r2 : 0.02101 * (1.000001 * a + 1.25e-14 + 3e-22) * (0.9999e-3 * 0.9999e-3) ≤ 0.02101 * (1.000001 * a + 1.25e-14 + 3e-22) * (w * w') := mul_le_mul_of_nonneg_left ww (by positivity)
      refine r1.trans (le_trans ?_ r2)
      have y0 : 0 ≤ 1.000001 * a + 1.25e-14 + 3e-22 := by positivity
      generalize 1.000001 * a + 1.25e-14 + 3e-22 = y at *
      norm_num at *; linarith
    have := abs_add_le ((g - g') / w) (g' * -(w - w') / (w * w'))
    norm_num at *; linarith
  have near : len (fun i => ((1 + c) * P1 i - g * E i) / (1 + c - g * c) - ((1 + c') * P1' i - g' * E' i) / (1 + c' - g' * c')) ≤ 1.0001 * e1 + 0.0421 * a + 5.3e-16 := by
    have e : (fun i => ((1 + c) * P1 i - g * E i) / (1 + c - g * c) - ((1 + c') * P1' i - g' * E' i) / (1 + c' - g' * c')) =
        fun i => (P1 i - P1' i) + (g / (1 + c - g * c) - g' / (1 + c' - g' * c')) * (c' * P1' i + (-1) * E' i) + g / (1 + c - g * c) * ((c - c') * P1 i + c' * (P1 i - P1' i) + (-1) * (E i - E' i)) := by
      funext i; rw [eN n0, eN n0']; ring
    rw [e]
    generalize g / (1 + c - g * c) = f at *
    generalize g' / (1 + c' - g' * c') = f' at *
    refine (len_sum3 (fun i => P1 i - P1' i) (fun i => (f - f') * (c' * P1' i + (-1) * E' i)) (fun i => f * ((c - c') * P1 i + c' * (P1 i - P1' i) + (-1) * (E i - E' i)))).trans ?_
    rw [len_smul (f - f') (fun i => c' * P1' i + (-1) * E' i), len_smul f (fun i => (c - c') * P1 i + c' * (P1 i - P1' i) + (-1) * (E i - E' i))]
    have m1 : len (fun i => c' * P1' i + (-1) * E' i) ≤ 2 := by
      refine (len_add_le (fun i => c' * P1' i) (fun i => (-1) * E' i)).trans ?_
      rw [len_smul, len_smul, l1', lE', abs_neg, abs_one]; linarith
    have m2 : len (fun i => (c - c') * P1 i + c' * (P1 i - P1' i) + (-1) * (E i - E' i)) ≤ 1.000001 * a + 2.5e-14 + e1 := by
      refine (len_sum3 (fun i => (c - c') * P1 i) (fun i => c' * (P1 i - P1' i)) (fun i => (-1) * (E i - E' i))).trans ?_
      rw [len_smul, len_smul c' (fun i => P1 i - P1' i), len_smul (-1) (fun i => E i - E' i), l1, abs_neg, abs_one]
      have := mul_le_mul c1' h1 (len_nonneg _) zero_le_one
      norm_num at *; linarith
    have r1 := mul_le_mul ff m1 (len_nonneg _) (by positivity)
    have r2 := mul_le_mul f0 m2 (len_nonneg _) (by norm_num)
    clear e eN gc ff f0 f0' hW cc
    norm_num at *; linarith
  have big : 0.9985 ≤ len (fun i => ((1 + c') * P1' i - g' * E' i) / (1 + c' - g' * c')) := by
    have e : (fun i => ((1 + c') * P1' i - g' * E' i) / (1 + c' - g' * c') - P1' i) = fun i => g' / (1 + c' - g' * c') * (c' * P1' i + (-1) * E' i) := by
      funext i; rw [eN n0']; ring
    have r := len_rev_tri (fun i => ((1 + c') * P1' i - g' * E' i) / (1 + c' - g' * c')) P1'
    rw [e, l1'] at r
    have m1 : len (fun i => c' * P1' i + (-1) * E' i) ≤ 2 := by
      refine (len_add_le (fun i => c' * P1' i) (fun i => (-1) * E' i)).trans ?_
      rw [len_smul, len_smul, l1', lE', abs_neg, abs_one]; linarith
    rw [len_smul (g' / (1 + c' - g' * c')) (fun i => c' * P1' i + (-1) * E' i)] at r
    have r1 := mul_le_mul f0' m1 (len_nonneg _) (by norm_num)
    have r2 := (abs_le.1 r).1
    clear e eN gc ff f0 f0' hW cc near
    norm_num at *; linarith
  have lb : 0 < len (fun i => ((1 + c') * P1' i - g' * E' i) / (1 + c' - g' * c')) := lt_of_lt_of_le (by norm_num) big
  have la : 0 < len (fun i => ((1 + c) * P1 i - g * E i) / (1 + c - g * c)) := by
    have := (abs_le.1 ((len_rev_tri _ _).trans near)).1
    clear eN gc ff f0 f0' hW cc near
    norm_num at *; linarith
  have := unit_sens (pn_smul la) (pn_smul lb) near (by norm_num at *; linarith) big
  refine this.trans ?_
  clear eN gc ff f0 f0' hW cc near this
  norm_num at *; linarith

end BlockClose

/-- palAmpqk in exact arithmetic, as a unit vector. -/
theorem ampqk_vec {am : Amprms} (ra da : ℝ) (h : len ((ampDefl am ((ampAberr am (am.mat.transpose *ᵥ dir ra da))^[2] (am.mat.transpose *ᵥ dir ra da)))^[5] ((ampAberr am (am.mat.transpose *ᵥ dir ra da))^[2] (am.mat.transpose *ᵥ dir ra da))) = 1) :
    dir (palAmpqk ra da am).1 (palAmpqk ra da am).2 = (ampDefl am ((ampAberr am (am.mat.transpose *ᵥ dir ra da))^[2] (am.mat.transpose *ᵥ dir ra da)))^[5] ((ampAberr am (am.mat.transpose *ᵥ dir ra da))^[2] (am.mat.transpose *ᵥ dir ra da)) := by
  have ex : palAmpqk ra da am = mapFinish 1 ((ampDefl am ((ampAberr am (am.mat.transpose *ᵥ dir ra da))^[2] (am.mat.transpose *ᵥ dir ra da)))^[5] ((ampAberr am (am.mat.transpose *ᵥ dir ra da))^[2] (am.mat.transpose *ᵥ dir ra da))) := by
    unfold palAmpqk mapFinish
    dsimp only
    rw [eraS2c_eq, eraTrxp_eq, eraRxp_eq, one_mulVec]
  rw [ex]
  generalize (ampDefl am ((ampAberr am (am.mat.transpose *ᵥ dir ra da))^[2] (am.mat.transpose *ᵥ dir ra da)))^[5] ((ampAberr am (am.mat.transpose *ᵥ dir ra da))^[2] (am.mat.transpose *ᵥ dir ra da)) = V at *
  have hu := finish_dir 1 V
  rw [one_mulVec, h] at hu
  simpa using hu

/-- The vectors of palAmpqk: unit vectors, close to the apparent place in the mean frame. -/
theorem amp_near {fl : ℝ → ℝ} (R : Rounding fl) {am : Amprms} (he : |len am.ehn - 1| ≤ 1e-9) (hg0 : 0 ≤ am.gr2e) (hg : am.gr2e ≤ 2.1e-8) (hv : len am.abv ≤ 1.1e-4) (ha : 0.99999998 ≤ am.ab1) (ha' : am.ab1 ≤ 1) {P2 : Vec3} (hl : |len P2 - 1| ≤ 2e-9)
    (hs : -0.998 ≤ dot P2 am.ehn) :
    len (ampAberr am P2 P2) = 1 ∧ len (ampAberr am P2 (ampAberr am P2 P2)) = 1 ∧
    ∀ n : ℕ, len ((ampDefl am (ampAberr am P2 (ampAberr am P2 P2)))^[n] (ampAberr am P2 (ampAberr am P2 P2))) = 1 ∧ 1e-3 ≤ 1 + dot ((ampDefl am (ampAberr am P2 (ampAberr am P2 P2)))^[n] (ampAberr am P2 (ampAberr am P2 P2))) am.ehn := by
  have l2 := abs_le.1 hl
  have z : ∀ P : Vec3, ∀ i, |P i - P i| ≤ 0 := fun P i => noerr _
  obtain ⟨-, b2, b3⟩ := flAmpAberr_err R hv ha ha' (z P2) (by norm_num) hl (fun i => (z P2 i).trans (by norm_num)) (by norm_num at *; linarith)
  obtain ⟨-, c2, c3⟩ := flAmpAberr_err R hv ha ha' (z P2) (by norm_num) hl (fun i => (z (ampAberr am P2 P2) i).trans (by norm_num)) (b2.le.trans (by norm_num))
  refine ⟨b2, c2, ?_⟩
  generalize ampAberr am P2 (ampAberr am P2 P2) = P1 at *
  have lE : len am.ehn ≤ 1.001 := by have := abs_le.1 he; norm_num at *; linarith
  have dd : ∀ (a b : Vec3) (r : ℝ), len (fun i => a i - b i) ≤ r → dot b am.ehn - 1.001 * r ≤ dot a am.ehn := fun a b r h => by
    have k := (abs_le.1 (dot_le_len (fun i => a i - b i) am.ehn)).1
    have k2 : len (fun i => a i - b i) * len am.ehn ≤ r * 1.001 := mul_le_mul h lE (len_nonneg _) ((len_nonneg _).trans h)
    have e : dot (fun i => a i - b i) am.ehn = dot a am.ehn - dot b am.ehn := by rw [dot_eq, dot_eq, dot_eq]; ring
    linarith
  have hP1 := dd _ _ _ c3
  have it : ∀ n : ℕ, len ((ampDefl am P1)^[n] P1) = 1 ∧ len (fun i => (ampDefl am P1)^[n] P1 i - P1 i) ≤ 1e-4 := by
    intro n
    induction n with
    | zero => exact ⟨c2, by simp [len]; norm_num⟩
    | succ n ih =>
      obtain ⟨i2, i3⟩ := ih
      have hX := dd _ _ _ i3
      rw [Function.iterate_succ']
      obtain ⟨-, r2, r3⟩ := flAmpDefl_err R he hg0 hg (z P1) (by norm_num) c2 (z ((ampDefl am P1)^[n] P1)) (by norm_num) i2 (by norm_num at *; linarith)
      exact ⟨r2, r3⟩
  intro n
  obtain ⟨a, b⟩ := it n
  have hX := dd _ _ _ b
  exact ⟨a, by norm_num at *; linarith⟩

/-- The vectors of palAmpqk with the two blocks and two apparent places. -/
theorem BlockClose.amp2 {fl : ℝ → ℝ} (R : Rounding fl) {o x : Amprms} {m : ℝ} (h : BlockClose o x m) {P2 P2' : Vec3} {e : ℝ} (d2 : len (fun i => P2 i - P2' i) ≤ e) (he : e ≤ 2e-13) (l2' : len P2' = 1)
    (hs2 : -0.998 ≤ dot P2 o.ehn) (hs : -0.998 ≤ dot P2' x.ehn) :
    len ((ampDefl o ((ampAberr o P2)^[2] P2))^[5] ((ampAberr o P2)^[2] P2)) = 1 ∧ len ((ampDefl x ((ampAberr x P2')^[2] P2'))^[5] ((ampAberr x P2')^[2] P2')) = 1 ∧
    len (fun i => (ampDefl o ((ampAberr o P2)^[2] P2))^[5] ((ampAberr o P2)^[2] P2) i - (ampDefl x ((ampAberr x P2')^[2] P2'))^[5] ((ampAberr x P2')^[2] P2') i) ≤ 1.05 * e + 8.5e-16 := by
  have e0 := (len_nonneg _).trans d2
  have l2 : |len P2 - 1| ≤ 2e-9 := by
    have := (len_rev_tri _ _).trans d2
    rw [l2'] at this
    exact this.trans (he.trans (by norm_num))
  obtain ⟨a1, a2, a3⟩ := amp_near R h.he h.hg.1 h.hg.2 (h.hv.trans (by norm_num)) h.ha h.ab1o l2 hs2
  obtain ⟨b1, b2, b3⟩ := amp_near R (by rw [h.ehnx]; norm_num) (le_trans (by norm_num) h.grx) (h.grx'.trans (by norm_num)) (h.abvx.trans (by norm_num)) (h.ab1x.trans' (by norm_num)) h.ab1x' (by rw [l2']; norm_num) hs
  have i2 : ∀ (f : Vec3 → Vec3) (v : Vec3), f^[2] v = f (f v) := fun f v => rfl
  rw [i2, i2]
  refine ⟨(a3 5).1, (b3 5).1, ?_⟩
  have s1 := h.aberr d2 d2 (by norm_num at *; linarith) (by norm_num at *; linarith) l2' (by rw [l2']; norm_num)
  have s2 := h.aberr d2 (s1.trans (show _ ≤ 1.003 * e + 2e-16 by norm_num at *; linarith)) (by norm_num at *; linarith) (by norm_num at *; linarith) l2' (by rw [b1]; norm_num)
  have s3 : len (fun i => ampAberr o P2 (ampAberr o P2 P2) i - ampAberr x P2' (ampAberr x P2' P2') i) ≤ 1.0022 * e + 2.1e-16 := s2.trans (by norm_num at *; linarith)
  clear s1 s2 d2
  generalize ampAberr o P2 (ampAberr o P2 P2) = P1 at *
  generalize ampAberr x P2' (ampAberr x P2' P2') = P1' at *
  have it : ∀ n : ℕ, len (fun i => (ampDefl o P1)^[n] P1 i - (ampDefl x P1')^[n] P1' i) ≤ 1.05 * e + 8.5e-16 := by
    intro n
    induction n with
    | zero => exact s3.trans (by norm_num at *; linarith)
    | succ n ih =>
      rw [Function.iterate_succ', Function.iterate_succ']
      refine (h.defl s3 ih (by norm_num at *; linarith) (by norm_num at *; linarith) a2 b2 (a3 n).1 (b3 n).1 (a3 n).2 (b3 n).2).trans ?_
      norm_num at *; linarith
  exact it 5

/-- palAmpqk with the two blocks. -/
theorem BlockClose.ampqk {fl : ℝ → ℝ} (R : Rounding fl) {o x : Amprms} {m : ℝ} (h : BlockClose o x m) (ra da : ℝ) (hs : -0.9979 ≤ dot (x.mat.transpose *ᵥ dir ra da) x.ehn) :
    -0.998 ≤ dot (o.mat.transpose *ᵥ dir ra da) o.ehn ∧
    len (fun i => dir (palAmpqk ra da o).1 (palAmpqk ra da o).2 i - dir (palAmpqk ra da x).1 (palAmpqk ra da x).2 i) ≤ 1.05 * m + 8.5e-16 := by
  have m0 := h.mat.nonneg
  have hm := h.m1
  have rt := rot_transpose h.rot
  have l2' : len (x.mat.transpose *ᵥ dir ra da) = 1 := by rw [rot_len rt, len_dir]
  have d2 : len (fun i => (o.mat.transpose *ᵥ dir ra da) i - (x.mat.transpose *ᵥ dir ra da) i) ≤ m := by
    have := small_mulVec h.mat.transp (dir ra da)
    rwa [len_dir, mul_one] at this
  have e1 := dot_diff d2 h.ehn (A := 1.001) (by have := abs_le.1 h.he; norm_num at *; linarith) l2'.le
  have hs2 : -0.998 ≤ dot (o.mat.transpose *ᵥ dir ra da) o.ehn := by
    have := (abs_le.1 e1).1
    norm_num at *; linarith
  refine ⟨hs2, ?_⟩
  obtain ⟨a, b, c⟩ := h.amp2 R d2 (hm.trans (by norm_num)) l2' hs2 (hs.trans' (by norm_num))
  rw [ampqk_vec ra da a, ampqk_vec ra da b]
  exact c

/-- palAmpqk with one block and two places. -/
theorem BlockClose.ampqk_place {fl : ℝ → ℝ} (R : Rounding fl) {o x : Amprms} {m : ℝ} (h : BlockClose o x m) {ra da ra' da' e : ℝ} (hd : len (fun i => dir ra da i - dir ra' da' i) ≤ e) (he : e ≤ 2e-13)
    (hs : -0.997 ≤ dot (x.mat.transpose *ᵥ dir ra' da') x.ehn) :
    -0.9979 ≤ dot (x.mat.transpose *ᵥ dir ra da) x.ehn ∧
    len (fun i => dir (palAmpqk ra da x).1 (palAmpqk ra da x).2 i - dir (palAmpqk ra' da' x).1 (palAmpqk ra' da' x).2 i) ≤ 1.05 * e + 8.5e-16 := by
  have z : ∀ v : Vec3, len (fun i => v i - v i) = 0 := fun v => by simp [len]
  have hx : BlockClose x x 0 := ⟨by simp; norm_num, by rw [z]; norm_num, by rw [z]; norm_num, by simp; norm_num, by rw [z]; norm_num, by simp; norm_num, by rw [sub_self]; intro v; simp [len], h.ab1x', h.ab1x, h.ab1x', h.ehnx, h.grx, h.grx', h.abvx, h.ebx, h.rot, by norm_num⟩
  have rt := rot_transpose h.rot
  have l2' : len (x.mat.transpose *ᵥ dir ra' da') = 1 := by rw [rot_len rt, len_dir]
  have d2 : len (fun i => (x.mat.transpose *ᵥ dir ra da) i - (x.mat.transpose *ᵥ dir ra' da') i) ≤ e := by
    have : (fun i => (x.mat.transpose *ᵥ dir ra da) i - (x.mat.transpose *ᵥ dir ra' da') i) = x.mat.transpose *ᵥ (fun i => dir ra da i - dir ra' da' i) := (Matrix.mulVec_sub x.mat.transpose (dir ra da) (dir ra' da')).symm
    rw [this, rot_len rt]; exact hd
  have e1 := dot_diff d2 hx.ehn (A := 1.001) (by rw [h.ehnx]; norm_num) l2'.le
  have hs2 : -0.9979 ≤ dot (x.mat.transpose *ᵥ dir ra da) x.ehn := by
    have := (abs_le.1 e1).1
    norm_num at *; linarith
  refine ⟨hs2, ?_⟩
  obtain ⟨a, b, c⟩ := hx.amp2 R d2 he l2' (hs2.trans' (by norm_num)) (hs.trans' (by norm_num))
  rw [ampqk_vec ra da a, ampqk_vec ra' da' b]
  exact c

/-- The apparent place, turned back to the mean frame, is within 4e-4 of the mean place. -/
theorem BlockClose.place_near {o x : Amprms} {m : ℝ} (h : BlockClose o x m) (rm dm : ℝ) :
    len (fun i => (x.mat.transpose *ᵥ dir (palMapqkz rm dm x).1 (palMapqkz rm dm x).2) i - dir rm dm i) ≤ 4e-4 := by
  have e : palMapqkz rm dm x = mapFinish x.mat (fun i => x.ab1 * defl0 x.gr2e x.ehn (dir rm dm) i + (1 + dot (defl0 x.gr2e x.ehn (dir rm dm)) x.abv / (x.ab1 + 1)) * x.abv i) := mapqkz_eq rm dm x
  rw [e]
  have hp := len_dir rm dm
  generalize dir rm dm = P at *
  have c := defl0_close (E := x.ehn) (g := x.gr2e) (by rw [h.ehnx]; norm_num) hp (le_trans (by norm_num) h.grx) (h.grx'.trans (by norm_num))
  have hl := abs_le.1 ((len_rev_tri (defl0 x.gr2e x.ehn P) P).trans c)
  rw [hp] at hl
  have lv := h.abvx
  have k0 := h.ab1x
  have k1 := h.ab1x'
  have rot := h.rot
  have s : |dot (defl0 x.gr2e x.ehn P) x.abv| ≤ 1.3e-4 := (dot_le_len _ x.abv).trans ((mul_le_mul (show len (defl0 x.gr2e x.ehn P) ≤ 1.2 by norm_num at *; linarith) lv (len_nonneg _) (by norm_num)).trans (by norm_num))
  generalize defl0 x.gr2e x.ehn P = A at *
  generalize dot A x.abv = t at *
  have p2 : 0 < x.ab1 + 1 := by norm_num at *; linarith
  have q2 : |1 + t / (x.ab1 + 1)| ≤ 1.001 := by
    have : |t / (x.ab1 + 1)| ≤ 1e-4 := by rw [abs_div, abs_of_pos p2, div_le_iff₀ p2]; norm_num at *; linarith
    have := abs_add_le 1 (t / (x.ab1 + 1))
    rw [abs_one] at this
    norm_num at *; linarith
  have lw : len (fun i => (1 + t / (x.ab1 + 1)) * x.abv i) ≤ 1.08e-4 := by
    rw [len_smul]
    have := mul_le_mul q2 lv (len_nonneg _) (by norm_num)
    norm_num at *; linarith
  have near : len (fun i => (x.ab1 * A i + (1 + t / (x.ab1 + 1)) * x.abv i) - P i) ≤ 1.2e-4 := by
    have e : (fun i => (x.ab1 * A i + (1 + t / (x.ab1 + 1)) * x.abv i) - P i) = fun i => (A i - P i) + (x.ab1 - 1) * A i + (1 + t / (x.ab1 + 1)) * x.abv i := by funext i; ring
    rw [e]
    refine (len_sum3 (fun i => A i - P i) (fun i => (x.ab1 - 1) * A i) (fun i => (1 + t / (x.ab1 + 1)) * x.abv i)).trans ?_
    rw [len_smul (x.ab1 - 1)]
    have r : |x.ab1 - 1| ≤ 1e-8 := by rw [abs_le]; constructor <;> norm_num at * <;> linarith
    have := mul_le_mul r (show len A ≤ 1.2 by norm_num at *; linarith) (len_nonneg _) (by norm_num)
    norm_num at *; linarith
  have f := finish_dir x.mat (fun i => x.ab1 * A i + (1 + t / (x.ab1 + 1)) * x.abv i)
  have g := congrArg (x.mat.transpose.mulVec) f
  rw [mulVec_mulVec, rot_trans_mul rot, one_mulVec, rot_len rot] at g
  have g' : (fun i => len (fun i => x.ab1 * A i + (1 + t / (x.ab1 + 1)) * x.abv i) * (x.mat.transpose *ᵥ dir (mapFinish x.mat (fun i => x.ab1 * A i + (1 + t / (x.ab1 + 1)) * x.abv i)).1 (mapFinish x.mat (fun i => x.ab1 * A i + (1 + t / (x.ab1 + 1)) * x.abv i)).2) i) =
      fun i => x.ab1 * A i + (1 + t / (x.ab1 + 1)) * x.abv i := by
    conv_rhs => rw [← g]
    exact (Matrix.mulVec_smul x.mat.transpose (len (fun i => x.ab1 * A i + (1 + t / (x.ab1 + 1)) * x.abv i)) _).symm
  have pn := pn_near hp near (by norm_num)
  have lr := (abs_le.1 ((len_rev_tri (fun i => x.ab1 * A i + (1 + t / (x.ab1 + 1)) * x.abv i) P).trans near)).1
  rw [hp] at lr
  have W0 : 0 < len (fun i => x.ab1 * A i + (1 + t / (x.ab1 + 1)) * x.abv i) := by norm_num at *; linarith
  clear lr near
  generalize (fun i => x.ab1 * A i + (1 + t / (x.ab1 + 1)) * x.abv i) = W at *
  have e2 : (eraPn W).2 = x.mat.transpose *ᵥ dir (mapFinish x.mat W).1 (mapFinish x.mat W).2 := by
    rw [pn_val W0.ne']
    funext i
    have := congrFun g' i
    beta_reduce at this
    rw [inv_mul_eq_iff_eq_mul₀ W0.ne']
    exact this.symm
  rw [← e2]
  exact pn.2.trans (by norm_num)

end Pal
