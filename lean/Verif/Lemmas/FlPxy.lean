import Verif.Lemmas.FlFit
import Mathlib.Analysis.InnerProductSpace.PiL2
import Mathlib.Analysis.Complex.Norm

/-! # Rounding errors of the root mean square of any number of residuals -/

namespace Pal
variable {fl : ℝ → ℝ}

theorem sqrt_rel {m M κ τ : ℝ} (hM : 0 ≤ M) (hm : 0 ≤ m) (hτ : 0 ≤ τ) (k0 : 0 ≤ κ) (k1 : κ ≤ 1 / 100) (h : |m - M| ≤ κ * M + τ) : |√m - √M| ≤ 0.51 * κ * √M + √τ := by
  have hh := abs_le.1 h
  have s0 := Real.sqrt_nonneg M
  have t0 := Real.sqrt_nonneg τ
  have m0 := Real.sqrt_nonneg m
  have w : 0 ≤ κ * √M := mul_nonneg k0 s0
  rw [abs_le]
  constructor
  · have a : (1 - 0.51 * κ) * √M ≤ √m + √τ := by
      refine le_of_sq_le_sq'' ?_ (by linarith)
      have e1 : ((1 - 0.51 * κ) * √M) ^ 2 = (1 - 0.51 * κ) ^ 2 * M := by rw [mul_pow, Real.sq_sqrt hM]
      have e2 : (√m + √τ) ^ 2 = m + τ + 2 * (√m * √τ) := by
        rw [add_sq, Real.sq_sqrt hm, Real.sq_sqrt hτ]; ring
      rw [e1, e2]
      have p := mul_nonneg m0 t0
      have k2 : (1 - 0.51 * κ) ^ 2 * M ≤ (1 - κ) * M := mul_le_mul_of_nonneg_right (by nlinarith) hM
      linarith
    linarith
  · have a : √m ≤ (1 + 0.51 * κ) * √M + √τ := by
      refine le_of_sq_le_sq'' ?_ (by linarith)
      rw [Real.sq_sqrt hm]
      have e2 : ((1 + 0.51 * κ) * √M + √τ) ^ 2 = (1 + 0.51 * κ) ^ 2 * M + τ + 2 * ((1 + 0.51 * κ) * √M * √τ) := by
        rw [add_sq, mul_pow, Real.sq_sqrt hM, Real.sq_sqrt hτ]; ring
      rw [e2]
      have p : 0 ≤ (1 + 0.51 * κ) * √M * √τ := by positivity
      have k2 : (1 + κ) * M ≤ (1 + 0.51 * κ) ^ 2 * M := mul_le_mul_of_nonneg_right (by nlinarith) hM
      linarith
    linarith
where
  le_of_sq_le_sq'' {x y : ℝ} (h : x ^ 2 ≤ y ^ 2) (hy : 0 ≤ y) : x ≤ y := le_of_pow_le_pow_left₀ (by norm_num) hy h

/-- The sum of squares accumulated by the loop. -/
theorem flSumSq_err (R : Rounding fl) (e p : ℕ → ℝ) {N : ℕ} (hN : N ≤ 2 ^ 31) (hr : ∀ i, i < N → |fl (e i - p i)| ≤ 10 ^ 70) (n : ℕ) (hn : n ≤ N) :
    0 ≤ flSumSq fl e p n ∧
    |flSumSq fl e p n - ∑ i ∈ Finset.range n, fl (e i - p i) ^ 2| ≤ 1.13e-16 * (n + 1) * ∑ i ∈ Finset.range n, fl (e i - p i) ^ 2 + n * (3 / 10 ^ 200) ∧
    ∑ i ∈ Finset.range n, fl (e i - p i) ^ 2 ≤ n * 10 ^ 140 := by
  induction n with
  | zero => simp [flSumSq]
  | succ n ih =>
    obtain ⟨i0, ih1, ih2⟩ := ih (by omega)
    rw [Finset.sum_range_succ]
    unfold flSumSq
    have r := hr n (by omega)
    generalize fl (e n - p n) = t at *
    have a0 : 0 ≤ ∑ i ∈ Finset.range n, fl (e i - p i) ^ 2 := Finset.sum_nonneg fun i _ => sq_nonneg _
    generalize ∑ i ∈ Finset.range n, fl (e i - p i) ^ 2 = a at *
    generalize flSumSq fl e p n = S at *
    have s0 : 0 ≤ t ^ 2 := sq_nonneg t
    have s1 : t ^ 2 ≤ 10 ^ 140 := by
      rw [← sq_abs]
      exact (pow_le_pow_left₀ (abs_nonneg _) r 2).trans (by norm_num)
    rw [show t * t = t ^ 2 by ring]
    generalize t ^ 2 = s at *
    have nn : (n : ℝ) ≤ 2 ^ 31 := by exact_mod_cast (by omega : n ≤ 2 ^ 31)
    have n0 : (0 : ℝ) ≤ n := Nat.cast_nonneg n
    have k : (n : ℝ) * 10 ^ 140 ≤ 2 ^ 31 * 10 ^ 140 := mul_le_mul_of_nonneg_right nn (by norm_num)
    have big : ∀ {x : ℝ}, 0 ≤ x → x ≤ 10 ^ 160 → |x| ≤ 10 ^ 250 := fun hx h => by rw [abs_of_nonneg hx]; exact h.trans (by norm_num)
    have q := R.errL (big s0 (s1.trans (by norm_num)))
    rw [abs_of_nonneg s0] at q
    have fnn : ∀ {x : ℝ}, 0 ≤ x → x ≤ 10 ^ 160 → 0 ≤ fl x := fun {x} hx h => by
      have := R.mono 0 x (by rw [abs_zero]; positivity) ((big hx h).trans (by
        have : (10 : ℝ) ^ 250 ≤ 2 ^ 1000 := by
          rw [show (250 : ℕ) = 5 * 50 from rfl, show (1000 : ℕ) = 20 * 50 from rfl, pow_mul, pow_mul]
          exact pow_le_pow_left₀ (by norm_num) (by norm_num) _
        exact this)) hx
      rwa [R.zero] at this
    have q0 := fnn s0 (s1.trans (by norm_num))
    generalize fl s = q' at *
    have sm : 1.13e-16 * (n + 1) * a ≤ 1e-6 * a := mul_le_mul_of_nonneg_right (by norm_num at nn ⊢; linarith) a0
    have E := abs_le.1 ih1
    have Q := abs_le.1 q
    have u1 : S + q' ≤ 10 ^ 160 := by norm_num at *; linarith
    have u0 : 0 ≤ S + q' := by linarith
    have f := R.errL (big u0 u1)
    rw [abs_of_nonneg u0] at f
    refine ⟨fnn u0 u1, ?_, ?_⟩
    · have sp : |fl (S + q') - (a + s)| ≤ |fl (S + q') - (S + q')| + (|S - a| + |q' - s|) := by
        rw [show fl (S + q') - (a + s) = (fl (S + q') - (S + q')) + ((S - a) + (q' - s)) by ring]
        refine (abs_add_le _ _).trans ?_
        have := abs_add_le (S - a) (q' - s)
        linarith
      push_cast
      have ns : 0 ≤ (n : ℝ) * s := mul_nonneg n0 s0
      have ex : 1.13e-16 * ((n : ℝ) + 1 + 1) * (a + s) = 1.13e-16 * (n + 1) * a + 1.13e-16 * a + 1.13e-16 * (n * s) + 2.26e-16 * s := by ring
      rw [ex]
      generalize 1.13e-16 * ((n : ℝ) + 1) * a = W at *
      generalize (n : ℝ) * s = V at *
      generalize |fl (S + q') - (S + q')| = z1 at *
      generalize |q' - s| = z2 at *
      generalize |S - a| = z3 at *
      generalize |fl (S + q') - (a + s)| = z4 at *
      norm_num at *
      linarith
    · push_cast
      linarith

/-- Minkowski's inequality for root mean squares. -/
theorem rms_minkowski (r s : ℕ → ℝ) (n : ℕ) {δ : ℝ} (hδ : 0 ≤ δ) (h : ∀ i, i < n → |r i - s i| ≤ δ) :
    |√(∑ i ∈ Finset.range n, r i ^ 2) - √(∑ i ∈ Finset.range n, s i ^ 2)| ≤ √n * δ := by
  let v : EuclideanSpace ℝ (Fin n) := WithLp.toLp 2 (fun i => r i)
  let w : EuclideanSpace ℝ (Fin n) := WithLp.toLp 2 (fun i => s i)
  have e1 : ‖v‖ = √(∑ i ∈ Finset.range n, r i ^ 2) := by
    rw [EuclideanSpace.norm_eq, Finset.sum_range]; simp [v]
  have e2 : ‖w‖ = √(∑ i ∈ Finset.range n, s i ^ 2) := by
    rw [EuclideanSpace.norm_eq, Finset.sum_range]; simp [w]
  have e3 : ‖v - w‖ ≤ √n * δ := by
    rw [EuclideanSpace.norm_eq]
    have : ∑ i, ‖(v - w) i‖ ^ 2 ≤ n * δ ^ 2 := by
      refine (Finset.sum_le_card_nsmul _ _ (δ ^ 2) fun i _ => ?_).trans (by simp)
      refine pow_le_pow_left₀ (norm_nonneg _) ?_ 2
      exact h i i.2
    refine (Real.sqrt_le_sqrt this).trans ?_
    rw [Real.sqrt_mul (Nat.cast_nonneg n), Real.sqrt_sq hδ]
  rw [← e1, ← e2]
  exact (abs_norm_sub_norm_le v w).trans e3

/-- The root mean square delivered, for any number of residuals known to `δ`. -/
theorem flRms_err (R : Rounding fl) (e p r : ℕ → ℝ) {n : ℕ} (hn : n ≤ 2 ^ 31) {δ q : ℝ} (hδ : 0 ≤ δ) (hδ1 : δ ≤ 10 ^ 69) (hr : ∀ i, i < n → |fl (e i - p i) - r i| ≤ δ) (hr1 : ∀ i, i < n → |r i| ≤ 10 ^ 69)
    (hq : q = if (1 : ℝ) > n then 1 else (n : ℝ)) :
    0 ≤ √(fl (flSumSq fl e p n / q)) ∧
    |fl (√(fl (flSumSq fl e p n / q))) - √((∑ i ∈ Finset.range n, r i ^ 2) / q)| ≤ 1.001 * δ + (6e-17 * n + 3.2e-16) * √((∑ i ∈ Finset.range n, r i ^ 2) / q) + 1 / 10 ^ 98 := by
  have n0 : (0 : ℝ) ≤ n := Nat.cast_nonneg n
  have nn : (n : ℝ) ≤ 2 ^ 31 := by exact_mod_cast hn
  have q1 : 1 ≤ q := by rw [hq]; split_ifs with h <;> linarith
  have qn : (n : ℝ) ≤ q := by rw [hq]; split_ifs with h <;> linarith
  have qp : 0 < q := by linarith
  have rb : ∀ i, i < n → |fl (e i - p i)| ≤ 10 ^ 70 := fun i hi => by
    have a := abs_sub_abs_le_abs_sub (fl (e i - p i)) (r i)
    have b := hr i hi
    have c := hr1 i hi
    linarith
  obtain ⟨S0, S1, S2⟩ := flSumSq_err R e p hn rb n le_rfl
  have mk := rms_minkowski (fun i => fl (e i - p i)) r n hδ hr
  have A0 : 0 ≤ ∑ i ∈ Finset.range n, fl (e i - p i) ^ 2 := Finset.sum_nonneg fun i _ => sq_nonneg _
  have B0 : 0 ≤ ∑ i ∈ Finset.range n, r i ^ 2 := Finset.sum_nonneg fun i _ => sq_nonneg _
  generalize ∑ i ∈ Finset.range n, fl (e i - p i) ^ 2 = A at *
  generalize ∑ i ∈ Finset.range n, r i ^ 2 = B at *
  generalize flSumSq fl e p n = S at *
  -- divide by the number of samples
  have d1 : |√(A / q) - √(B / q)| ≤ δ := by
    rw [Real.sqrt_div' _ qp.le, Real.sqrt_div' _ qp.le, ← sub_div, abs_div, abs_of_pos (Real.sqrt_pos.2 qp), div_le_iff₀ (Real.sqrt_pos.2 qp)]
    refine mk.trans ?_
    rw [mul_comm]
    exact mul_le_mul_of_nonneg_left (Real.sqrt_le_sqrt qn) hδ
  have M0 : 0 ≤ A / q := div_nonneg A0 qp.le
  have M1 : A / q ≤ 10 ^ 140 := by
    rw [div_le_iff₀ qp]
    have := mul_le_mul_of_nonneg_right qn (by norm_num : (0 : ℝ) ≤ 10 ^ 140)
    linarith
  have D : |S / q - A / q| ≤ 1.13e-16 * (n + 1) * (A / q) + 3 / 10 ^ 200 := by
    rw [← sub_div, abs_div, abs_of_pos qp, div_le_iff₀ qp]
    have e1 : (1.13e-16 * ((n : ℝ) + 1) * (A / q) + 3 / 10 ^ 200) * q = 1.13e-16 * (n + 1) * A + q * (3 / 10 ^ 200) := by field_simp
    rw [e1]
    have := mul_le_mul_of_nonneg_right qn (by norm_num : (0 : ℝ) ≤ 3 / 10 ^ 200)
    linarith
  have sq0 : 0 ≤ S / q := div_nonneg S0 qp.le
  generalize A / q = M at *
  generalize S / q = s at *
  have sm : 1.13e-16 * (n + 1) * M ≤ 1e-6 * M := mul_le_mul_of_nonneg_right (by linarith) M0
  have D' := abs_le.1 D
  have s1 : |s| ≤ 10 ^ 250 := by
    rw [abs_of_nonneg sq0]
    refine le_trans (b := 10 ^ 141) ?_ (by norm_num)
    linarith
  have f := R.errL s1
  rw [abs_of_nonneg sq0] at f
  have m0 : 0 ≤ fl s := by
    have := R.mono 0 s (by rw [abs_zero]; positivity) (s1.trans (by
      have : (10 : ℝ) ^ 250 ≤ 2 ^ 1000 := by
        rw [show (250 : ℕ) = 5 * 50 from rfl, show (1000 : ℕ) = 20 * 50 from rfl, pow_mul, pow_mul]
        exact pow_le_pow_left₀ (by norm_num) (by norm_num) _
      exact this)) sq0
    rwa [R.zero] at this
  have h : |fl s - M| ≤ (1.13e-16 * (n + 1) + 1.111e-16) * M + 5 / 10 ^ 200 := by
    have sp : |fl s - M| ≤ |fl s - s| + |s - M| := abs_sub_le _ _ _
    have ex : (1.13e-16 * ((n : ℝ) + 1) + 1.111e-16) * M = 1.13e-16 * (n + 1) * M + 1.111e-16 * M := by ring
    rw [ex]
    linarith
  have t := sqrt_rel M0 m0 (by norm_num) (by positivity) (by linarith) h
  have τ : √(5 / 10 ^ 200 : ℝ) ≤ 3 / 10 ^ 100 := by
    rw [Real.sqrt_le_left (by norm_num)]; norm_num
  generalize √(5 / 10 ^ 200 : ℝ) = τ' at *
  have w0 := Real.sqrt_nonneg M
  have v0 := Real.sqrt_nonneg (fl s)
  have b0 := Real.sqrt_nonneg (B / q)
  have w1 : √M ≤ 10 ^ 70 := by
    rw [Real.sqrt_le_left (by norm_num)]; exact M1.trans (by norm_num)
  refine ⟨v0, ?_⟩
  generalize √M = w at *
  generalize √(fl s) = v at *
  generalize √(B / q) = b at *
  have ρ : 0.51 * (1.13e-16 * (n + 1) + 1.111e-16) * w ≤ 1e-6 * w := mul_le_mul_of_nonneg_right (by linarith) w0
  have T := abs_le.1 t
  have g := R.errL (x := v) (by
    rw [abs_of_nonneg v0]
    refine le_trans (b := 10 ^ 71) ?_ (by norm_num)
    linarith)
  rw [abs_of_nonneg v0] at g
  have sp : |fl v - b| ≤ |fl v - v| + |v - w| + |w - b| := by
    rw [show fl v - b = (fl v - v) + (v - w) + (w - b) by ring]
    exact abs_add_three _ _ _
  have k1 : w ≤ b + δ := by have := abs_le.1 d1; linarith
  have k2 : (6e-17 * (n : ℝ) + 3.1e-16) * w ≤ (6e-17 * n + 3.1e-16) * (b + δ) := mul_le_mul_of_nonneg_left k1 (by positivity)
  have k3 : (6e-17 * (n : ℝ) + 3.1e-16) * δ ≤ 0.0005 * δ := mul_le_mul_of_nonneg_right (by linarith) hδ
  have k4 : 0.51 * (1.13e-16 * ((n : ℝ) + 1) + 1.111e-16) * w + 1.1104e-16 * w ≤ (6e-17 * n + 3.1e-16) * w := by
    rw [← add_mul]
    refine mul_le_mul_of_nonneg_right ?_ w0
    linarith
  have nb : 0 ≤ b * n := mul_nonneg b0 n0
  linarith

theorem rms_le (r : ℕ → ℝ) {n : ℕ} {q M : ℝ} (hM : 0 ≤ M) (hr : ∀ i, i < n → |r i| ≤ M) (hq : q = if (1 : ℝ) > n then 1 else (n : ℝ)) : √((∑ i ∈ Finset.range n, r i ^ 2) / q) ≤ M := by
  have q1 : 1 ≤ q := by rw [hq]; split_ifs with h <;> linarith
  have qn : (n : ℝ) ≤ q := by rw [hq]; split_ifs with h <;> linarith
  rw [Real.sqrt_le_left hM, div_le_iff₀ (by linarith)]
  have : ∑ i ∈ Finset.range n, r i ^ 2 ≤ n * M ^ 2 := by
    refine (Finset.sum_le_card_nsmul _ _ (M ^ 2) fun i hi => ?_).trans (by simp)
    rw [← sq_abs]
    exact pow_le_pow_left₀ (abs_nonneg _) (hr i (Finset.mem_range.1 hi)) 2
  have := mul_le_mul_of_nonneg_right qn (sq_nonneg M)
  linarith

/-- The radial value from the two approximate ones. -/
theorem flHyp_err (R : Rounding fl) {x X y Y α β : ℝ} (hx : |x - X| ≤ α) (hy : |y - Y| ≤ β) (hx1 : |x| ≤ 10 ^ 72) (hy1 : |y| ≤ 10 ^ 72) :
    |fl (√(fl (fl (x * x) + fl (y * y)))) - √(X * X + Y * Y)| ≤ 1.001 * (α + β) + 2.3e-16 * √(X * X + Y * Y) + 1 / 10 ^ 98 := by
  have p0 := mul_self_nonneg x
  have q0 := mul_self_nonneg y
  have sqb : ∀ {z : ℝ}, |z| ≤ 10 ^ 72 → z * z ≤ 10 ^ 144 := fun {z} hz => by
    rw [← sq, ← sq_abs]; exact (pow_le_pow_left₀ (abs_nonneg _) hz 2).trans (by norm_num)
  have p1 := sqb hx1
  have q1 := sqb hy1
  have tri : |√(x * x + y * y) - √(X * X + Y * Y)| ≤ α + β := by
    have n : ∀ a b : ℝ, √(a * a + b * b) = ‖(⟨a, b⟩ : ℂ)‖ := fun a b => by rw [Complex.norm_def, Complex.normSq_mk]
    rw [n, n]
    refine (abs_norm_sub_norm_le _ _).trans ((Complex.norm_le_abs_re_add_abs_im _).trans ?_)
    exact add_le_add hx hy
  have d := R.det (x * x) (-(y * y)) (by rw [abs_of_nonneg p0]; exact p1.trans (by norm_num)) (by rw [abs_neg, abs_of_nonneg q0]; exact q1.trans (by norm_num))
  rw [R.odd, sub_neg_eq_add, sub_neg_eq_add, abs_neg, abs_of_nonneg p0, abs_of_nonneg q0] at d
  have up : (10 : ℝ) ^ 250 ≤ 2 ^ 1000 := by
    rw [show (250 : ℕ) = 5 * 50 from rfl, show (1000 : ℕ) = 20 * 50 from rfl, pow_mul, pow_mul]
    exact pow_le_pow_left₀ (by norm_num) (by norm_num) _
  have fnn : ∀ {z : ℝ}, 0 ≤ z → z ≤ 10 ^ 160 → 0 ≤ fl z := fun {z} hz h => by
    have := R.mono 0 z (by rw [abs_zero]; positivity) (by rw [abs_of_nonneg hz]; exact (h.trans (by norm_num)).trans up) hz
    rwa [R.zero] at this
  have e1 := R.errL (x := x * x) (by rw [abs_of_nonneg p0]; exact p1.trans (by norm_num))
  have e2 := R.errL (x := y * y) (by rw [abs_of_nonneg q0]; exact q1.trans (by norm_num))
  rw [abs_of_nonneg p0] at e1
  rw [abs_of_nonneg q0] at e2
  have g1 := fnn p0 (p1.trans (by norm_num))
  have g2 := fnn q0 (q1.trans (by norm_num))
  have d0 : 0 ≤ fl (fl (x * x) + fl (y * y)) := by
    refine fnn (add_nonneg g1 g2) (le_trans (b := 10 ^ 150) ?_ (by norm_num))
    have := (abs_le.1 e1).2
    have := (abs_le.1 e2).2
    linarith
  have t := sqrt_rel (add_nonneg p0 q0) d0 (by norm_num) (by norm_num) (by norm_num) d
  have τ : √(1 / 10 ^ 199 : ℝ) ≤ 4 / 10 ^ 100 := by
    rw [Real.sqrt_le_left (by norm_num)]; norm_num
  have w1 : √(x * x + y * y) ≤ 10 ^ 73 := by
    rw [Real.sqrt_le_left (by norm_num)]
    refine le_trans (by linarith : _ ≤ 2 * (10 : ℝ) ^ 144) (by norm_num)
  have w0 := Real.sqrt_nonneg (x * x + y * y)
  have v0 := Real.sqrt_nonneg (fl (fl (x * x) + fl (y * y)))
  have b0 := Real.sqrt_nonneg (X * X + Y * Y)
  generalize √(1 / 10 ^ 199 : ℝ) = τ' at *
  generalize √(fl (fl (x * x) + fl (y * y))) = v at *
  generalize √(x * x + y * y) = w at *
  generalize √(X * X + Y * Y) = b at *
  have T := abs_le.1 t
  have g := R.errL (x := v) (by
    rw [abs_of_nonneg v0]
    refine le_trans (b := 10 ^ 75) ?_ (by norm_num)
    linarith)
  rw [abs_of_nonneg v0] at g
  have sp : |fl v - b| ≤ |fl v - v| + |v - w| + |w - b| := by
    rw [show fl v - b = (fl v - v) + (v - w) + (w - b) by ring]
    exact abs_add_three _ _ _
  have k1 : w ≤ b + (α + β) := by have := abs_le.1 tri; linarith
  have T2 := T.2
  have ab := (abs_nonneg _).trans tri
  linarith

end Pal
