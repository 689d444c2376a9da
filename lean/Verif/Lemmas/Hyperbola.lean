import Verif.Lemmas.KeplerPlane
import Mathlib.Analysis.SpecialFunctions.Trigonometric.Series

/-! # The universal functions on a hyperbola: helpers for C112 -/

namespace Pal.Hyperbola
open Real Pal.Spec Pal.Orbit Pal.Stumpff Pal.Kepler Pal.Ellipse Pal.Plane Pal.Props

theorem pow16_le {x : ℝ} (h0 : 0 ≤ x) (h : x ^ 2 ≤ 7 / 10) : |x| ≤ 1 := by
  rw [abs_of_nonneg h0]
  by_contra hc
  push Not at hc
  nlinarith

theorem base_cosh {x : ℝ} (h0 : 0 ≤ x) (h : x ^ 2 ≤ 7 / 10) :
    1 + x ^ 2 * cB (x ^ 2) ≤ cosh x ∧ cosh x ≤ 1 + x ^ 2 * cB (x ^ 2) + 5.1e-14 * x ^ 16 := by
  have hx := pow16_le h0 h
  have e : 1 + x ^ 2 * cB (x ^ 2) = 1 + x ^ 2 / 2 + x ^ 4 / 24 + x ^ 6 / 720 + x ^ 8 / 40320 + x ^ 10 / 3628800 + x ^ 12 / 479001600 + x ^ 14 / 87178291200 := by
    unfold cB; ring
  rw [e]
  constructor
  · have hs := Real.hasSum_cosh x
    have := sum_le_hasSum (Finset.range 8) (fun i _ => by positivity) hs
    refine le_trans (le_of_eq ?_) this
    simp only [Finset.sum_range_succ, Finset.sum_range_zero, Nat.factorial]
    norm_num
  · have b1 := Real.exp_bound hx (n := 16) (by norm_num)
    have b2 := Real.exp_bound (x := -x) (by rwa [abs_neg]) (n := 16) (by norm_num)
    rw [abs_neg] at b2
    rw [abs_of_nonneg h0] at b1 b2
    have c1 := (abs_le.1 b1).2
    have c2 := (abs_le.1 b2).2
    rw [Real.cosh_eq]
    simp only [Finset.sum_range_succ, Finset.sum_range_zero, Nat.factorial] at c1 c2
    norm_num at c1 c2
    have hp : 0 ≤ x ^ 16 := by positivity
    ring_nf at c1 c2 ⊢
    linarith

theorem base_sinh {x : ℝ} (h0 : 0 ≤ x) (h : x ^ 2 ≤ 7 / 10) :
    x * (1 + x ^ 2 * cC (x ^ 2)) ≤ sinh x ∧ sinh x ≤ x * (1 + x ^ 2 * cC (x ^ 2)) + 3.1e-15 * x ^ 17 := by
  have hx := pow16_le h0 h
  have e : x * (1 + x ^ 2 * cC (x ^ 2)) = x + x ^ 3 / 6 + x ^ 5 / 120 + x ^ 7 / 5040 + x ^ 9 / 362880 + x ^ 11 / 39916800 + x ^ 13 / 6227020800 + x ^ 15 / 1307674368000 := by
    unfold cC; ring
  rw [e]
  constructor
  · have hs := Real.hasSum_sinh x
    have := sum_le_hasSum (Finset.range 8) (fun i _ => by positivity) hs
    refine le_trans (le_of_eq ?_) this
    simp only [Finset.sum_range_succ, Finset.sum_range_zero, Nat.factorial]
    norm_num
  · have b1 := Real.exp_bound hx (n := 17) (by norm_num)
    have b2 := Real.exp_bound (x := -x) (by rwa [abs_neg]) (n := 17) (by norm_num)
    rw [abs_neg] at b2
    rw [abs_of_nonneg h0] at b1 b2
    have c1 := (abs_le.1 b1).2
    have c2 := (abs_le.1 b2).1
    rw [Real.sinh_eq]
    simp only [Finset.sum_range_succ, Finset.sum_range_zero, Nat.factorial] at c1 c2
    norm_num at c1 c2
    have hp : 0 ≤ x ^ 17 := by positivity
    ring_nf at c1 c2 ⊢
    linarith

/-- The functions that the code has for ψ = p ≥ 0: one-sided relative errors, and the order among them. -/
structure Near (a p ε : ℝ) (f : UeFun) : Prop where
  one : 1 ≤ f.s0
  low1 : p ≤ f.s1
  up1 : f.s1 ≤ p * f.s0
  nn2 : 0 ≤ f.s2
  nn3 : 0 ≤ f.s3
  up3 : f.s3 ≤ p * f.s2
  sq : f.s2 * (f.s0 + 1) ≤ f.s1 ^ 2
  u0 : f.s0 ≤ U0 a p
  u1 : f.s1 ≤ U1 a p
  u2 : f.s2 ≤ U2 a p
  u3 : f.s3 ≤ U3 a p
  l0 : (1 - ε) * U0 a p ≤ f.s0
  l1 : (1 - ε) * U1 a p ≤ f.s1
  l2 : (1 - ε) * U2 a p ≤ f.s2
  l3 : (1 - ε) * U3 a p ≤ f.s3

theorem cB_pos {b : ℝ} (h : 0 ≤ b) : 1 / 2 ≤ cB b := by
  have e : cB b = 1 / 2 + b * (1 / 24 + b * (1 / 720 + b * (1 / 40320 + b * (1 / 3628800 + b * (1 / 479001600 + b * (1 / 87178291200)))))) := by unfold cB; ring
  rw [e]
  have : 0 ≤ b * (1 / 24 + b * (1 / 720 + b * (1 / 40320 + b * (1 / 3628800 + b * (1 / 479001600 + b * (1 / 87178291200)))))) := by positivity
  linarith

theorem cC_pos {b : ℝ} (h : 0 ≤ b) : 1 / 6 ≤ cC b ∧ cC b ≤ cB b := by
  have e : cC b = 1 / 6 + b * (1 / 120 + b * (1 / 5040 + b * (1 / 362880 + b * (1 / 39916800 + b * (1 / 6227020800 + b * (1 / 1307674368000)))))) := by unfold cC; ring
  constructor
  · rw [e]
    have : 0 ≤ b * (1 / 120 + b * (1 / 5040 + b * (1 / 362880 + b * (1 / 39916800 + b * (1 / 6227020800 + b * (1 / 1307674368000)))))) := by positivity
    linarith
  · have : cB b - cC b = 1 / 3 + b * (1 / 30 + b * (1 / 840 + b * (1 / 45360 + b * (1 / 3991680 + b * (12 / 6227020800 + b * (14 / 1307674368000)))))) := by unfold cB cC; ring
    have h2 : 0 ≤ 1 / 3 + b * (1 / 30 + b * (1 / 840 + b * (1 / 45360 + b * (1 / 3991680 + b * (12 / 6227020800 + b * (14 / 1307674368000)))))) := by positivity
    linarith

theorem cD_nonneg {b : ℝ} (h : 0 ≤ b) : 0 ≤ cD b := by
  rw [cD_eq]; positivity

set_option maxHeartbeats 1000000 in
theorem near_base {k p : ℝ} (hk : 0 < k) (hp : 0 ≤ p) (h : (k * p) ^ 2 ≤ 7 / 10) : Near (k ^ 2) p 1e-14 (ueSeries (k ^ 2) p (p * p) (k ^ 2 * (p * p))) := by
  obtain ⟨x, hx⟩ : ∃ x, x = k * p := ⟨_, rfl⟩
  have hx0 : 0 ≤ x := by rw [hx]; positivity
  rw [← hx] at h
  have hb : k ^ 2 * (p * p) = x ^ 2 := by rw [hx]; ring
  rw [series_def, hb]
  have hx2 : 0 ≤ x ^ 2 := sq_nonneg x
  have hB := cB_pos hx2
  obtain ⟨hC, hCB⟩ := cC_pos hx2
  have hD := cD_nonneg hx2
  obtain ⟨c1, c2⟩ := base_cosh hx0 h
  obtain ⟨s1, s2⟩ := base_sinh hx0 h
  have h14 := pow14 h
  have e0 : k ^ 2 * (p * p * cB (x ^ 2)) = x ^ 2 * cB (x ^ 2) := by rw [← hb]; ring
  have e1 : k ^ 2 * (p * (p * p) * cC (x ^ 2)) = p * (x ^ 2 * cC (x ^ 2)) := by rw [← hb]; ring
  have v0 : U0 (k ^ 2) p = cosh x := by rw [U0_pos hk, hx]
  have v1 : U1 (k ^ 2) p = sinh x / k := by rw [U1_pos hk, hx]
  have i0 := id0 (k ^ 2) p
  have i1 := id1 (k ^ 2) p
  rw [v0] at i0
  rw [v1] at i1
  have hk2 : 0 < k ^ 2 := by positivity
  have hk3 : 0 < k ^ 3 := by positivity
  have v2 : k ^ 2 * U2 (k ^ 2) p = cosh x - 1 := by linarith
  have v3 : k ^ 3 * U3 (k ^ 2) p = sinh x - x := by
    have : k * (sinh x / k) = k * (p + k ^ 2 * U3 (k ^ 2) p) := by rw [i1]
    rw [mul_div_cancel₀ _ hk.ne'] at this
    rw [hx] at this ⊢
    linarith
  have x14 : 0 ≤ x ^ 14 := by positivity
  have x16 : x ^ 16 = x ^ 2 * x ^ 14 := by ring
  have x17 : x ^ 17 = x * (x ^ 2 * x ^ 14) := by ring
  have x16b : x ^ 16 ≤ 0.0824 * x ^ 2 := by rw [x16]; nlinarith
  have x17b : x ^ 17 ≤ 0.0824 * (x * x ^ 2) := by
    rw [x17]
    have : x ^ 2 * x ^ 14 ≤ 0.0824 * x ^ 2 := by nlinarith
    nlinarith
  have q2 : x ^ 2 * (1 / 2) ≤ x ^ 2 * cB (x ^ 2) := mul_le_mul_of_nonneg_left hB hx2
  have q3 : x * x ^ 2 * (1 / 6) ≤ x * x ^ 2 * cC (x ^ 2) := mul_le_mul_of_nonneg_left hC (by positivity)
  have w0 : k ^ 2 * (p * p * cB (x ^ 2)) = x ^ 2 * cB (x ^ 2) := e0
  have w3 : k ^ 3 * (p * (p * p) * cC (x ^ 2)) = x * x ^ 2 * cC (x ^ 2) := by rw [hx]; ring
  have w1 : k * (p + p * (x ^ 2 * cC (x ^ 2))) = x * (1 + x ^ 2 * cC (x ^ 2)) := by rw [hx]; ring
  have hpp : 0 ≤ p * p := by positivity
  refine ⟨?_, ?_, ?_, ?_, ?_, ?_, ?_, ?_, ?_, ?_, ?_, ?_, ?_, ?_, ?_⟩ <;> dsimp only
  · rw [e0]; nlinarith
  · rw [e1]; have : 0 ≤ p * (x ^ 2 * cC (x ^ 2)) := by positivity
    linarith
  · rw [e1, e0]
    have := mul_le_mul_of_nonneg_left (mul_le_mul_of_nonneg_left hCB hx2) hp
    linarith
  · positivity
  · positivity
  · have := mul_le_mul_of_nonneg_left hCB (by positivity : 0 ≤ p * (p * p))
    linarith
  · rw [e0, e1]
    have e : (p + p * (x ^ 2 * cC (x ^ 2))) ^ 2 - p * p * cB (x ^ 2) * (1 + x ^ 2 * cB (x ^ 2) + 1) = p * p * cD (x ^ 2) := by unfold cD; ring
    have := mul_nonneg hpp hD
    linarith
  · rw [e0, v0]; exact c1
  · rw [e1, v1, le_div_iff₀ hk]; linarith
  · refine le_of_mul_le_mul_left ?_ hk2
    rw [v2, w0]; linarith
  · refine le_of_mul_le_mul_left ?_ hk3
    rw [v3, w3]; linarith
  · rw [e0, v0]
    linarith
  · rw [e1, v1, mul_div_assoc', div_le_iff₀ hk]
    have : x * x ^ 2 ≤ x := mul_le_of_le_one_right hx0 (by linarith)
    linarith
  · refine le_of_mul_le_mul_left ?_ hk2
    have : k ^ 2 * ((1 - 1e-14) * U2 (k ^ 2) p) = (1 - 1e-14) * (cosh x - 1) := by rw [← v2]; ring
    rw [this, w0]
    linarith
  · refine le_of_mul_le_mul_left ?_ hk3
    have : k ^ 3 * ((1 - 1e-14) * U3 (k ^ 2) p) = (1 - 1e-14) * (sinh x - x) := by rw [← v3]; ring
    rw [this, w3]
    linarith

set_option maxHeartbeats 1000000 in
theorem near_dbl {a p ε : ℝ} {f : UeFun} (hε : 0 ≤ ε) (hp : 0 ≤ p) (h : Near a p ε f) :
    Near a (p + p) (4 * ε) { s0 := 2 * f.s0 * f.s0 - 1, s1 := 2 * f.s0 * f.s1, s2 := 2 * f.s1 * f.s1, s3 := 2 * (f.s0 * f.s3 + p * f.s2), tol := f.tol + f.tol } := by
  obtain ⟨o, l1, p1, n2, n3, p3, sq, u0, u1, u2, u3, a0, a1, a2, a3⟩ := h
  have d0 := dbl0 a p
  have d1 := dbl1 a p
  have d2 := dbl2 a p
  have d3 := dbl3 a p
  generalize U0 a p = c at *
  generalize U1 a p = v1 at *
  generalize U2 a p = v2 at *
  generalize U3 a p = v3 at *
  obtain ⟨s0, s1, s2, s3, tol⟩ := f
  dsimp only at *
  have hs1 : 0 ≤ s1 := hp.trans l1
  have hc : 1 ≤ c := o.trans u0
  have hv1 : 0 ≤ v1 := hs1.trans u1
  have hv2 : 0 ≤ v2 := n2.trans u2
  have hv3 : 0 ≤ v3 := n3.trans u3
  have hs00 : s0 ≤ s0 * s0 := by nlinarith
  have m00 : s0 * s0 ≤ c * c := mul_le_mul u0 u0 (by linarith) (by linarith)
  have m01 : s0 * s1 ≤ c * v1 := mul_le_mul u0 u1 hs1 (by linarith)
  have m11 : s1 * s1 ≤ v1 * v1 := mul_le_mul u1 u1 hs1 hv1
  have m03 : s0 * s3 ≤ c * v3 := mul_le_mul u0 u3 n3 (by linarith)
  have m2 : p * s2 ≤ p * v2 := mul_le_mul_of_nonneg_left u2 hp
  have g01 : 0 ≤ s0 * s1 := by positivity
  have g03 : 0 ≤ s0 * s3 := mul_nonneg (by linarith) n3
  have gp2 : 0 ≤ p * s2 := mul_nonneg hp n2
  have j01 : 0 ≤ c * v1 := by positivity
  have j03 : 0 ≤ c * v3 := mul_nonneg (by linarith) hv3
  have jp2 : 0 ≤ p * v2 := mul_nonneg hp hv2
  have low : (1 - 4 * ε) * (2 * c * c - 1) ≤ 2 * s0 * s0 - 1 ∧ (1 - 4 * ε) * (c * v1) ≤ s0 * s1 ∧ (1 - 4 * ε) * (v1 * v1) ≤ s1 * s1 ∧
      (1 - 4 * ε) * (c * v3 + p * v2) ≤ s0 * s3 + p * s2 := by
    rcases le_or_gt ε 1 with h1 | h1
    · have z : 0 ≤ 1 - ε := by linarith
      have b00 := mul_le_mul a0 a0 (by positivity) (by linarith : (0 : ℝ) ≤ s0)
      have b01 := mul_le_mul a0 a1 (by positivity) (by linarith : (0 : ℝ) ≤ s0)
      have b11 := mul_le_mul a1 a1 (by positivity) hs1
      have b03 := mul_le_mul a0 a3 (by positivity) (by linarith : (0 : ℝ) ≤ s0)
      have b2 := mul_le_mul_of_nonneg_left a2 hp
      have cc : 1 ≤ c * c := by nlinarith
      have t : 1 - 2 * ε ≤ (1 - ε) * (1 - ε) := by nlinarith [mul_self_nonneg ε]
      refine ⟨?_, ?_, ?_, ?_⟩
      · have k1 : (1 - 2 * ε) * (c * c) ≤ (1 - ε) * (1 - ε) * (c * c) := mul_le_mul_of_nonneg_right t (by linarith)
        have k2 : 0 ≤ ε * (c * c - 1) := mul_nonneg hε (by linarith)
        linarith
      · have k1 : (1 - 2 * ε) * (c * v1) ≤ (1 - ε) * (1 - ε) * (c * v1) := mul_le_mul_of_nonneg_right t j01
        have k2 : 0 ≤ ε * (c * v1) := mul_nonneg hε j01
        linarith
      · have k1 : (1 - 2 * ε) * (v1 * v1) ≤ (1 - ε) * (1 - ε) * (v1 * v1) := mul_le_mul_of_nonneg_right t (by positivity)
        have k2 : 0 ≤ ε * (v1 * v1) := mul_nonneg hε (by positivity)
        linarith
      · have k1 : (1 - 2 * ε) * (c * v3) ≤ (1 - ε) * (1 - ε) * (c * v3) := mul_le_mul_of_nonneg_right t j03
        have k2 : 0 ≤ ε * (c * v3) := mul_nonneg hε j03
        have k3 : 0 ≤ ε * (p * v2) := mul_nonneg hε jp2
        linarith
    · have cc : 1 ≤ c * c := by nlinarith
      have z : 1 - 4 * ε ≤ 0 := by linarith
      refine ⟨?_, ?_, ?_, ?_⟩
      · have := mul_nonpos_of_nonpos_of_nonneg z (by linarith : 0 ≤ 2 * c * c - 1)
        nlinarith
      · exact (mul_nonpos_of_nonpos_of_nonneg z j01).trans g01
      · exact (mul_nonpos_of_nonpos_of_nonneg z (by positivity)).trans (by positivity)
      · exact (mul_nonpos_of_nonpos_of_nonneg z (by linarith)).trans (by linarith)
  obtain ⟨r0, r1, r2, r3⟩ := low
  refine ⟨?_, ?_, ?_, ?_, ?_, ?_, ?_, ?_, ?_, ?_, ?_, ?_, ?_, ?_, ?_⟩ <;> dsimp only
  · linarith
  · nlinarith
  · have := mul_le_mul_of_nonneg_left p1 (by linarith : 0 ≤ s0)
    have k : p * 1 ≤ p * (s0 * s0) := mul_le_mul_of_nonneg_left (by linarith) hp
    linarith
  · positivity
  · linarith
  · have := mul_le_mul_of_nonneg_left p3 (by linarith : 0 ≤ s0)
    have k := mul_le_mul_of_nonneg_left sq hp
    have k2 : 0 ≤ p * (s1 * s1) := by positivity
    linarith
  · exact le_of_eq (by ring)
  · rw [d0]; linarith
  · rw [d1]; linarith
  · rw [d2]; linarith
  · rw [d3]; linarith
  · rw [d0]; linarith
  · rw [d1]; linarith
  · rw [d2]; linarith
  · rw [d3]; linarith

theorem near_undo {a : ℝ} (n : ℕ) : ∀ (p ε : ℝ) (f : UeFun), 0 ≤ ε → 0 ≤ p → Near a p ε f →
    Near a (2 ^ n * p) (4 ^ n * ε) (ueUndo n p f) ∧ (ueUndo n p f).tol = 2 ^ n * f.tol := by
  induction n with
  | zero => intro p ε f _ _ h; simpa [ueUndo] using h
  | succ n ih =>
    intro p ε f hε hp h
    rw [ueUndo]
    obtain ⟨h1, h2⟩ := ih (p + p) (4 * ε) _ (by positivity) (by positivity) (near_dbl hε hp h)
    refine ⟨?_, ?_⟩
    · have e1 : (2 : ℝ) ^ (n + 1) * p = 2 ^ n * (p + p) := by rw [pow_succ]; ring
      have e2 : (4 : ℝ) ^ (n + 1) * ε = 4 ^ n * (4 * ε) := by rw [pow_succ]; ring
      rw [e1, e2]; exact h1
    · rw [h2, pow_succ]; ring

theorem near_weaken {a p ε ε' : ℝ} {f : UeFun} (hε : ε ≤ ε') (hp : 0 ≤ p) (h : Near a p ε f) : Near a p ε' f := by
  obtain ⟨o, l1, p1, n2, n3, p3, sq, u0, u1, u2, u3, a0, a1, a2, a3⟩ := h
  have g : ∀ x y : ℝ, 0 ≤ x → (1 - ε) * x ≤ y → (1 - ε') * x ≤ y := by
    intro x y hx h
    have := mul_le_mul_of_nonneg_right hε hx
    linarith
  exact ⟨o, l1, p1, n2, n3, p3, sq, u0, u1, u2, u3, g _ _ (by linarith) a0, g _ _ (by linarith) a1, g _ _ (by linarith) a2, g _ _ (by linarith) a3⟩

/-- The functions of the code on a hyperbola. -/
theorem fun_hyp {k p : ℝ} (hk : 0 < k) (hp : 0 ≤ p) :
    Near (k ^ 2) p (1e-14 * (1 + 6 * (k * p) ^ 2)) (ueFun (k ^ 2) p) ∧ (ueFun (k ^ 2) p).tol ≤ 1e-13 * (1 + 2.4 * (k * p)) := by
  obtain ⟨n, hn, hb, -, h1⟩ := halve_spec 0 p (p * p) (k ^ 2 * (p * p))
  unfold ueFun
  rw [hn]
  dsimp only
  rw [zero_add]
  have h2 : (0 : ℝ) < 2 ^ n := by positivity
  have e4 : (4 : ℝ) ^ n = 2 ^ n * 2 ^ n := by rw [← mul_pow]; norm_num
  have ep : p * p / 4 ^ n = p / 2 ^ n * (p / 2 ^ n) := by rw [e4]; field_simp
  have eb : k ^ 2 * (p * p) / 4 ^ n = k ^ 2 * (p / 2 ^ n * (p / 2 ^ n)) := by rw [e4]; field_simp
  have eb2 : k ^ 2 * (p * p) / 4 ^ n = (k * (p / 2 ^ n)) ^ 2 := by rw [eb]; ring
  have hb' : (k * (p / 2 ^ n)) ^ 2 ≤ 7 / 10 := by rw [← eb2]; exact (le_abs_self _).trans hb
  have nb := near_base hk (by positivity : 0 ≤ p / 2 ^ n) hb'
  rw [ep, eb]
  obtain ⟨g1, g2⟩ := near_undo n _ _ _ (by norm_num) (by positivity) nb
  rw [mul_div_cancel₀ _ h2.ne'] at g1
  have hx0 : 0 ≤ k * p := by positivity
  have hsz : (4 : ℝ) ^ n ≤ 1 + 6 * (k * p) ^ 2 ∧ (2 : ℝ) ^ n ≤ 1 + 2.4 * (k * p) := by
    rcases Nat.eq_zero_or_pos n with rfl | hn0
    · constructor
      · rw [pow_zero]; nlinarith [sq_nonneg (k * p)]
      · rw [pow_zero]; linarith
    · have := h1 hn0
      rw [abs_of_nonneg (by positivity), lt_div_iff₀ (by positivity)] at this
      have q : (4 : ℝ) ^ n ≤ 40 / 7 * (k * p) ^ 2 := by linarith
      refine ⟨by nlinarith [sq_nonneg (k * p)], ?_⟩
      rw [e4] at q
      by_contra hc
      push Not at hc
      nlinarith
  refine ⟨near_weaken (by linarith [hsz.1]) hp g1, ?_⟩
  rw [g2, series_def]
  dsimp only
  linarith [hsz.2]

/-! ### The iteration stays near the solution -/

theorem newton_pos {k q mu X dt p : ℝ} (hk : 0 < k) (hq : 0 < q) (hmu : 0 ≤ mu) (hp : 0 ≤ p) (hpX : p ≤ X) (hdt : |dt| ≤ q * X) :
    |p - (q * (ueFun (k ^ 2) p).s1 + mu * (ueFun (k ^ 2) p).s3 - dt) / (q * (ueFun (k ^ 2) p).s0 + mu * (ueFun (k ^ 2) p).s2)| ≤ X := by
  obtain ⟨o, l1, p1, n2, n3, p3, -⟩ := (fun_hyp hk hp).1
  generalize (ueFun (k ^ 2) p).s0 = s0 at *
  generalize (ueFun (k ^ 2) p).s1 = s1 at *
  generalize (ueFun (k ^ 2) p).s2 = s2 at *
  generalize (ueFun (k ^ 2) p).s3 = s3 at *
  have hm2 : 0 ≤ mu * s2 := mul_nonneg hmu n2
  have hm3 : 0 ≤ mu * s3 := mul_nonneg hmu n3
  have hq0 : q * 1 ≤ q * s0 := mul_le_mul_of_nonneg_left o hq.le
  have hR : 0 < q * s0 + mu * s2 := by linarith
  have hX : 0 ≤ X := hp.trans hpX
  have hRq : q ≤ q * s0 + mu * s2 := by linarith
  obtain ⟨d1, d2⟩ := abs_le.1 hdt
  have e : p - (q * s1 + mu * s3 - dt) / (q * s0 + mu * s2) = (p * (q * s0 + mu * s2) - (q * s1 + mu * s3 - dt)) / (q * s0 + mu * s2) := by field_simp
  have g1 : q * s1 ≤ q * (p * s0) := mul_le_mul_of_nonneg_left p1 hq.le
  have g2 : mu * s3 ≤ mu * (p * s2) := mul_le_mul_of_nonneg_left p3 hmu
  have g3 : q * p ≤ q * s1 := mul_le_mul_of_nonneg_left l1 hq.le
  have g4 : 0 ≤ (X - p) * (q * s0 + mu * s2 - q) := mul_nonneg (by linarith) (by linarith)
  have g5 : q * X ≤ (q * s0 + mu * s2) * X := mul_le_mul_of_nonneg_right hRq hX
  rw [e, abs_le, le_div_iff₀ hR, div_le_iff₀ hR]
  constructor <;> linarith

theorem newton_any {k q mu X dt ψ : ℝ} (hk : 0 < k) (hq : 0 < q) (hmu : 0 ≤ mu) (hψ : |ψ| ≤ X) (hdt : |dt| ≤ q * X) :
    |ψ - (q * (ueFun (k ^ 2) ψ).s1 + mu * (ueFun (k ^ 2) ψ).s3 - dt) / (q * (ueFun (k ^ 2) ψ).s0 + mu * (ueFun (k ^ 2) ψ).s2)| ≤ X := by
  rcases le_total 0 ψ with h | h
  · rw [abs_of_nonneg h] at hψ
    exact newton_pos hk hq hmu h hψ hdt
  · rw [abs_of_nonpos h] at hψ
    have := newton_pos (dt := -dt) hk hq hmu (by linarith : 0 ≤ -ψ) hψ (by rwa [abs_neg])
    rw [fun_neg] at this
    dsimp only at this
    rw [← abs_neg]
    refine le_trans (le_of_eq ?_) this
    congr 1
    ring

/-- Errors of the functions of the code anywhere in |ψ| ≤ X. -/
theorem fun_near {k X ψ : ℝ} (hk : 0 < k) (hψ : |ψ| ≤ X) {ε : ℝ} (hε : ε = 1e-14 * (1 + 6 * (k * X) ^ 2)) :
    let S := ueFun (k ^ 2) ψ
    S.s0 ≤ U0 (k ^ 2) ψ ∧ (1 - ε) * U0 (k ^ 2) ψ ≤ S.s0 ∧ 1 ≤ S.s0 ∧ S.s2 ≤ U2 (k ^ 2) ψ ∧ (1 - ε) * U2 (k ^ 2) ψ ≤ S.s2 ∧ 0 ≤ S.s2 ∧
      |S.s1 - U1 (k ^ 2) ψ| ≤ ε * |U1 (k ^ 2) ψ| ∧ |S.s1| ≤ |U1 (k ^ 2) ψ| ∧ |S.s3 - U3 (k ^ 2) ψ| ≤ ε * |U3 (k ^ 2) ψ| ∧ S.tol ≤ 1e-13 * (1 + 2.4 * (k * X)) := by
  intro S
  have key : ∀ p : ℝ, 0 ≤ p → p ≤ X → Near (k ^ 2) p ε (ueFun (k ^ 2) p) ∧ (ueFun (k ^ 2) p).tol ≤ 1e-13 * (1 + 2.4 * (k * X)) := by
    intro p hp hpX
    obtain ⟨h1, h2⟩ := fun_hyp hk hp
    have a : k * p ≤ k * X := mul_le_mul_of_nonneg_left hpX hk.le
    have b : (k * p) ^ 2 ≤ (k * X) ^ 2 := pow_le_pow_left₀ (by positivity) a 2
    exact ⟨near_weaken (by rw [hε]; linarith) hp h1, by linarith⟩
  have fin : ∀ p : ℝ, 0 ≤ p → ∀ f : UeFun, Near (k ^ 2) p ε f → |f.s1 - U1 (k ^ 2) p| ≤ ε * |U1 (k ^ 2) p| ∧ |f.s1| ≤ |U1 (k ^ 2) p| ∧ |f.s3 - U3 (k ^ 2) p| ≤ ε * |U3 (k ^ 2) p| := by
    intro p hp f h
    have h1 : 0 ≤ f.s1 := hp.trans h.low1
    have h2 : 0 ≤ U1 (k ^ 2) p := h1.trans h.u1
    have h3 : 0 ≤ U3 (k ^ 2) p := h.nn3.trans h.u3
    rw [abs_of_nonneg h2, abs_of_nonneg h3, abs_of_nonneg h1, abs_of_nonpos (by linarith [h.u1]), abs_of_nonpos (by linarith [h.u3])]
    exact ⟨by linarith [h.l1], h.u1, by linarith [h.l3]⟩
  rcases le_total 0 ψ with h | h
  · rw [abs_of_nonneg h] at hψ
    obtain ⟨h1, h2⟩ := key ψ h hψ
    obtain ⟨f1, f2, f3⟩ := fin ψ h _ h1
    exact ⟨h1.u0, h1.l0, h1.one, h1.u2, h1.l2, h1.nn2, f1, f2, f3, h2⟩
  · rw [abs_of_nonpos h] at hψ
    obtain ⟨h1, h2⟩ := key (-ψ) (by linarith) hψ
    obtain ⟨f1, f2, f3⟩ := fin (-ψ) (by linarith) _ h1
    obtain ⟨o, -, -, n2, -, -, -, u0, -, u2, -, l0, -, l2, -⟩ := h1
    rw [fun_neg] at f1 f2 f3 h2 o n2 u0 u2 l0 l2
    rw [U1_odd] at f1 f2
    rw [U3_odd] at f3
    rw [U0_even] at u0 l0
    rw [U2_even] at u2 l2
    dsimp only at f1 f2 f3 h2 o n2 u0 u2 l0 l2
    rw [abs_neg, neg_sub_neg, abs_sub_comm] at f1 f3
    rw [abs_neg, abs_neg] at f2
    exact ⟨u0, l0, o, u2, l2, n2, f1, f2, f3, h2⟩

theorem U0_ge {k : ℝ} (hk : 0 < k) (s : ℝ) : 1 ≤ U0 (k ^ 2) s := by rw [U0_pos hk]; exact Real.one_le_cosh _
theorem U2_ge {k : ℝ} (hk : 0 < k) (s : ℝ) : 0 ≤ U2 (k ^ 2) s := by
  have h := id0 (k ^ 2) s
  have := U0_ge hk s
  have hk2 : 0 < k ^ 2 := by positivity
  by_contra hc
  push Not at hc
  nlinarith
theorem U0_le {k s X : ℝ} (hk : 0 < k) (h : |s| ≤ X) : U0 (k ^ 2) s ≤ U0 (k ^ 2) X := by
  rw [U0_pos hk, U0_pos hk, Real.cosh_le_cosh, abs_mul, abs_mul]
  exact mul_le_mul_of_nonneg_left (h.trans (le_abs_self X)) (abs_nonneg k)
theorem U2_le {k s X : ℝ} (hk : 0 < k) (h : |s| ≤ X) : U2 (k ^ 2) s ≤ U2 (k ^ 2) X := by
  have h1 := id0 (k ^ 2) s
  have h2 := id0 (k ^ 2) X
  have := U0_le hk h
  have hk2 : 0 < k ^ 2 := by positivity
  refine le_of_mul_le_mul_left ?_ hk2
  linarith

theorem abs_of_odd {f : ℝ → ℝ} (hodd : ∀ s, f (-s) = -f s) (hm : Monotone f) {s X : ℝ} (h : |s| ≤ X) : |f s| ≤ f X := by
  obtain ⟨h1, h2⟩ := abs_le.1 h
  rw [abs_le]
  refine ⟨?_, hm h2⟩
  rw [← hodd]; exact hm h1

/-- The distance and the time on |ψ| ≤ X. -/
theorem rr_le_X {k q mu X ψ : ℝ} (hk : 0 < k) (hq : 0 < q) (hmu : 0 ≤ mu) (h : |ψ| ≤ X) :
    q ≤ rr mu (k ^ 2) q 0 ψ ∧ rr mu (k ^ 2) q 0 ψ ≤ rr mu (k ^ 2) q 0 X := by
  have a := U0_ge hk ψ
  have b := U2_ge hk ψ
  have c := mul_le_mul_of_nonneg_left (U0_le hk h) hq.le
  have d := mul_le_mul_of_nonneg_left (U2_le hk h) hmu
  have e := mul_le_mul_of_nonneg_left a hq.le
  have f := mul_nonneg hmu b
  unfold rr
  constructor <;> linarith

theorem tt_lip_X {k q mu X s s' : ℝ} (hk : 0 < k) (hq : 0 < q) (hmu : 0 ≤ mu) (h : |s| ≤ X) (h' : |s'| ≤ X) :
    |tt mu (k ^ 2) q 0 s - tt mu (k ^ 2) q 0 s'| ≤ rr mu (k ^ 2) q 0 X * |s - s'| := by
  have hb : ∀ x ∈ Set.Icc (-X) X, ‖rr mu (k ^ 2) q 0 x‖ ≤ rr mu (k ^ 2) q 0 X := by
    intro x hx
    obtain ⟨h1, h2⟩ := rr_le_X hk hq hmu (abs_le.2 hx)
    rw [Real.norm_of_nonneg (by linarith)]
    exact h2
  have := Convex.norm_image_sub_le_of_norm_hasDerivWithin_le (f := tt mu (k ^ 2) q 0) (s := Set.Icc (-X) X) (C := rr mu (k ^ 2) q 0 X)
    (fun x _ => (tt_deriv x).hasDerivWithinAt) hb (convex_Icc _ _) (abs_le.1 h') (abs_le.1 h)
  rwa [Real.norm_eq_abs, Real.norm_eq_abs] at this

/-- The error of the sum that the code compares with dt, and of its last term. -/
theorem sum_err {k q mu X ψ ε : ℝ} (hk : 0 < k) (hq : 0 < q) (hmu : 0 ≤ mu) (h : |ψ| ≤ X) (hε : ε = 1e-14 * (1 + 6 * (k * X) ^ 2)) :
    |q * (ueFun (k ^ 2) ψ).s1 + 0 * (ueFun (k ^ 2) ψ).s2 + mu * (ueFun (k ^ 2) ψ).s3 - tt mu (k ^ 2) q 0 ψ| ≤ ε * (X * rr mu (k ^ 2) q 0 X) ∧
    mu * |(ueFun (k ^ 2) ψ).s3 - U3 (k ^ 2) ψ| ≤ ε * (X * rr mu (k ^ 2) q 0 X) := by
  obtain ⟨-, -, -, -, -, -, e1, -, e3, -⟩ := fun_near hk h hε
  have hX : 0 ≤ X := (abs_nonneg _).trans h
  have hε0 : 0 ≤ ε := by rw [hε]; positivity
  have m1 : Monotone (U1 (k ^ 2)) := monotone_of_hasDerivAt_nonneg (fun x => d1 _ x) fun x => by
    simp only [Pi.zero_apply]; linarith [U0_ge hk x]
  have m3 : Monotone (U3 (k ^ 2)) := monotone_of_hasDerivAt_nonneg (fun x => d3 _ x) fun x => U2_ge hk x
  have a1 := abs_of_odd (U1_odd (k ^ 2)) m1 h
  have a3 := abs_of_odd (U3_odd (k ^ 2)) m3 h
  have hT : q * U1 (k ^ 2) X + mu * U3 (k ^ 2) X ≤ X * rr mu (k ^ 2) q 0 X := by
    have := tt_lip_X (s := X) (s' := 0) hk hq hmu (by rw [abs_of_nonneg hX]) (by rw [abs_zero]; exact hX)
    rw [tt_zero, sub_zero, sub_zero, abs_of_nonneg hX] at this
    have := (le_abs_self _).trans this
    unfold tt at this
    linarith
  have f1 : q * |(ueFun (k ^ 2) ψ).s1 - U1 (k ^ 2) ψ| ≤ ε * (q * U1 (k ^ 2) X) := by
    have := mul_le_mul_of_nonneg_left (e1.trans (mul_le_mul_of_nonneg_left a1 hε0)) hq.le
    linarith
  have f3 : mu * |(ueFun (k ^ 2) ψ).s3 - U3 (k ^ 2) ψ| ≤ ε * (mu * U3 (k ^ 2) X) := by
    have := mul_le_mul_of_nonneg_left (e3.trans (mul_le_mul_of_nonneg_left a3 hε0)) hmu
    linarith
  have u1 : 0 ≤ U1 (k ^ 2) X := (abs_nonneg _).trans a1
  have hTε := mul_le_mul_of_nonneg_left hT hε0
  have g1 : 0 ≤ ε * (q * U1 (k ^ 2) X) := by positivity
  constructor
  · have e : q * (ueFun (k ^ 2) ψ).s1 + 0 * (ueFun (k ^ 2) ψ).s2 + mu * (ueFun (k ^ 2) ψ).s3 - tt mu (k ^ 2) q 0 ψ =
        q * ((ueFun (k ^ 2) ψ).s1 - U1 (k ^ 2) ψ) + mu * ((ueFun (k ^ 2) ψ).s3 - U3 (k ^ 2) ψ) := by unfold tt; ring
    rw [e]
    refine (abs_add_le _ _).trans ?_
    rw [abs_mul, abs_mul, abs_of_pos hq, abs_of_nonneg hmu]
    linarith
  · linarith

/-- The residual of Kepler's equation when the iteration has stopped, by a Newton or a secant step. -/
theorem residual_gen {dt ψ ψ₁ w F F1 R tol L E t t1 : ℝ} (hF : |F - t| ≤ E) (hR : |R| ≤ L) (hw : |w| < tol) (hE : 0 ≤ E)
    (hx : F - dt = w * R ∨ (|F1 - t1| ≤ E ∧ |t1 - t| ≤ L * |ψ₁ - ψ| ∧ (ψ₁ = ψ → F1 = F) ∧ (F - dt) * (F1 - dt) < 0 ∧ w = (F - dt) * (ψ₁ - ψ) / ((F1 - dt) - (F - dt)))) :
    |t - dt| ≤ tol * L + 3 * E := by
  have hL : 0 ≤ L := (abs_nonneg _).trans hR
  have htol : 0 ≤ tol := (abs_nonneg _).trans hw.le
  have main : |F - dt| ≤ tol * L + 2 * E := by
    rcases hx with hx | ⟨hF1, hT, hFF, hs, hx⟩
    · rw [hx, abs_mul]
      have := mul_le_mul hw.le hR (abs_nonneg _) htol
      linarith
    · set f := F - dt with hf
      set f1 := F1 - dt with hf1
      have hne : f1 - f ≠ 0 := by
        intro e
        have : f1 = f := by linarith
        rw [this] at hs
        nlinarith [mul_self_nonneg f]
      have hwe : w * (f1 - f) = f * (ψ₁ - ψ) := by rw [hx]; field_simp
      have hd : |f| ≤ |f1 - f| := by
        rcases mul_neg_iff.1 hs with ⟨h1, h2⟩ | ⟨h1, h2⟩
        · rw [abs_of_pos h1, abs_of_neg (by linarith)]; linarith
        · rw [abs_of_neg h1, abs_of_pos (by linarith)]; linarith
      set D := |ψ₁ - ψ| with hD
      have habs : |w| * |f1 - f| = |f| * D := by rw [hD, ← abs_mul, ← abs_mul, hwe]
      have hdp : 0 < |f1 - f| := abs_pos.2 hne
      have hwD : |w| ≤ D := by
        by_contra hc
        push Not at hc
        have : |f| * D < |w| * |f1 - f| := by
          calc |f| * D ≤ |f1 - f| * D := mul_le_mul_of_nonneg_right hd (abs_nonneg _)
            _ < |f1 - f| * |w| := mul_lt_mul_of_pos_left hc hdp
            _ = _ := mul_comm _ _
        linarith
      have htri : |f1 - f| ≤ L * D + 2 * E := by
        have e : f1 - f = (F1 - t1) + (t1 - t) - (F - t) := by rw [hf, hf1]; ring
        rw [e]
        have a := abs_sub ((F1 - t1) + (t1 - t)) (F - t)
        have b := abs_add_le (F1 - t1) (t1 - t)
        linarith
      have hDp : 0 < D := by
        by_contra hc
        have : D = 0 := le_antisymm (not_lt.1 hc) (abs_nonneg _)
        have : ψ₁ - ψ = 0 := abs_eq_zero.1 this
        exact hne (by rw [hf1, hf, hFF (by linarith), sub_self])
      have key : |f| * D ≤ (tol * L + 2 * E) * D := by
        rw [← habs]
        have a := mul_le_mul_of_nonneg_left htri (abs_nonneg w)
        have b : |w| * (L * D) ≤ tol * (L * D) := mul_le_mul_of_nonneg_right hw.le (by positivity)
        have c : |w| * (2 * E) ≤ D * (2 * E) := mul_le_mul_of_nonneg_right hwD (by positivity)
        linarith
      exact le_of_mul_le_mul_right key hDp
  have e : t - dt = (F - dt) - (F - t) := by ring
  rw [e]
  have := abs_sub (F - dt) (F - t)
  linarith

/-! ### The hyperbola in the plane of the orbit -/

section
variable {e : ℝ} (h1 : 1 < e)
include h1

theorem hc_pos (F : ℝ) : e - 1 ≤ e * cosh F - 1 ∧ 0 < e * cosh F - 1 := by
  have := mul_le_mul_of_nonneg_left (Real.one_le_cosh F) (by linarith : 0 ≤ e)
  constructor <;> linarith

omit h1 in
theorem hmean_deriv (F : ℝ) : HasDerivAt (fun F => e * sinh F - F) (e * cosh F - 1) F :=
  ((hasDerivAt_sinh F).const_mul e).sub (hasDerivAt_id F)

theorem hmean_surj : Function.Surjective fun F => e * sinh F - F := by
  have hc : Continuous fun F => e * sinh F - F := by fun_prop
  have hm : Monotone fun F => (e * sinh F - F) - (e - 1) * F := by
    refine monotone_of_hasDerivAt_nonneg (f' := fun F => (e * cosh F - 1) - (e - 1)) (fun x => ?_) fun x => ?_
    · exact ((hmean_deriv x).sub ((hasDerivAt_id x).const_mul (e - 1))).congr_deriv (by simp)
    · simp only [Pi.zero_apply]; linarith [(hc_pos h1 x).1]
  have he : 0 < e - 1 := by linarith
  refine hc.surjective ?_ ?_
  · refine Filter.tendsto_atTop_mono' _ ?_ (Filter.tendsto_id.const_mul_atTop he)
    filter_upwards [Filter.eventually_ge_atTop 0] with s hs
    have := hm hs
    simp only [sinh_zero, id] at this ⊢
    linarith
  · refine Filter.tendsto_atBot_mono' _ ?_ (Filter.tendsto_id.const_mul_atBot he)
    filter_upwards [Filter.eventually_le_atBot 0] with s hs
    have := hm hs
    simp only [sinh_zero, id] at this ⊢
    linarith

theorem hkappa_ge : 1 ≤ √((e + 1) / (e - 1)) := by
  rw [Real.one_le_sqrt, le_div_iff₀ (by linarith)]
  linarith

theorem hspeed (x : ℝ) : sinh x ^ 2 + √(e ^ 2 - 1) ^ 2 * cosh x ^ 2 ≤ (√((e + 1) / (e - 1)) * (e * cosh x - 1)) ^ 2 := by
  have he : 0 < e - 1 := by linarith
  have hβ := Real.sq_sqrt (show 0 ≤ e ^ 2 - 1 by nlinarith)
  have hκ := Real.sq_sqrt (show 0 ≤ (e + 1) / (e - 1) by positivity)
  have hκ' : √((e + 1) / (e - 1)) ^ 2 * (e - 1) = e + 1 := by rw [hκ]; field_simp
  rw [hβ, mul_pow]
  obtain ⟨p1, p2⟩ := hc_pos h1 x
  have e1 : sinh x ^ 2 + (e ^ 2 - 1) * cosh x ^ 2 = (e * cosh x + 1) * (e * cosh x - 1) := by rw [sinh_sq]; ring
  rw [e1]
  have hκ2 : 1 ≤ √((e + 1) / (e - 1)) ^ 2 := by
    by_contra hc
    push Not at hc
    nlinarith
  have e2 : e * cosh x + 1 ≤ √((e + 1) / (e - 1)) ^ 2 * (e * cosh x - 1) := by
    have : 0 ≤ (√((e + 1) / (e - 1)) ^ 2 - 1) * ((e * cosh x - 1) - (e - 1)) := mul_nonneg (by linarith) (by linarith)
    linarith
  have := mul_le_mul_of_nonneg_right e2 p2.le
  linarith

theorem hpos_moves (E E' : ℝ) :
    |cosh E - cosh E'| ≤ √((e + 1) / (e - 1)) * |(e * sinh E - E) - (e * sinh E' - E')| ∧
    |√(e ^ 2 - 1) * sinh E - √(e ^ 2 - 1) * sinh E'| ≤ √((e + 1) / (e - 1)) * |(e * sinh E - E) - (e * sinh E' - E')| := by
  have hκ0 : 0 ≤ √((e + 1) / (e - 1)) := Real.sqrt_nonneg _
  constructor
  · refine le_by_mono (g' := fun x => e * cosh x - 1) (f' := fun x => sinh x) (fun x => hasDerivAt_cosh x) hmean_deriv (fun x => ?_) (fun x => (hc_pos h1 x).2) E E'
    refine abs_le_of_sq_le_sq (h := ?_) (mul_nonneg hκ0 (hc_pos h1 x).2.le)
    have := hspeed h1 x
    have := sq_nonneg (√(e ^ 2 - 1) * cosh x)
    rw [mul_pow] at this
    linarith
  · refine le_by_mono (g' := fun x => e * cosh x - 1) (f' := fun x => √(e ^ 2 - 1) * cosh x) (fun x => (hasDerivAt_sinh x).const_mul _) hmean_deriv (fun x => ?_) (fun x => (hc_pos h1 x).2) E E'
    refine abs_le_of_sq_le_sq (h := ?_) (mul_nonneg hκ0 (hc_pos h1 x).2.le)
    have := hspeed h1 x
    have := sq_nonneg (sinh x)
    rw [mul_pow √(e ^ 2 - 1)]
    linarith

theorem hvel_moves (E E' : ℝ) :
    |sinh E / (e * cosh E - 1) - sinh E' / (e * cosh E' - 1)| ≤ 1 / (e - 1) ^ 2 * |(e * sinh E - E) - (e * sinh E' - E')| ∧
    |√(e ^ 2 - 1) * cosh E / (e * cosh E - 1) - √(e ^ 2 - 1) * cosh E' / (e * cosh E' - 1)| ≤ 1 / (e - 1) ^ 2 * |(e * sinh E - E) - (e * sinh E' - E')| := by
  have he : 0 < e - 1 := by linarith
  have hβ := Real.sq_sqrt (show 0 ≤ e ^ 2 - 1 by nlinarith)
  have den : ∀ x, HasDerivAt (fun x => e * cosh x - 1) (e * sinh x) x := fun x => ((hasDerivAt_cosh x).const_mul e).sub_const 1
  have fin : ∀ x A : ℝ, |A| ≤ e * cosh x - 1 → |A / (e * cosh x - 1) ^ 2| ≤ 1 / (e - 1) ^ 2 * (e * cosh x - 1) := by
    intro x A hA
    obtain ⟨p1, p2⟩ := hc_pos h1 x
    rw [abs_div, abs_of_pos (by positivity : 0 < (e * cosh x - 1) ^ 2), div_le_iff₀ (by positivity)]
    have : (e - 1) ^ 2 ≤ (e * cosh x - 1) ^ 2 := pow_le_pow_left₀ he.le p1 2
    have q : 1 ≤ 1 / (e - 1) ^ 2 * (e * cosh x - 1) ^ 2 := by
      rw [one_div_mul_eq_div, le_div_iff₀ (by positivity)]; linarith
    calc |A| ≤ 1 * (e * cosh x - 1) := by linarith
      _ ≤ 1 / (e - 1) ^ 2 * (e * cosh x - 1) ^ 2 * (e * cosh x - 1) := mul_le_mul_of_nonneg_right q p2.le
      _ = _ := by ring
  constructor
  · refine le_by_mono (g' := fun x => e * cosh x - 1) (f := fun E => sinh E / (e * cosh E - 1)) (f' := fun x => (e - cosh x) / (e * cosh x - 1) ^ 2) (fun x => ?_)
      hmean_deriv (fun x => fin x _ ?_) (fun x => (hc_pos h1 x).2) E E'
    · have := (hasDerivAt_sinh x).div (den x) (hc_pos h1 x).2.ne'
      refine HasDerivAt.congr_deriv (f' := _) (by exact this) ?_
      congr 1
      linear_combination e * cosh_sq x
    · rw [abs_le]
      have := Real.one_le_cosh x
      constructor <;> nlinarith
  · refine le_by_mono (g' := fun x => e * cosh x - 1) (f := fun E => √(e ^ 2 - 1) * cosh E / (e * cosh E - 1)) (f' := fun x => (-(√(e ^ 2 - 1) * sinh x)) / (e * cosh x - 1) ^ 2) (fun x => ?_)
      hmean_deriv (fun x => fin x _ ?_) (fun x => (hc_pos h1 x).2) E E'
    · have := ((hasDerivAt_cosh x).const_mul √(e ^ 2 - 1)).div (den x) (hc_pos h1 x).2.ne'
      refine HasDerivAt.congr_deriv (f' := _) (by exact this) ?_
      congr 1
      ring
    · rw [abs_neg]
      refine abs_le_of_sq_le_sq (h := ?_) (hc_pos h1 x).2.le
      rw [mul_pow, hβ, sinh_sq]
      nlinarith [sq_nonneg (cosh x - e)]

end

end Pal.Hyperbola
