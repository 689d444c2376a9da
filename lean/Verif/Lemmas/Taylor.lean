import Mathlib.Analysis.SpecialFunctions.Trigonometric.Bounds
import Mathlib.Analysis.SpecialFunctions.Trigonometric.Deriv
import Mathlib.Analysis.Calculus.Deriv.MeanValue

/-! # Taylor bounds of sine and cosine to the eighth order -/

namespace Pal
open Real

theorem taylor_step {f f' : ℝ → ℝ} (h0 : f 0 = 0) (hd : ∀ x, HasDerivAt f (f' x) x) (hp : ∀ x, 0 ≤ x → 0 ≤ f' x) : ∀ x, 0 ≤ x → 0 ≤ f x := by
  intro x hx
  have hm : MonotoneOn f (Set.Ici 0) := by
    refine monotoneOn_of_deriv_nonneg (convex_Ici 0) (fun y _ => (hd y).continuousAt.continuousWithinAt) (fun y _ => (hd y).differentiableAt.differentiableWithinAt) ?_
    intro y hy
    rw [interior_Ici] at hy
    rw [(hd y).deriv]
    exact hp y (le_of_lt hy)
  have := hm (Set.mem_Ici.2 le_rfl) (Set.mem_Ici.2 hx) hx
  rwa [h0] at this

theorem hpow (n : ℕ) (c x : ℝ) : HasDerivAt (fun y : ℝ => y ^ n / c) (n * x ^ (n - 1) / c) x := (hasDerivAt_pow n x).div_const c

theorem sin_t5 : ∀ x : ℝ, 0 ≤ x → sin x ≤ x - x ^ 3 / 6 + x ^ 5 / 120 := by
  have c4 : ∀ x : ℝ, 0 ≤ x → 0 ≤ 1 - x ^ 2 / 2 + x ^ 4 / 24 - cos x := by
    refine taylor_step (f' := fun x => sin x - (x - x ^ 3 / 6)) (by simp) (fun x => ?_) (fun x hx => by linarith [sin_ge_sub_cube hx])
    have := (((hasDerivAt_const x (1 : ℝ)).sub (hpow 2 2 x)).add (hpow 4 24 x)).sub (Real.hasDerivAt_cos x)
    exact this.congr_deriv (by norm_num; ring)
  intro x hx
  have := taylor_step (f := fun x => x - x ^ 3 / 6 + x ^ 5 / 120 - sin x) (f' := fun x => 1 - x ^ 2 / 2 + x ^ 4 / 24 - cos x) (by simp) (fun x => ?_) c4 x hx
  · linarith
  · have := (((hasDerivAt_id x).sub (hpow 3 6 x)).add (hpow 5 120 x)).sub (Real.hasDerivAt_sin x)
    exact this.congr_deriv (by norm_num; ring)

theorem cos_t6 : ∀ x : ℝ, 0 ≤ x → 1 - x ^ 2 / 2 + x ^ 4 / 24 - x ^ 6 / 720 ≤ cos x := by
  intro x hx
  have := taylor_step (f := fun x => cos x - (1 - x ^ 2 / 2 + x ^ 4 / 24 - x ^ 6 / 720)) (f' := fun x => x - x ^ 3 / 6 + x ^ 5 / 120 - sin x) (by simp) (fun x => ?_)
    (fun x hx => by linarith [sin_t5 x hx]) x hx
  · linarith
  · have := (Real.hasDerivAt_cos x).sub ((((hasDerivAt_const x (1 : ℝ)).sub (hpow 2 2 x)).add (hpow 4 24 x)).sub (hpow 6 720 x))
    exact this.congr_deriv (by norm_num; ring)

theorem sin_t7 : ∀ x : ℝ, 0 ≤ x → x - x ^ 3 / 6 + x ^ 5 / 120 - x ^ 7 / 5040 ≤ sin x := by
  intro x hx
  have := taylor_step (f := fun x => sin x - (x - x ^ 3 / 6 + x ^ 5 / 120 - x ^ 7 / 5040)) (f' := fun x => cos x - (1 - x ^ 2 / 2 + x ^ 4 / 24 - x ^ 6 / 720)) (by simp) (fun x => ?_)
    (fun x hx => by linarith [cos_t6 x hx]) x hx
  · linarith
  · have := (Real.hasDerivAt_sin x).sub ((((hasDerivAt_id x).sub (hpow 3 6 x)).add (hpow 5 120 x)).sub (hpow 7 5040 x))
    exact this.congr_deriv (by norm_num; ring)

theorem cos_t8 : ∀ x : ℝ, 0 ≤ x → cos x ≤ 1 - x ^ 2 / 2 + x ^ 4 / 24 - x ^ 6 / 720 + x ^ 8 / 40320 := by
  intro x hx
  have := taylor_step (f := fun x => 1 - x ^ 2 / 2 + x ^ 4 / 24 - x ^ 6 / 720 + x ^ 8 / 40320 - cos x) (f' := fun x => sin x - (x - x ^ 3 / 6 + x ^ 5 / 120 - x ^ 7 / 5040)) (by simp) (fun x => ?_)
    (fun x hx => by linarith [sin_t7 x hx]) x hx
  · linarith
  · have := (((((hasDerivAt_const x (1 : ℝ)).sub (hpow 2 2 x)).add (hpow 4 24 x)).sub (hpow 6 720 x)).add (hpow 8 40320 x)).sub (Real.hasDerivAt_cos x)
    exact this.congr_deriv (by norm_num; ring)

theorem sin_t9 : ∀ x : ℝ, 0 ≤ x → sin x ≤ x - x ^ 3 / 6 + x ^ 5 / 120 - x ^ 7 / 5040 + x ^ 9 / 362880 := by
  intro x hx
  have := taylor_step (f := fun x => x - x ^ 3 / 6 + x ^ 5 / 120 - x ^ 7 / 5040 + x ^ 9 / 362880 - sin x) (f' := fun x => 1 - x ^ 2 / 2 + x ^ 4 / 24 - x ^ 6 / 720 + x ^ 8 / 40320 - cos x) (by simp) (fun x => ?_)
    (fun x hx => by linarith [cos_t8 x hx]) x hx
  · linarith
  · have := (((((hasDerivAt_id x).sub (hpow 3 6 x)).add (hpow 5 120 x)).sub (hpow 7 5040 x)).add (hpow 9 362880 x)).sub (Real.hasDerivAt_sin x)
    exact this.congr_deriv (by norm_num; ring)

theorem cos_t10 : ∀ x : ℝ, 0 ≤ x → 1 - x ^ 2 / 2 + x ^ 4 / 24 - x ^ 6 / 720 + x ^ 8 / 40320 - x ^ 10 / 3628800 ≤ cos x := by
  intro x hx
  have := taylor_step (f := fun x => cos x - (1 - x ^ 2 / 2 + x ^ 4 / 24 - x ^ 6 / 720 + x ^ 8 / 40320 - x ^ 10 / 3628800)) (f' := fun x => x - x ^ 3 / 6 + x ^ 5 / 120 - x ^ 7 / 5040 + x ^ 9 / 362880 - sin x) (by simp) (fun x => ?_)
    (fun x hx => by linarith [sin_t9 x hx]) x hx
  · linarith
  · have := (Real.hasDerivAt_cos x).sub ((((((hasDerivAt_const x (1 : ℝ)).sub (hpow 2 2 x)).add (hpow 4 24 x)).sub (hpow 6 720 x)).add (hpow 8 40320 x)).sub (hpow 10 3628800 x))
    exact this.congr_deriv (by norm_num; ring)

theorem sin_t11 : ∀ x : ℝ, 0 ≤ x → x - x ^ 3 / 6 + x ^ 5 / 120 - x ^ 7 / 5040 + x ^ 9 / 362880 - x ^ 11 / 39916800 ≤ sin x := by
  intro x hx
  have := taylor_step (f := fun x => sin x - (x - x ^ 3 / 6 + x ^ 5 / 120 - x ^ 7 / 5040 + x ^ 9 / 362880 - x ^ 11 / 39916800)) (f' := fun x => cos x - (1 - x ^ 2 / 2 + x ^ 4 / 24 - x ^ 6 / 720 + x ^ 8 / 40320 - x ^ 10 / 3628800)) (by simp) (fun x => ?_)
    (fun x hx => by linarith [cos_t10 x hx]) x hx
  · linarith
  · have := (Real.hasDerivAt_sin x).sub ((((((hasDerivAt_id x).sub (hpow 3 6 x)).add (hpow 5 120 x)).sub (hpow 7 5040 x)).add (hpow 9 362880 x)).sub (hpow 11 39916800 x))
    exact this.congr_deriv (by norm_num; ring)

theorem cos_t12 : ∀ x : ℝ, 0 ≤ x → cos x ≤ 1 - x ^ 2 / 2 + x ^ 4 / 24 - x ^ 6 / 720 + x ^ 8 / 40320 - x ^ 10 / 3628800 + x ^ 12 / 479001600 := by
  intro x hx
  have := taylor_step (f := fun x => 1 - x ^ 2 / 2 + x ^ 4 / 24 - x ^ 6 / 720 + x ^ 8 / 40320 - x ^ 10 / 3628800 + x ^ 12 / 479001600 - cos x) (f' := fun x => sin x - (x - x ^ 3 / 6 + x ^ 5 / 120 - x ^ 7 / 5040 + x ^ 9 / 362880 - x ^ 11 / 39916800)) (by simp) (fun x => ?_)
    (fun x hx => by linarith [sin_t11 x hx]) x hx
  · linarith
  · have := (((((((hasDerivAt_const x (1 : ℝ)).sub (hpow 2 2 x)).add (hpow 4 24 x)).sub (hpow 6 720 x)).add (hpow 8 40320 x)).sub (hpow 10 3628800 x)).add (hpow 12 479001600 x)).sub (Real.hasDerivAt_cos x)
    exact this.congr_deriv (by norm_num; ring)

end Pal
