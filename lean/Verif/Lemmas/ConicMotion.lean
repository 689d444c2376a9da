import Verif.Lemmas.KeplerUnique
import Verif.Lemmas.Kepler
import Mathlib.Analysis.SpecialFunctions.Trigonometric.DerivHyp
import Mathlib.Analysis.Calculus.Deriv.Inverse
import Mathlib.Topology.Order.MonotoneContinuity

/-! # Motion on a conic section by Kepler's laws is two-body motion -/

namespace Pal.Conic
open Real Pal.Spec Pal.Kepler

/-- The vector on the axes of the ecliptic, coefficient by coefficient. -/
theorem ecl_lin (w i o : ℝ) (j : Fin 3) : ∃ A B : ℝ, ∀ x y, fromOrbit 0 1 w i o x y j = A * x + B * y := by
  simp only [fromOrbit_ecl]
  fin_cases j
  · refine ⟨cos w * cos o - sin w * cos i * sin o, -(sin w * cos o) - cos w * cos i * sin o, fun x y => ?_⟩
    simp; ring
  · refine ⟨cos w * sin o + sin w * cos i * cos o, -(sin w * sin o) + cos w * cos i * cos o, fun x y => ?_⟩
    simp; ring
  · refine ⟨sin w * sin i, cos w * sin i, fun x y => ?_⟩
    simp; ring

theorem ecl_len (w i o x y : ℝ) : len (fromOrbit 0 1 w i o x y) = √(x ^ 2 + y ^ 2) := by
  rw [len_eq, dot_eq, fromOrbit_ecl]
  congr 1
  simp
  grind [Real.sin_sq_add_cos_sq w, Real.sin_sq_add_cos_sq i, Real.sin_sq_add_cos_sq o]

/-- Motion in the plane of the orbit that obeys the inverse-square law is two-body motion in space. -/
theorem plane_motion {mu : ℝ} (w i o : ℝ) {x y xd yd : ℝ → ℝ} (h0 : ∀ t, 0 < x t ^ 2 + y t ^ 2) (hx : ∀ t, HasDerivAt x (xd t) t) (hy : ∀ t, HasDerivAt y (yd t) t)
    (hxd : ∀ t, HasDerivAt xd (-mu * x t / √(x t ^ 2 + y t ^ 2) ^ 3) t) (hyd : ∀ t, HasDerivAt yd (-mu * y t / √(x t ^ 2 + y t ^ 2) ^ 3) t) :
    TwoBody mu (fun t => fromOrbit 0 1 w i o (x t) (y t)) (fun t => fromOrbit 0 1 w i o (xd t) (yd t)) := by
  refine ⟨fun t => ?_, fun t j => ?_, fun t j => ?_⟩
  · rw [ecl_len]; exact Real.sqrt_pos.2 (h0 t)
  · obtain ⟨A, B, hl⟩ := ecl_lin w i o j
    simp only [hl]
    exact ((hx t).const_mul A).add ((hy t).const_mul B)
  · rw [ecl_len]
    obtain ⟨A, B, hl⟩ := ecl_lin w i o j
    simp only [hl]
    refine (((hxd t).const_mul A).add ((hyd t).const_mul B)).congr_deriv ?_
    ring

/-- A differentiable bijection of the line with positive derivative has a differentiable inverse. -/
theorem inverse_deriv {f f' : ℝ → ℝ} (hf : ∀ s, HasDerivAt f (f' s) s) (hpos : ∀ s, 0 < f' s) (hs : Function.Surjective f) :
    ∃ g : ℝ → ℝ, (∀ t, f (g t) = t) ∧ (∀ s, g (f s) = s) ∧ ∀ t, HasDerivAt g (f' (g t))⁻¹ t := by
  have hm : StrictMono f := strictMono_of_deriv_pos fun s => by rw [(hf s).deriv]; exact hpos s
  let e := hm.orderIsoOfSurjective _ hs
  have hse : ∀ t, f (e.symm t) = t := fun t => e.apply_symm_apply t
  exact ⟨e.symm, hse, fun s => e.symm_apply_apply s, fun t =>
    HasDerivAt.of_local_left_inverse (e.symm.continuous.continuousAt) (hf _) (hpos _).ne' (Filter.Eventually.of_forall hse)⟩

theorem surj_of {f : ℝ → ℝ} (hc : Continuous f) (h1 : Filter.Tendsto f Filter.atTop Filter.atTop) (h2 : Filter.Tendsto f Filter.atBot Filter.atBot) :
    Function.Surjective f := hc.surjective h1 h2

/-- **Ellipse** -/
theorem ellipse_motion (w i o : ℝ) {a e n mu : ℝ} (ha : 0 < a) (he0 : 0 ≤ e) (he1 : e < 1) (hmu : n ^ 2 * a ^ 3 = mu) (M0 t0 : ℝ) :
    ∃ X V : ℝ → Fin 3 → ℝ, TwoBody mu X V ∧ ∀ t x y xd yd, KeplerEllipse a e n (M0 + n * (t - t0)) x y xd yd →
      X t = fromOrbit 0 1 w i o x y ∧ V t = fromOrbit 0 1 w i o xd yd := by
  have hpos : ∀ s, 0 < 1 - e * cos s := fun s => by nlinarith [Real.cos_le_one s]
  have hd : ∀ s, HasDerivAt (fun s => s - e * sin s) (1 - e * cos s) s := fun s => (hasDerivAt_id s).sub ((Real.hasDerivAt_sin s).const_mul e)
  have hb : ∀ s, |e * sin s| ≤ 1 := fun s => by
    rw [abs_mul, abs_of_nonneg he0]; nlinarith [Real.abs_sin_le_one s, abs_nonneg (sin s)]
  obtain ⟨g, g1, g2, g3⟩ := inverse_deriv hd hpos (surj_of (by fun_prop)
    (Filter.tendsto_atTop_mono (fun s => by linarith [(abs_le.1 (hb s)).2] : ∀ s : ℝ, s - 1 ≤ s - e * sin s) (Filter.tendsto_atTop_add_const_right _ _ Filter.tendsto_id))
    (Filter.tendsto_atBot_mono (fun s => by linarith [(abs_le.1 (hb s)).1] : ∀ s : ℝ, s - e * sin s ≤ s + 1) (Filter.tendsto_atBot_add_const_right _ _ Filter.tendsto_id)))
  set β := √(1 - e ^ 2) with hβ
  have hβ2 : β ^ 2 = 1 - e ^ 2 := Real.sq_sqrt (sub_nonneg.2 (pow_le_one₀ he0 he1.le))
  set E : ℝ → ℝ := fun t => g (M0 + n * (t - t0)) with hE
  have hEd : ∀ t, HasDerivAt E (n / (1 - e * cos (E t))) t := fun t => by
    have h1 : HasDerivAt (fun t => M0 + n * (t - t0)) n t := by
      simpa using (((hasDerivAt_id t).sub_const t0).const_mul n).const_add M0
    refine ((g3 _).comp t h1).congr_deriv ?_
    rw [inv_mul_eq_div]
  have hr2 : ∀ s, (a * (cos s - e)) ^ 2 + (a * β * sin s) ^ 2 = (a * (1 - e * cos s)) ^ 2 := fun s => by
    have := Real.sin_sq_add_cos_sq s
    rw [mul_pow, mul_pow, mul_pow, hβ2, mul_pow]; grind
  have hr : ∀ s, √((a * (cos s - e)) ^ 2 + (a * β * sin s) ^ 2) = a * (1 - e * cos s) := fun s => by
    rw [hr2, Real.sqrt_sq (mul_pos ha (hpos s)).le]
  refine ⟨fun t => fromOrbit 0 1 w i o (a * (cos (E t) - e)) (a * β * sin (E t)),
    fun t => fromOrbit 0 1 w i o (-(a * n * sin (E t)) / (1 - e * cos (E t))) (a * n * β * cos (E t) / (1 - e * cos (E t))), plane_motion w i o ?_ ?_ ?_ ?_ ?_, ?_⟩
  · intro t; rw [hr2]; exact pow_pos (mul_pos ha (hpos _)) 2
  · intro t
    refine (((hEd t).cos.sub_const e).const_mul a).congr_deriv ?_
    have := (hpos (E t)).ne'
    field_simp
  · intro t
    refine ((hEd t).sin.const_mul (a * β)).congr_deriv ?_
    have := (hpos (E t)).ne'
    field_simp
  · intro t
    have h0 := (hpos (E t)).ne'
    refine ((((hEd t).sin.const_mul (a * n)).neg).div (((hEd t).cos.const_mul e).const_sub 1) h0).congr_deriv ?_
    rw [hr, ← hmu]
    simp only [Pi.neg_apply]
    have hsc := Real.sin_sq_add_cos_sq (E t)
    generalize sin (E t) = s at *
    generalize cos (E t) = c at *
    field_simp
    linear_combination (e * n ^ 2 / (1 - e * c) ^ 3) * hsc
  · intro t
    have h0 := (hpos (E t)).ne'
    refine (((hEd t).cos.const_mul (a * n * β)).div (((hEd t).cos.const_mul e).const_sub 1) h0).congr_deriv ?_
    rw [hr, ← hmu]
    have hsc := Real.sin_sq_add_cos_sq (E t)
    generalize sin (E t) = s at *
    generalize cos (E t) = c at *
    field_simp
    ring
  · rintro t x y xd yd ⟨s, h1, h2, h3, h4, h5⟩
    have hs : E t = s := by rw [hE]; dsimp only; rw [h1]; exact g2 s
    have h0 := (hpos s).ne'
    dsimp only
    rw [hs, h2, h3, eq_div_of_mul_eq h0 h4, eq_div_of_mul_eq h0 h5]
    exact ⟨rfl, rfl⟩

/-- **Hyperbola** -/
theorem hyperbola_motion (w i o : ℝ) {a e n mu : ℝ} (ha : 0 < a) (he1 : 1 < e) (hmu : n ^ 2 * a ^ 3 = mu) (M0 t0 : ℝ) :
    ∃ X V : ℝ → Fin 3 → ℝ, TwoBody mu X V ∧ ∀ t x y xd yd, KeplerHyperbola a e n (M0 + n * (t - t0)) x y xd yd →
      X t = fromOrbit 0 1 w i o x y ∧ V t = fromOrbit 0 1 w i o xd yd := by
  have hpos : ∀ s, 0 < e * cosh s - 1 := fun s => by nlinarith [Real.one_le_cosh s]
  have hd : ∀ s, HasDerivAt (fun s => e * sinh s - s) (e * cosh s - 1) s := fun s => ((Real.hasDerivAt_sinh s).const_mul e).sub (hasDerivAt_id s)
  obtain ⟨g, g1, g2, g3⟩ := inverse_deriv hd hpos (surj_of (by fun_prop)
    (Filter.tendsto_atTop_mono' _ ((Filter.eventually_ge_atTop 0).mono fun s hs => by
      have := Real.self_le_sinh_iff.2 hs
      show (e - 1) * s ≤ e * sinh s - s
      nlinarith) (Filter.tendsto_id.const_mul_atTop (by linarith : 0 < e - 1)))
    (Filter.tendsto_atBot_mono' _ ((Filter.eventually_le_atBot 0).mono fun s hs => by
      have := Real.sinh_le_self_iff.2 hs
      show e * sinh s - s ≤ (e - 1) * s
      nlinarith) (Filter.tendsto_id.const_mul_atBot (by linarith : 0 < e - 1))))
  set β := √(e ^ 2 - 1) with hβ
  have hβ2 : β ^ 2 = e ^ 2 - 1 := Real.sq_sqrt (by nlinarith)
  set E : ℝ → ℝ := fun t => g (M0 + n * (t - t0)) with hE
  have hEd : ∀ t, HasDerivAt E (n / (e * cosh (E t) - 1)) t := fun t => by
    have h1 : HasDerivAt (fun t => M0 + n * (t - t0)) n t := by
      simpa using (((hasDerivAt_id t).sub_const t0).const_mul n).const_add M0
    refine ((g3 _).comp t h1).congr_deriv ?_
    rw [inv_mul_eq_div]
  have hr2 : ∀ s, (a * (e - cosh s)) ^ 2 + (a * β * sinh s) ^ 2 = (a * (e * cosh s - 1)) ^ 2 := fun s => by
    have := Real.cosh_sq s
    rw [mul_pow, mul_pow, mul_pow, hβ2, mul_pow]; grind
  have hr : ∀ s, √((a * (e - cosh s)) ^ 2 + (a * β * sinh s) ^ 2) = a * (e * cosh s - 1) := fun s => by
    rw [hr2, Real.sqrt_sq (mul_pos ha (hpos s)).le]
  refine ⟨fun t => fromOrbit 0 1 w i o (a * (e - cosh (E t))) (a * β * sinh (E t)),
    fun t => fromOrbit 0 1 w i o (-(a * n * sinh (E t)) / (e * cosh (E t) - 1)) (a * n * β * cosh (E t) / (e * cosh (E t) - 1)), plane_motion w i o ?_ ?_ ?_ ?_ ?_, ?_⟩
  · intro t; rw [hr2]; exact pow_pos (mul_pos ha (hpos _)) 2
  · intro t
    refine (((hEd t).cosh.const_sub e).const_mul a).congr_deriv ?_
    have := (hpos (E t)).ne'
    field_simp
  · intro t
    refine ((hEd t).sinh.const_mul (a * β)).congr_deriv ?_
    have := (hpos (E t)).ne'
    field_simp
  · intro t
    have h0 := (hpos (E t)).ne'
    refine ((((hEd t).sinh.const_mul (a * n)).neg).div (((hEd t).cosh.const_mul e).sub_const 1) h0).congr_deriv ?_
    rw [hr, ← hmu]
    simp only [Pi.neg_apply]
    have hsc := Real.cosh_sq (E t)
    generalize sinh (E t) = s at *
    generalize cosh (E t) = c at *
    field_simp
    linear_combination (-e * n ^ 2 / (e * c - 1) ^ 3) * hsc
  · intro t
    have h0 := (hpos (E t)).ne'
    refine (((hEd t).cosh.const_mul (a * n * β)).div (((hEd t).cosh.const_mul e).sub_const 1) h0).congr_deriv ?_
    rw [hr, ← hmu]
    generalize sinh (E t) = s at *
    generalize cosh (E t) = c at *
    field_simp
    ring
  · rintro t x y xd yd ⟨s, h1, h2, h3, h4, h5⟩
    have hs : E t = s := by rw [hE]; dsimp only; rw [h1]; exact g2 s
    have h0 := (hpos s).ne'
    dsimp only
    rw [hs, h2, h3, eq_div_of_mul_eq h0 h4, eq_div_of_mul_eq h0 h5]
    exact ⟨rfl, rfl⟩

/-- **Parabola** -/
theorem parabola_motion (w i o : ℝ) {q mu : ℝ} (hq : 0 < q) (hmu : 0 < mu) (t0 : ℝ) :
    ∃ X V : ℝ → Fin 3 → ℝ, TwoBody mu X V ∧ ∀ t x y xd yd, KeplerParabola q mu (t - t0) x y xd yd →
      X t = fromOrbit 0 1 w i o x y ∧ V t = fromOrbit 0 1 w i o xd yd := by
  have hpos : ∀ s : ℝ, 0 < 1 + s ^ 2 := fun s => by positivity
  have hd : ∀ s : ℝ, HasDerivAt (fun s => s + s ^ 3 / 3) (1 + s ^ 2) s := fun s => by
    refine ((hasDerivAt_id s).add ((hasDerivAt_pow 3 s).div_const 3)).congr_deriv ?_
    norm_num
  obtain ⟨g, g1, g2, g3⟩ := inverse_deriv hd hpos (surj_of (by fun_prop)
    (Filter.tendsto_atTop_mono' _ ((Filter.eventually_ge_atTop 0).mono fun s hs => by
      show s ≤ s + s ^ 3 / 3
      have : 0 ≤ s ^ 3 := pow_nonneg hs 3
      linarith) Filter.tendsto_id)
    (Filter.tendsto_atBot_mono' _ ((Filter.eventually_le_atBot 0).mono fun s hs => by
      show s + s ^ 3 / 3 ≤ s
      have : 0 ≤ (-s) ^ 3 := pow_nonneg (by linarith) 3
      nlinarith) Filter.tendsto_id))
  set T := √(2 * q ^ 3 / mu) with hT
  have hT0 : 0 < T := Real.sqrt_pos.2 (by positivity)
  have hT2 : T ^ 2 * mu = 2 * q ^ 3 := by rw [hT, Real.sq_sqrt (by positivity)]; field_simp
  set v := √(2 * mu / q) with hv
  have hvT : v * T = 2 * q := by
    rw [hv, hT, ← Real.sqrt_mul (by positivity), show 2 * mu / q * (2 * q ^ 3 / mu) = (2 * q) ^ 2 by field_simp, Real.sqrt_sq (by positivity)]
  clear_value T v
  have hvv : v = 2 * q / T := by rw [← hvT]; field_simp
  have hmu' : mu = 2 * q ^ 3 / T ^ 2 := by rw [← hT2]; field_simp
  set D : ℝ → ℝ := fun t => g ((t - t0) / T) with hD
  have hDd : ∀ t, HasDerivAt D (1 / (T * (1 + D t ^ 2))) t := fun t => by
    have h1 : HasDerivAt (fun t => (t - t0) / T) (1 / T) t := ((hasDerivAt_id t).sub_const t0).div_const T
    refine ((g3 _).comp t h1).congr_deriv ?_
    rw [inv_mul_eq_div, div_div]
  have hr2 : ∀ s : ℝ, (q * (1 - s ^ 2)) ^ 2 + (2 * q * s) ^ 2 = (q * (1 + s ^ 2)) ^ 2 := fun s => by ring
  have hr : ∀ s : ℝ, √((q * (1 - s ^ 2)) ^ 2 + (2 * q * s) ^ 2) = q * (1 + s ^ 2) := fun s => by
    rw [hr2, Real.sqrt_sq (mul_pos hq (hpos s)).le]
  refine ⟨fun t => fromOrbit 0 1 w i o (q * (1 - D t ^ 2)) (2 * q * D t),
    fun t => fromOrbit 0 1 w i o (-(v * D t) / (1 + D t ^ 2)) (v / (1 + D t ^ 2)), plane_motion w i o ?_ ?_ ?_ ?_ ?_, ?_⟩
  · intro t; rw [hr2]; exact pow_pos (mul_pos hq (hpos _)) 2
  · intro t
    refine ((((hDd t).pow 2).const_sub 1).const_mul q).congr_deriv ?_
    rw [hvv]
    have := (hpos (D t)).ne'
    field_simp
    norm_num
    ring
  · intro t
    refine ((hDd t).const_mul (2 * q)).congr_deriv ?_
    rw [hvv]
    have := (hpos (D t)).ne'
    field_simp
  · intro t
    have h0 := (hpos (D t)).ne'
    refine ((((hDd t).const_mul v).neg).div (((hDd t).pow 2).const_add 1) h0).congr_deriv ?_
    rw [hr, hmu', hvv]
    simp only [Pi.neg_apply, Pi.pow_apply]
    generalize D t = d at *
    field_simp
    norm_num
    ring
  · intro t
    have h0 := (hpos (D t)).ne'
    refine ((hasDerivAt_const t v).div (((hDd t).pow 2).const_add 1) h0).congr_deriv ?_
    rw [hr, hmu', hvv]
    simp only [Pi.pow_apply]
    generalize D t = d at *
    field_simp
    norm_num
    ring
  · rintro t x y xd yd ⟨s, h1, h2, h3, h4, h5⟩
    have hs : D t = s := by rw [hD]; dsimp only; rw [h1, ← hT, mul_div_cancel_left₀ _ hT0.ne']; exact g2 s
    have h0 := (hpos s).ne'
    dsimp only
    rw [hs, h2, h3, eq_div_of_mul_eq h0 h4, eq_div_of_mul_eq h0 h5, ← hv]
    exact ⟨rfl, rfl⟩

end Pal.Conic
