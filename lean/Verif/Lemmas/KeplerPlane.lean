import Verif.Props.Kepler
import Verif.Props.OrbitEl

/-! # The ellipse in the plane of the orbit: helpers for C112 -/

namespace Pal.Plane
open Real Pal.Spec Pal.Orbit Pal.Stumpff Pal.Kepler Pal.Ellipse Pal.Props

/-- A function whose derivative is bounded by a multiple of that of an increasing function. -/
theorem le_by_mono {f f' g g' : ℝ → ℝ} {C : ℝ} (hf : ∀ x, HasDerivAt f (f' x) x) (hg : ∀ x, HasDerivAt g (g' x) x) (h : ∀ x, |f' x| ≤ C * g' x)
    (hg0 : ∀ x, 0 < g' x) (x y : ℝ) : |f x - f y| ≤ C * |g x - g y| := by
  have m1 : Monotone fun x => C * g x - f x := by
    refine monotone_of_hasDerivAt_nonneg (fun x => ((hg x).const_mul C).sub (hf x)) fun x => ?_
    have := (abs_le.1 (h x)).2
    simp only [Pi.zero_apply]; linarith
  have m2 : Monotone fun x => C * g x + f x := by
    refine monotone_of_hasDerivAt_nonneg (fun x => ((hg x).const_mul C).add (hf x)) fun x => ?_
    have := (abs_le.1 (h x)).1
    simp only [Pi.zero_apply]; linarith
  have m3 : Monotone g := monotone_of_hasDerivAt_nonneg hg fun x => (hg0 x).le
  rcases le_total x y with hxy | hxy
  · have a1 := m1 hxy
    have a2 := m2 hxy
    have a3 := m3 hxy
    simp only at a1 a2
    rw [abs_of_nonpos (sub_nonpos.2 a3), abs_le]
    constructor <;> linarith
  · have a1 := m1 hxy
    have a2 := m2 hxy
    have a3 := m3 hxy
    simp only at a1 a2
    rw [abs_of_nonneg (sub_nonneg.2 a3), abs_le]
    constructor <;> linarith

section
variable {e : ℝ} (h0 : 0 ≤ e) (h1 : e < 1)
include h0 h1

theorem ec_pos (E : ℝ) : 1 - e ≤ 1 - e * cos E ∧ 0 < 1 - e * cos E := by
  have := mul_le_mul_of_nonneg_left (cos_le_one E) h0
  constructor <;> linarith

omit h0 h1 in
theorem mean_deriv (E : ℝ) : HasDerivAt (fun E => E - e * sin E) (1 - e * cos E) E :=
  (hasDerivAt_id E).sub ((hasDerivAt_sin E).const_mul e)

theorem mean_surj : Function.Surjective fun E => E - e * sin E := by
  have hc : Continuous fun E => E - e * sin E := by fun_prop
  refine hc.surjective ?_ ?_
  · refine Filter.tendsto_atTop_mono (f := fun E : ℝ => E + -1) (fun E => ?_) (Filter.tendsto_atTop_add_const_right _ _ Filter.tendsto_id)
    have := mul_le_mul_of_nonneg_left (sin_le_one E) h0
    linarith
  · refine Filter.tendsto_atBot_mono (fun E : ℝ => (?_ : E - e * sin E ≤ E + 1)) (Filter.tendsto_atBot_add_const_right _ _ Filter.tendsto_id)
    have := mul_le_mul_of_nonneg_left (neg_one_le_sin E) h0
    linarith

theorem kappa_ge : 1 ≤ √((1 + e) / (1 - e)) := by
  rw [Real.one_le_sqrt, le_div_iff₀ (by linarith)]
  linarith

/-- How fast the position changes with the mean anomaly. -/
theorem pos_moves (E E' : ℝ) :
    |cos E - cos E'| ≤ √((1 + e) / (1 - e)) * |(E - e * sin E) - (E' - e * sin E')| ∧
    |√(1 - e ^ 2) * sin E - √(1 - e ^ 2) * sin E'| ≤ √((1 + e) / (1 - e)) * |(E - e * sin E) - (E' - e * sin E')| := by
  have he : 0 < 1 - e := by linarith
  have hβ := Real.sq_sqrt (show 0 ≤ 1 - e ^ 2 by nlinarith)
  have hκ := Real.sq_sqrt (show 0 ≤ (1 + e) / (1 - e) by positivity)
  have hκ' : √((1 + e) / (1 - e)) ^ 2 * (1 - e) = 1 + e := by rw [hκ]; field_simp
  have key : ∀ x, sin x ^ 2 + √(1 - e ^ 2) ^ 2 * cos x ^ 2 ≤ (√((1 + e) / (1 - e)) * (1 - e * cos x)) ^ 2 := by
    intro x
    rw [hβ, mul_pow]
    have hs := sin_sq_add_cos_sq x
    have hc1 := cos_le_one x
    have hp := (ec_pos h0 h1 x).1
    have e1 : sin x ^ 2 + (1 - e ^ 2) * cos x ^ 2 = (1 + e * cos x) * (1 - e * cos x) := by linear_combination hs
    rw [e1]
    have e2 : √((1 + e) / (1 - e)) ^ 2 * (1 - e * cos x) ≥ 1 + e * cos x := by
      have hge : 0 ≤ √((1 + e) / (1 - e)) ^ 2 := sq_nonneg _
      have : e * cos x ≤ e := by nlinarith
      nlinarith
    nlinarith [(ec_pos h0 h1 x).2]
  have hκ0 : 0 ≤ √((1 + e) / (1 - e)) := Real.sqrt_nonneg _
  constructor
  · refine le_by_mono (g' := fun x => 1 - e * cos x) (f' := fun x => -sin x) (fun x => hasDerivAt_cos x) mean_deriv (fun x => ?_) (fun x => (ec_pos h0 h1 x).2) E E'
    refine abs_le_of_sq_le_sq (h := ?_) (mul_nonneg hκ0 (ec_pos h0 h1 x).2.le)
    have := key x
    nlinarith [sq_nonneg (√(1 - e ^ 2) * cos x)]
  · refine le_by_mono (g' := fun x => 1 - e * cos x) (f' := fun x => √(1 - e ^ 2) * cos x) (fun x => (hasDerivAt_sin x).const_mul _) mean_deriv (fun x => ?_) (fun x => (ec_pos h0 h1 x).2) E E'
    refine abs_le_of_sq_le_sq (h := ?_) (mul_nonneg hκ0 (ec_pos h0 h1 x).2.le)
    have := key x
    nlinarith [sq_nonneg (sin x)]

/-- How fast the velocity changes with the mean anomaly. -/
theorem vel_moves (E E' : ℝ) :
    |sin E / (1 - e * cos E) - sin E' / (1 - e * cos E')| ≤ 1 / (1 - e) ^ 2 * |(E - e * sin E) - (E' - e * sin E')| ∧
    |√(1 - e ^ 2) * cos E / (1 - e * cos E) - √(1 - e ^ 2) * cos E' / (1 - e * cos E')| ≤ 1 / (1 - e) ^ 2 * |(E - e * sin E) - (E' - e * sin E')| := by
  have he : 0 < 1 - e := by linarith
  have hβ := Real.sq_sqrt (show 0 ≤ 1 - e ^ 2 by nlinarith)
  have den : ∀ x, HasDerivAt (fun x => 1 - e * cos x) (e * sin x) x := by
    intro x
    have := (hasDerivAt_const x (1 : ℝ)).sub ((hasDerivAt_cos x).const_mul e)
    refine HasDerivAt.congr_deriv (f' := _) (by exact this) (by ring)
  have fin : ∀ x A : ℝ, |A| ≤ 1 - e * cos x → |A / (1 - e * cos x) ^ 2| ≤ 1 / (1 - e) ^ 2 * (1 - e * cos x) := by
    intro x A hA
    obtain ⟨p1, p2⟩ := ec_pos h0 h1 x
    rw [abs_div, abs_of_pos (by positivity : 0 < (1 - e * cos x) ^ 2), div_le_iff₀ (by positivity)]
    have : (1 - e) ^ 2 ≤ (1 - e * cos x) ^ 2 := pow_le_pow_left₀ he.le p1 2
    have q : 1 ≤ 1 / (1 - e) ^ 2 * (1 - e * cos x) ^ 2 := by
      rw [one_div_mul_eq_div, le_div_iff₀ (by positivity)]; linarith
    calc |A| ≤ 1 * (1 - e * cos x) := by linarith
      _ ≤ 1 / (1 - e) ^ 2 * (1 - e * cos x) ^ 2 * (1 - e * cos x) := mul_le_mul_of_nonneg_right q p2.le
      _ = _ := by ring
  constructor
  · refine le_by_mono (g' := fun x => 1 - e * cos x) (f := fun E => sin E / (1 - e * cos E)) (f' := fun x => (cos x - e) / (1 - e * cos x) ^ 2) (fun x => ?_)
      mean_deriv (fun x => fin x _ ?_) (fun x => (ec_pos h0 h1 x).2) E E'
    · have := (hasDerivAt_sin x).div (den x) (ec_pos h0 h1 x).2.ne'
      refine HasDerivAt.congr_deriv (f' := _) (by exact this) ?_
      congr 1
      linear_combination (-e) * sin_sq_add_cos_sq x
    · rw [abs_le]
      have := cos_le_one x
      have := neg_one_le_cos x
      constructor <;> nlinarith
  · refine le_by_mono (g' := fun x => 1 - e * cos x) (f := fun E => √(1 - e ^ 2) * cos E / (1 - e * cos E)) (f' := fun x => (-(√(1 - e ^ 2) * sin x)) / (1 - e * cos x) ^ 2) (fun x => ?_)
      mean_deriv (fun x => fin x _ ?_) (fun x => (ec_pos h0 h1 x).2) E E'
    · have := ((hasDerivAt_cos x).const_mul √(1 - e ^ 2)).div (den x) (ec_pos h0 h1 x).2.ne'
      refine HasDerivAt.congr_deriv (f' := _) (by exact this) ?_
      congr 1
      ring
    · rw [abs_neg]
      refine abs_le_of_sq_le_sq (h := ?_) (ec_pos h0 h1 x).2.le
      rw [mul_pow, hβ]
      have := sin_sq_add_cos_sq x
      nlinarith [sq_nonneg (cos x - e)]

end

/-- A vector in the plane of the orbit, in equatorial components. -/
theorem len_fromOrbit (w i o x y : ℝ) : len (fromOrbit obSE obCE w i o x y) ≤ 1.0001 * (|x| + |y|) := by
  rw [← orbitToEqu_eq]
  unfold len orbitToEqu
  rw [Real.sqrt_le_left (by positivity), Fin.sum_univ_three]
  simp only [Matrix.cons_val]
  set X1 := x * cos w - y * sin w with hX1
  set Y1 := x * sin w + y * cos w with hY1
  have e1 : X1 ^ 2 + Y1 ^ 2 = x ^ 2 + y ^ 2 := by rw [hX1, hY1]; linear_combination (x ^ 2 + y ^ 2) * sin_sq_add_cos_sq w
  set Z := Y1 * sin i with hZ
  set Y2 := Y1 * cos i with hY2
  have e2 : Y2 ^ 2 + Z ^ 2 = Y1 ^ 2 := by rw [hZ, hY2]; linear_combination (Y1 ^ 2) * sin_sq_add_cos_sq i
  set X3 := X1 * cos o - Y2 * sin o with hX3
  set Y3 := X1 * sin o + Y2 * cos o with hY3
  have e3 : X3 ^ 2 + Y3 ^ 2 = X1 ^ 2 + Y2 ^ 2 := by rw [hX3, hY3]; linear_combination (X1 ^ 2 + Y2 ^ 2) * sin_sq_add_cos_sq o
  have e4 : (Y3 * obCE - Z * obSE) ^ 2 + (Y3 * obSE + Z * obCE) ^ 2 = (obCE ^ 2 + obSE ^ 2) * (Y3 ^ 2 + Z ^ 2) := by ring
  have e5 : obCE ^ 2 + obSE ^ 2 ≤ 1.0001 := by unfold obCE obSE; norm_num
  have e6 : (obCE ^ 2 + obSE ^ 2) * (Y3 ^ 2 + Z ^ 2) ≤ 1.0001 * (Y3 ^ 2 + Z ^ 2) := mul_le_mul_of_nonneg_right e5 (by positivity)
  have e7 : x ^ 2 + y ^ 2 ≤ (|x| + |y|) ^ 2 := by
    rw [add_sq, sq_abs, sq_abs]
    have : 0 ≤ 2 * |x| * |y| := by positivity
    linarith
  rw [mul_pow]
  nlinarith [sq_nonneg X3]

/-- Sums and multiples. -/
theorem fromOrbit_lin (w i o c x d y : ℝ) (j : Fin 3) :
    fromOrbit obSE obCE w i o x 0 j * c + fromOrbit obSE obCE w i o 0 y j * d = fromOrbit obSE obCE w i o (x * c) (y * d) j := by
  rw [← orbitToEqu_eq, ← orbitToEqu_eq, ← orbitToEqu_eq]
  fin_cases j <;> simp [orbitToEqu] <;> ring

theorem fromOrbit_sub (w i o c x y x' y' : ℝ) (j : Fin 3) :
    c * fromOrbit obSE obCE w i o x y j - fromOrbit obSE obCE w i o x' y' j = fromOrbit obSE obCE w i o (c * x - x') (c * y - y') j := by
  rw [← orbitToEqu_eq, ← orbitToEqu_eq, ← orbitToEqu_eq]
  fin_cases j <;> simp [orbitToEqu] <;> ring

/-- A successful palPlanel is a successful palUe2pv from the perihelion. -/
theorem planel_ue {date : ℝ} {jform : ℤ} {epoch orbinc anode perih aorq e aorl dm : ℝ} {u : Univ} {pv pv' : PV}
    (h : palPlanel date jform epoch orbinc anode perih aorq e aorl dm u pv = some (pv', 0)) {pht argph q mu : ℝ}
    (hs : standardForm jform epoch anode perih aorq e aorl dm = (pht, argph, q, mu)) :
    GoodElements jform aorq e dm ∧ 0 < q ∧ 0 < mu ∧ ∃ ul', palUe2pv date (elPerihelion date pht argph q mu orbinc anode e) ⟨fun _ => 0, fun _ => 0⟩ = some (ul', pv', 0) := by
  obtain ⟨u', j, h1, h2⟩ := C84_planel date jform epoch orbinc anode perih aorq e aorl dm u pv
  rw [h] at h2
  simp only [Option.some.injEq, Prod.mk.injEq] at h2
  obtain ⟨h3, rfl⟩ := h2
  rw [if_pos rfl] at h3
  have hg := el2ue_zero_good h1
  obtain ⟨ul', pv1, hue, hpv⟩ := el2ue_ok hg h1
  obtain ⟨hq, hcm⟩ := std_pos (epoch := epoch) (anode := anode) (perih := perih) (aorl := aorl) hg
  rw [elStd_eq, hs] at hue hpv hq hcm
  simp only at hue hpv hq hcm
  obtain ⟨-, -, -, hp, hv⟩ := C61_elements _ _ _ _ _ hpv
  refine ⟨hg, hq, hcm, ul', ?_⟩
  rw [hue, h3, hp, hv]
  have : (fun i => cd2s * (pv1.v i / cd2s)) = pv1.v := by funext i; field_simp [cd2s_ne]
  simp [this]

end Pal.Plane
