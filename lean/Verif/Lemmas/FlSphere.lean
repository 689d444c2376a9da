import Verif.Model.FlSphere
import Verif.Lemmas.FlAngle
import Verif.Lemmas.Coord
import Verif.Lemmas.Fk
import Verif.Props.FlAngle

/-! # Helper lemmas for spherical coordinates in double precision -/

namespace Pal
open Real Pal.Spec

/-- Directions move no faster than their angles. -/
theorem chord (a b a' b' : ℝ) : len (fun i => dir a b i - dir a' b' i) ≤ |a - a'| + |b - b'| := by
  refine Real.sqrt_le_iff.2 ⟨by positivity, ?_⟩
  have e : (∑ i, (dir a b i - dir a' b' i) ^ 2) = 2 * (1 - cos (b - b')) + 2 * (cos b * cos b') * (1 - cos (a - a')) := by
    rw [Fin.sum_univ_three]
    simp only [dir, Matrix.cons_val_zero, Matrix.cons_val_one, Matrix.cons_val]
    rw [cos_sub, cos_sub]
    have := sin_sq_add_cos_sq a; have := sin_sq_add_cos_sq b; have := sin_sq_add_cos_sq a'; have := sin_sq_add_cos_sq b'
    grind
  have h1 := one_sub_sq_div_two_le_cos (x := b - b')
  have h2 := one_sub_sq_div_two_le_cos (x := a - a')
  have h3 : cos b * cos b' ≤ 1 := by
    have := abs_le.1 (abs_cos_le_one b); have := abs_le.1 (abs_cos_le_one b'); nlinarith
  have h4 := cos_le_one (a - a')
  have h5 : 2 * (cos b * cos b') * (1 - cos (a - a')) ≤ 2 * (1 - cos (a - a')) := by nlinarith
  have s1 := sq_abs (a - a'); have s2 := sq_abs (b - b')
  have p := mul_nonneg (abs_nonneg (a - a')) (abs_nonneg (b - b'))
  rw [e]
  nlinarith

/-- Turns do not matter. -/
theorem dir_add_turn (a b : ℝ) (k : ℤ) : dir (a + k * (2 * π)) b = dir a b := by
  unfold dir; rw [cos_add_int_mul_two_pi, sin_add_int_mul_two_pi]

/-- Spherical angles from a vector whose distance from the axis is slightly wrong. -/
theorem c2s_close (v : Vec3) (T r r0 η : ℝ) (hx : v 0 = r0 * cos T) (hy : v 1 = r0 * sin T) (h : |r - r0| ≤ η) :
    len (fun i => len v * dir T (atan2 (v 2) r) i - v i) ≤ 2 * η := by
  have h1 := hyp_cos_atan2 (v 2) r
  have h2 := hyp_sin_atan2 (v 2) r
  generalize atan2 (v 2) r = φ at *
  have hm := Real.sqrt_nonneg (r * r + v 2 * v 2)
  generalize √(r * r + v 2 * v 2) = m at *
  have e2 : len (fun i => m * dir T φ i - v i) = |r - r0| := by
    have : (fun i => m * dir T φ i - v i) = fun i => (r - r0) * (![cos T, sin T, 0] : Vec3) i := by
      funext i
      fin_cases i
      · simp [dir, hx]; linear_combination h1 * cos T
      · simp [dir, hy]; linear_combination h1 * sin T
      · simp [dir]; linear_combination h2
    rw [this, len_smul]
    have : len (![cos T, sin T, 0] : Vec3) = 1 := len_one (by rw [dot_eq]; simp; nlinarith [sin_sq_add_cos_sq T])
    rw [this, mul_one]
  have l : len (fun i => m * dir T φ i) = m := by
    rw [len_smul, len_one (dot_dir _ _), mul_one, abs_of_nonneg hm]
  have e1 := len_rev_tri v (fun i => m * dir T φ i)
  rw [l, len_sub_comm, e2] at e1
  have e3 : len (fun i => len v * dir T φ i - m * dir T φ i) = |len v - m| := by
    have : (fun i => len v * dir T φ i - m * dir T φ i) = fun i => (len v - m) * dir T φ i := by funext i; ring
    rw [this, len_smul, len_one (dot_dir _ _), mul_one]
  have := len_tri (fun i => len v * dir T φ i) (fun i => m * dir T φ i) v
  rw [e3, e2] at this
  linarith

/-- The sum of two squares, rounded. -/
theorem fl_sumsq {fl : ℝ → ℝ} (R : Rounding fl) (x y : ℝ) (hx : |x| ≤ 10 ^ 14) (hy : |y| ≤ 10 ^ 14) :
    |fl (fl (x * x) + fl (y * y)) - (x * x + y * y)| ≤ 2.3e-16 * (x * x + y * y) + 4 / 10 ^ 200 := by
  have a1 : |x * x| = x * x := abs_of_nonneg (mul_self_nonneg x)
  have a2 : |y * y| = y * y := abs_of_nonneg (mul_self_nonneg y)
  have b1 : x * x ≤ 10 ^ 28 := by nlinarith [abs_le.1 hx, sq_abs x, abs_nonneg x]
  have b2 : y * y ≤ 10 ^ 28 := by nlinarith [abs_le.1 hy, sq_abs y, abs_nonneg y]
  have e1 := R.err (x := x * x) (by rw [a1]; linarith)
  have e2 := R.err (x := y * y) (by rw [a2]; linarith)
  rw [a1] at e1
  rw [a2] at e2
  have n1 := mul_self_nonneg x
  have n2 := mul_self_nonneg y
  have z : (1 : ℝ) / 10 ^ 200 ≤ 1e-20 := by norm_num
  have z0 : (0 : ℝ) ≤ 1 / 10 ^ 200 := by positivity
  rw [show (4 : ℝ) / 10 ^ 200 = 4 * (1 / 10 ^ 200) by ring]
  have er : ∀ x : ℝ, |x| ≤ 10 ^ 30 → |fl x - x| ≤ 1.1103e-16 * |x| + 1 / 10 ^ 200 := fun x hx => R.err hx
  generalize (1 : ℝ) / 10 ^ 200 = t at *
  generalize fl (x * x) = p at *
  generalize fl (y * y) = q at *
  generalize x * x = X at *
  generalize y * y = Y at *
  have s : |p + q - (X + Y)| ≤ 1.1103e-16 * (X + Y) + 2 * t := by
    rw [show p + q - (X + Y) = (p - X) + (q - Y) by ring]
    have := abs_add_le (p - X) (q - Y)
    linarith
  have s2 : |p + q| ≤ (X + Y) + (1.1103e-16 * (X + Y) + 2 * t) := by
    have := abs_add_le (X + Y) (p + q - (X + Y))
    rw [add_sub_cancel, abs_of_nonneg (add_nonneg n1 n2)] at this
    linarith
  have e := er (p + q) (by norm_num at *; linarith)
  have := abs_sub_le (fl (p + q)) (p + q) (X + Y)
  norm_num at *
  linarith

/-- Square root of a rounded sum of squares. -/
theorem fl_hyp {fl : ℝ → ℝ} (R : Rounding fl) (S d2 : ℝ) (hS : 0 ≤ S) (hS2 : S ≤ 10 ^ 29) (h : |d2 - S| ≤ 4e-16 * S + 10 / 10 ^ 200) (hd : 0 ≤ d2) :
    0 ≤ fl (√d2) ∧ |fl (√d2) - √S| ≤ 5.2e-16 * √S + 1 / 10 ^ 96 := by
  have z : (1 : ℝ) / 10 ^ 200 = (1 / 10 ^ 100) * (1 / 10 ^ 100) := by norm_num
  have q1 := Real.sq_sqrt hS
  have q2 := Real.sq_sqrt hd
  have n1 := Real.sqrt_nonneg S
  have n2 := Real.sqrt_nonneg d2
  have h96 : (1 : ℝ) / 10 ^ 96 = 10000 * (1 / 10 ^ 100) := by norm_num
  have e200 : (10 : ℝ) / 10 ^ 200 = 10 * ((1 / 10 ^ 100) * (1 / 10 ^ 100)) := by norm_num
  have t1 : (1 : ℝ) / 10 ^ 100 ≤ 1e-20 := by norm_num
  have t0 : (0 : ℝ) < 1 / 10 ^ 100 := by positivity
  have key : |√d2 - √S| ≤ 4e-16 * √S + 1000 * (1 / 10 ^ 100) := by
    rw [e200] at h
    clear z e200 h96
    generalize (1 : ℝ) / 10 ^ 100 = t at *
    rw [← q1, ← q2] at h
    generalize √d2 = a at *
    generalize √S = b at *
    by_cases hb : 100 * t ≤ b
    · have : |a - b| * (a + b) = |a ^ 2 - b ^ 2| := by
        rw [show a ^ 2 - b ^ 2 = (a - b) * (a + b) by ring, abs_mul, abs_of_nonneg (add_nonneg n2 n1)]
      have p : |a - b| * b ≤ (4e-16 * b + 1000 * t) * b := by nlinarith [abs_nonneg (a - b)]
      exact le_of_mul_le_mul_right p (by linarith)
    · push Not at hb
      have ha : a ≤ 200 * t := by
        have := (abs_le.1 h).2
        by_contra hc; push Not at hc; nlinarith
      rw [abs_le]; constructor <;> norm_num at * <;> linarith
  have hb2 : √S ≤ 10 ^ 15 := Real.sqrt_le_iff.2 ⟨by norm_num, by norm_num at *; linarith⟩
  have ha2 : √d2 ≤ 10 ^ 16 := by
    have := (abs_le.1 key).2
    clear z e200 h96
    generalize (1 : ℝ) / 10 ^ 100 = t at *
    norm_num at *; linarith
  refine ⟨R.nonneg (by rw [abs_of_nonneg n2]; linarith) n2, ?_⟩
  have e := R.err (x := √d2) (by rw [abs_of_nonneg n2]; linarith)
  rw [abs_of_nonneg n2, z] at e
  rw [h96]
  clear z e200 h96
  generalize (1 : ℝ) / 10 ^ 100 = t at *
  have := abs_sub_le (fl √d2) √d2 √S
  have k2 := (abs_le.1 key).2
  have : t * t ≤ 1e-20 * t := mul_le_mul_of_nonneg_right t1 t0.le
  clear h q1 q2
  generalize fl √d2 = f at *
  generalize √d2 = a at *
  generalize √S = b at *
  norm_num at *
  linarith

/-- The angle of a point of the plane, from the library. -/
theorem flAtan2_spec {L : Libm} (hL : LibmOK L) (nz : Bool) (y x : ℝ) (h : x ≠ 0 ∨ y ≠ 0) :
    ∃ T, |flAtan2 L nz y x - T| ≤ 4.5e-16 ∧ x = √(x * x + y * y) * cos T ∧ y = √(x * x + y * y) * sin T ∧ |T| ≤ π := by
  unfold flAtan2
  by_cases hz : nz = true ∧ y = 0
  · rw [if_pos hz]
    obtain ⟨-, rfl⟩ := hz
    have hs : √(x * x + 0 * 0) = |x| := by rw [mul_zero, add_zero, Real.sqrt_mul_self_eq_abs]
    rw [hs]
    rcases lt_trichotomy x 0 with h0 | h0 | h0
    · refine ⟨-π, by rw [sub_neg_eq_add]; exact hL.atan2m_neg x h0, ?_, ?_, by rw [abs_neg, abs_of_pos pi_pos]⟩
      · rw [cos_neg, cos_pi, abs_of_neg h0]; ring
      · rw [sin_neg, sin_pi]; ring
    · simp [h0] at h
    · refine ⟨0, by rw [sub_zero]; exact hL.atan2m_pos x h0, ?_, ?_, by rw [abs_zero]; exact pi_pos.le⟩
      · rw [cos_zero, abs_of_pos h0]; ring
      · rw [sin_zero]; ring
  · rw [if_neg hz]
    have := atan2_mem y x
    exact ⟨atan2 y x, hL.atan2 y x, (hyp_cos_atan2 y x).symm, (hyp_sin_atan2 y x).symm, abs_le.2 ⟨this.1.le, this.2⟩⟩

/-- Angles of a vector from the rounded distance from the axis. -/
theorem flC2s_core {fl : ℝ → ℝ} (R : Rounding fl) {L : Libm} (hL : LibmOK L) (nz : Bool) (v : Vec3) (h1 : 1 / 10 ^ 70 ≤ len v) (h2 : len v ≤ 10 ^ 14) (θ φ : ℝ)
    (hθ : (fl (√(fl (fl (v 0 * v 0) + fl (v 1 * v 1)))) = 0 ∧ θ = 0) ∨ ((v 0 ≠ 0 ∨ v 1 ≠ 0) ∧ θ = flAtan2 L nz (v 1) (v 0)))
    (hφ : 0 ≤ fl (√(fl (fl (v 0 * v 0) + fl (v 1 * v 1)))) → |φ - atan2 (v 2) (fl (√(fl (fl (v 0 * v 0) + fl (v 1 * v 1)))))| ≤ 4.5e-16) :
    ∃ T P, |θ - T| ≤ 4.5e-16 ∧ |φ - P| ≤ 4.5e-16 ∧ |T| ≤ π ∧ |P| ≤ π / 2 ∧ len (fun i => len v * dir T P i - v i) ≤ 1.05e-15 * len v := by
  have c0 := (comp_le_len v 0).trans h2
  have c1 := (comp_le_len v 1).trans h2
  have hd := fl_sumsq R (v 0) (v 1) c0 c1
  have S0 : 0 ≤ v 0 * v 0 + v 1 * v 1 := add_nonneg (mul_self_nonneg _) (mul_self_nonneg _)
  have hlen := len_sq v
  rw [dot_eq] at hlen
  have S1 : v 0 * v 0 + v 1 * v 1 ≤ len v * len v := by rw [hlen]; linarith [mul_self_nonneg (v 2)]
  have S2 : v 0 * v 0 + v 1 * v 1 ≤ 10 ^ 29 := by nlinarith [len_nonneg v]
  have hr0 : √(v 0 * v 0 + v 1 * v 1) ≤ len v := Real.sqrt_le_iff.2 ⟨len_nonneg v, by nlinarith⟩
  have nn : 0 ≤ fl (fl (v 0 * v 0) + fl (v 1 * v 1)) := by
    have b1 : |v 0 * v 0| ≤ 10 ^ 30 := by rw [abs_of_nonneg (mul_self_nonneg _)]; nlinarith [mul_self_nonneg (v 1)]
    have b2 : |v 1 * v 1| ≤ 10 ^ 30 := by rw [abs_of_nonneg (mul_self_nonneg _)]; nlinarith [mul_self_nonneg (v 0)]
    have m1 := R.nonneg b1 (mul_self_nonneg (v 0))
    have m2 := R.nonneg b2 (mul_self_nonneg (v 1))
    have u1 := R.le (x := v 0 * v 0) (y := (10 : ℤ) ^ 15 * (10 ^ 14 : ℤ)) b1 (by norm_num) (by norm_num at *; linarith [mul_self_nonneg (v 1)])
    refine R.nonneg ?_ (add_nonneg m1 m2)
    have e1 := (abs_le.1 (R.err b1)).2
    have e2 := (abs_le.1 (R.err b2)).2
    rw [abs_of_nonneg (mul_self_nonneg _)] at e1 e2
    have z : (1 : ℝ) / 10 ^ 200 ≤ 1 := by norm_num
    generalize (1 : ℝ) / 10 ^ 200 = t at *
    rw [abs_of_nonneg (add_nonneg m1 m2)]
    have := mul_self_nonneg (v 0)
    have := mul_self_nonneg (v 1)
    norm_num at *
    linarith
  have key := fl_hyp R _ _ S0 S2 (hd.trans (by
    have : (0 : ℝ) ≤ 1 / 10 ^ 200 := by positivity
    rw [show (4 : ℝ) / 10 ^ 200 = 4 * (1 / 10 ^ 200) by ring, show (10 : ℝ) / 10 ^ 200 = 10 * (1 / 10 ^ 200) by ring]
    generalize (1 : ℝ) / 10 ^ 200 = t at *
    norm_num at *
    linarith)) nn
  obtain ⟨k1, k2⟩ := key
  obtain ⟨d2, hd2⟩ : ∃ d2, d2 = fl (fl (v 0 * v 0) + fl (v 1 * v 1)) := ⟨_, rfl⟩
  rw [← hd2] at k1 k2 nn hd hθ hφ
  obtain ⟨r, hr⟩ : ∃ r, r = fl √d2 := ⟨_, rfl⟩
  rw [← hr] at k1 k2 hθ hφ
  have hη : |r - √(v 0 * v 0 + v 1 * v 1)| ≤ 5.22e-16 * len v := by
    refine k2.trans ?_
    have := len_nonneg v
    have z : (1 : ℝ) / 10 ^ 96 ≤ 1e-18 * (1 / 10 ^ 70) := by norm_num
    generalize (1 : ℝ) / 10 ^ 96 = t at *
    generalize (1 : ℝ) / 10 ^ 70 = t' at *
    norm_num at *
    linarith
  have hP := hφ k1
  have hPb := abs_atan2_le (y := v 2) k1
  rcases hθ with ⟨r0, hθ0⟩ | ⟨hne, hθ0⟩
  · refine ⟨0, atan2 (v 2) r, by rw [hθ0]; norm_num, hP, by rw [abs_zero]; exact pi_pos.le, hPb, ?_⟩
    have hc : cos (atan2 (v 2) r) = 0 := by
      have q := hyp_cos_atan2 (v 2) r
      rw [r0] at q ⊢
      rcases mul_eq_zero.1 q with q | q
      · exfalso
        rw [zero_mul, zero_add, Real.sqrt_mul_self_eq_abs] at q
        rw [r0, zero_sub, abs_neg, abs_of_nonneg (Real.sqrt_nonneg _)] at hη
        have hz : v 2 = 0 := abs_eq_zero.1 q
        rw [hz, mul_zero, add_zero] at hlen
        rw [← hlen, Real.sqrt_mul_self (len_nonneg v)] at hη
        have : (0 : ℝ) < 1 / 10 ^ 70 := by positivity
        generalize (1 : ℝ) / 10 ^ 70 = t' at *
        norm_num at hη
        linarith
      · exact q
    have hv := c2s_close v (atan2 (v 1) (v 0)) r _ _ (hyp_cos_atan2 (v 1) (v 0)).symm (hyp_sin_atan2 (v 1) (v 0)).symm hη
    have hdir : dir (atan2 (v 1) (v 0)) (atan2 (v 2) r) = dir 0 (atan2 (v 2) r) := by
      unfold dir; rw [hc]; simp
    rw [hdir] at hv
    have := len_nonneg v
    norm_num at *
    linarith
  · obtain ⟨T, t1, t2, t3, t4⟩ := flAtan2_spec hL nz (v 1) (v 0) hne
    refine ⟨T, atan2 (v 2) r, by rw [hθ0]; exact t1, hP, t4, hPb, ?_⟩
    have hv := c2s_close v T r _ _ t2 t3 hη
    have := len_nonneg v
    norm_num at *
    linarith

/-- palDcc2s in double precision, as angles close to angles whose direction is close to the vector's. -/
theorem flC2s_spec {fl : ℝ → ℝ} (R : Rounding fl) {L : Libm} (hL : LibmOK L) (nz : Bool) (v : Vec3) (h1 : 1 / 10 ^ 70 ≤ len v) (h2 : len v ≤ 10 ^ 14) :
    ∃ T P, |(flC2s fl L nz v).1 - T| ≤ 4.5e-16 ∧ |(flC2s fl L nz v).2 - P| ≤ 4.5e-16 ∧ |T| ≤ π ∧ |P| ≤ π / 2 ∧
      len (fun i => len v * dir T P i - v i) ≤ 1.05e-15 * len v := by
  refine flC2s_core R hL nz v h1 h2 _ _ ?_ ?_
  · unfold flC2s
    dsimp only
    by_cases h0 : fl (fl (v 0 * v 0) + fl (v 1 * v 1)) = 0
    · left; rw [if_pos h0, h0, Real.sqrt_zero, R.zero]; exact ⟨rfl, rfl⟩
    · right
      rw [if_neg h0]
      refine ⟨?_, rfl⟩
      by_contra hc
      push Not at hc
      apply h0
      rw [hc.1, hc.2, mul_zero, R.zero, add_zero, R.zero]
  · intro k1
    unfold flC2s
    dsimp only
    by_cases h0 : v 2 = 0
    · rw [if_pos h0, h0, atan2_zero_pos k1]; norm_num
    · rw [if_neg h0]; exact hL.atan2 _ _

end Pal

namespace Pal
open Real Pal.Spec

/-- Products of slightly wrong factors. -/
theorem mul_err {a A b B α β MA MB : ℝ} (ε : ℝ) (ha : |a - A| ≤ α) (hb : |b - B| ≤ β) (hA : |A| ≤ MA) (hB : |B| ≤ MB) (he : α * MB + β * MA + α * β ≤ ε) : |a * b - A * B| ≤ ε := by
  have e : a * b - A * B = (a - A) * B + (b - B) * A + (a - A) * (b - B) := by ring
  have h1 : |(a - A) * B| ≤ α * MB := by rw [abs_mul]; exact mul_le_mul ha hB (abs_nonneg _) ((abs_nonneg _).trans ha)
  have h2 : |(b - B) * A| ≤ β * MA := by rw [abs_mul]; exact mul_le_mul hb hA (abs_nonneg _) ((abs_nonneg _).trans hb)
  have h3 : |(a - A) * (b - B)| ≤ α * β := by rw [abs_mul]; exact mul_le_mul ha hb (abs_nonneg _) ((abs_nonneg _).trans ha)
  rw [e]
  have := abs_add_le ((a - A) * B + (b - B) * A) ((a - A) * (b - B))
  have := abs_add_le ((a - A) * B) ((b - B) * A)
  linarith

/-- A rounded product of slightly wrong factors of size at most one. -/
theorem Rounding.mul {fl : ℝ → ℝ} (R : Rounding fl) {a A b B α β : ℝ} (ε : ℝ) (ha : |a - A| ≤ α) (hb : |b - B| ≤ β) (hA : |A| ≤ 1) (hB : |B| ≤ 1) (h1 : α ≤ 1e-13) (h2 : β ≤ 1e-13)
    (he : α + β + 1.111e-16 ≤ ε) : |fl (a * b) - A * B| ≤ ε := by
  have a0 := (abs_nonneg _).trans ha
  have b0 := (abs_nonneg _).trans hb
  have h3 : α * β ≤ 1e-26 := by nlinarith
  refine R.add_err ε (mul_err (α + β + 1e-26) ha hb hA hB (by linarith)) (B := 1) ?_ le_rfl ?_ ?_
  · rw [abs_mul]; exact mul_le_one₀ hA (abs_nonneg _) hB
  · norm_num at *; linarith
  · norm_num at *; linarith

/-- A rounded sum of slightly wrong terms. -/
theorem Rounding.add {fl : ℝ → ℝ} (R : Rounding fl) {a A b B α β : ℝ} (M ε : ℝ) (ha : |a - A| ≤ α) (hb : |b - B| ≤ β) (hM : |A + B| ≤ M) (h1 : α ≤ 1e-13) (h2 : β ≤ 1e-13) (hM1 : 1 ≤ M) (hM2 : M ≤ 1000)
    (he : α + β + 1.111e-16 * M ≤ ε) : |fl (a + b) - (A + B)| ≤ ε := by
  refine R.add_err ε (B := M) (δ := α + β) ?_ hM hM1 ?_ ?_
  · rw [show a + b - (A + B) = (a - A) + (b - B) by ring]; have := abs_add_le (a - A) (b - B); linarith
  · norm_num at *; linarith
  · norm_num at *; linarith

theorem len_le_of_comp {a : Vec3} {e : ℝ} (h : ∀ i, |a i| ≤ e) : len a ≤ 1.7321 * e := by
  have he := (abs_nonneg _).trans (h 0)
  refine Real.sqrt_le_iff.2 ⟨by positivity, ?_⟩
  rw [Fin.sum_univ_three]
  have : ∀ i, a i ^ 2 ≤ e ^ 2 := fun i => by rw [← sq_abs (a i)]; exact pow_le_pow_left₀ (abs_nonneg _) (h i) 2
  have h0 := this 0; have h1 := this 1; have h2 := this 2
  nlinarith [mul_nonneg he he]

theorem dir_le (a b : ℝ) (i : Fin 3) : |dir a b i| ≤ 1 := by
  have := comp_le_len (dir a b) i
  rwa [len_one (dot_dir a b)] at this

/-- palDcs2c in double precision. -/
theorem flS2c_err {fl : ℝ → ℝ} (R : Rounding fl) {L : Libm} (hL : LibmOK L) (a b : ℝ) (i : Fin 3) : |flS2c fl L a b i - dir a b i| ≤ 5.8e-16 := by
  unfold flS2c dir
  fin_cases i
  · show |fl (L.cos a * L.cos b) - cos b * cos a| ≤ _
    rw [mul_comm (cos b)]
    exact R.mul _ (hL.cos a) (hL.cos b) (abs_cos_le_one a) (abs_cos_le_one b) (by norm_num) (by norm_num) (by norm_num)
  · show |fl (L.sin a * L.cos b) - cos b * sin a| ≤ _
    rw [mul_comm (cos b)]
    exact R.mul _ (hL.sin a) (hL.cos b) (abs_sin_le_one a) (abs_cos_le_one b) (by norm_num) (by norm_num) (by norm_num)
  · show |L.sin b - sin b| ≤ _
    exact (hL.sin b).trans (by norm_num)

/-- palDmxv in double precision, for a matrix with elements of at most one that is stored to the nearest double. -/
theorem flRxp_err {fl : ℝ → ℝ} (R : Rounding fl) (M : Mat3) (hM : ∀ i j, |M i j| ≤ 1) (p V : Vec3) (hV : ∀ i, |V i| ≤ 1) (hp : ∀ i, |p i - V i| ≤ 5.8e-16) (j : Fin 3) :
    |flRxp fl (fun i j => fl (M i j)) p j - M.mulVec V j| ≤ 3.2e-15 := by
  have hm : ∀ i j, |fl (M i j) - M i j| ≤ 1.12e-16 := fun i j =>
    R.add_err _ (X := M i j) (δ := 0) (by rw [sub_self, abs_zero]) (hM i j) le_rfl (by norm_num) (by norm_num)
  have q : ∀ i, |fl (fl (M j i) * p i) - M j i * V i| ≤ 8.1e-16 := fun i =>
    R.mul _ (hm j i) (hp i) (hM j i) (hV i) (by norm_num) (by norm_num) (by norm_num)
  have b : ∀ i, |M j i * V i| ≤ 1 := fun i => by rw [abs_mul]; exact mul_le_one₀ (hM j i) (abs_nonneg _) (hV i)
  have s0 : |fl (0 + fl (fl (M j 0) * p 0)) - (0 + M j 0 * V 0)| ≤ 9.3e-16 :=
    R.add 1 _ (a := 0) (A := 0) (α := 0) (by simp) (q 0) (by rw [zero_add]; exact b 0) (by norm_num) (by norm_num) le_rfl (by norm_num) (by norm_num)
  rw [zero_add (M j 0 * V 0)] at s0
  have s1 := R.add 2 1.97e-15 s0 (q 1) ((abs_add_le _ _).trans (by linarith [b 0, b 1])) (by norm_num) (by norm_num) (by norm_num) (by norm_num) (by norm_num)
  have s2 := R.add 3 3.2e-15 s1 (q 2) ((abs_add_le _ _).trans (by linarith [abs_add_le (M j 0 * V 0) (M j 1 * V 1), b 0, b 1, b 2])) (by norm_num) (by norm_num) (by norm_num) (by norm_num) (by norm_num)
  have e : M.mulVec V j = M j 0 * V 0 + M j 1 * V 1 + M j 2 * V 2 := by
    simp [Matrix.mulVec, dotProduct, Fin.sum_univ_three]
  rw [e]
  exact s2

/-- The longitude brought into its range. -/
theorem flAnp_small {fl : ℝ → ℝ} (R : Rounding fl) (a : ℝ) (h : |a| ≤ 3.15) :
    0 ≤ flAnp fl a ∧ flAnp fl a ≤ flD2PI fl ∧ ∃ k : ℤ, |flAnp fl a - (a + k * (2 * π))| ≤ 9.6e-16 := by
  have hD := flD2PI_eq R
  have hb := D2_b
  have hpi := D2_pi
  have ha := abs_le.1 h
  unfold flAnp
  dsimp only
  rw [hD, Props.fmod_self a (by norm_num at *; linarith)]
  by_cases h0 : a < 0
  · rw [if_pos h0]
    have hle : |a + D2| ≤ 10 ^ 30 := by rw [abs_of_pos (by norm_num at *; linarith)]; norm_num at *; linarith
    have hk : fl D2 = D2 := by
      have h1 : (D2 : ℝ) ≤ 2 ^ 1000 := hb.2.le.trans (le_trans (by norm_num : (6.29 : ℝ) ≤ 10 ^ 30) ((le_abs_self _).trans (big_le (x := 10 ^ 30) (by rw [abs_of_pos (by positivity)]))))
      have := R.keep 7074237752028440 (-50) (by norm_num) (by norm_num) (by unfold D2 at h1; norm_num at h1 ⊢; exact h1)
      unfold D2
      norm_num at this ⊢
      exact this
    refine ⟨R.nonneg hle (by norm_num at *; linarith), ?_, 1, ?_⟩
    · exact (R.le (y := D2) hle (by rw [abs_of_pos D2_pos]; norm_num at *; linarith) (by linarith)).trans hk.le
    · refine R.add_err _ (δ := 2.45e-16) (B := 6.284) ?_ ?_ (by norm_num) (by norm_num) (by norm_num)
      · push_cast
        rw [show a + D2 - (a + 1 * (2 * π)) = -(2 * π - D2) by ring, abs_neg, abs_of_pos hpi.1]; exact hpi.2.le
      · have p1 := pi_lt_d4
        have p2 := pi_gt_d4
        push_cast
        rw [abs_le]; constructor <;> norm_num at * <;> linarith
  · rw [if_neg h0]
    exact ⟨not_lt.1 h0, by norm_num at *; linarith, 0, by norm_num⟩

theorem flAnpm_small {fl : ℝ → ℝ} (R : Rounding fl) (a : ℝ) (h : |a| ≤ 3) : flAnpm fl a = a := by
  have hD := flD2PI_eq R
  have hb := D2_b
  unfold flAnpm
  dsimp only
  rw [hD, Props.fmod_self a (by norm_num at *; linarith), if_neg]
  push Not
  have e := (abs_le.1 (R.err (x := 3.141592653589793238462643) (by norm_num))).1
  have z : (1 : ℝ) / 10 ^ 200 ≤ 1e-20 := by norm_num
  generalize (1 : ℝ) / 10 ^ 200 = t at *
  norm_num at *
  linarith

/-- From angles of a vector that is nearly V to a direction that is nearly V's. -/
theorem angles_dir (θ φ θ' T P ε : ℝ) (v V : Vec3) (e : ℝ) (hv : ∀ i, |v i - V i| ≤ e) (he : e ≤ 1e-13) (h1 : 0.99 ≤ len V) (h2 : len V ≤ 1.01)
    (u : Vec3) (hu : (fun i => len V * u i) = V) (t1 : |θ - T| ≤ 4.5e-16) (t2 : |φ - P| ≤ 4.5e-16) (t5 : len (fun i => len v * dir T P i - v i) ≤ 1.05e-15 * len v) (k : ℤ)
    (hk : |θ' - (θ + k * (2 * π))| ≤ ε) : len (fun i => dir θ' φ i - u i) ≤ 3.5 * e + 2e-15 + ε := by
  have hd := len_le_of_comp hv
  have e0 := (abs_nonneg _).trans (hv 0)
  have hr := abs_le.1 ((len_rev_tri v V).trans hd)
  have n1 : 0.98 ≤ len v := by norm_num at *; linarith
  have n2 : len v ≤ 1.02 := by norm_num at *; linarith
  have c1 : len (fun i => dir θ' φ i - dir T P i) ≤ ε + 4.5e-16 + 4.5e-16 := by
    have := chord θ' φ (T + k * (2 * π)) P
    rw [dir_add_turn] at this
    refine this.trans ?_
    have g1 : |θ' - (T + k * (2 * π))| ≤ ε + 4.5e-16 := by
      have := abs_sub_le θ' (θ + k * (2 * π)) (T + k * (2 * π))
      rw [show θ + k * (2 * π) - (T + k * (2 * π)) = θ - T by ring] at this
      linarith
    linarith
  have hlu : len u = 1 := by
    have h : len (fun i => len V * u i) = len V := by rw [hu]
    rw [len_smul, abs_of_nonneg (len_nonneg V)] at h
    have : 0 < len V := by norm_num at *; linarith
    exact mul_left_cancel₀ this.ne' (by rw [h, mul_one])
  have c2 : len V * len (fun i => dir T P i - u i) ≤ 1.05e-15 * 1.02 + 2 * (1.7321 * e) := by
    have ee : (fun i => len V * (dir T P i - u i)) = fun i => (len V * dir T P i - V i) := by
      funext i; have := congrFun hu i; rw [mul_sub, this]
    have e9 : len V * len (fun i => dir T P i - u i) = len (fun i => len V * dir T P i - V i) := by
      rw [← ee, len_smul (len V) (fun i => dir T P i - u i), abs_of_nonneg (len_nonneg V)]
    rw [e9]
    have q1 := len_tri (fun i => len V * dir T P i) (fun i => len v * dir T P i) V
    have q2 := len_tri (fun i => len v * dir T P i) v V
    have q3 : len (fun i => len V * dir T P i - len v * dir T P i) = |len V - len v| := by
      have : (fun i => len V * dir T P i - len v * dir T P i) = fun i => (len V - len v) * dir T P i := by funext i; ring
      rw [this, len_smul, len_one (dot_dir _ _), mul_one]
    have q4 : |len V - len v| ≤ 1.7321 * e := by rw [abs_sub_comm]; exact abs_le.2 hr
    have q5 : (1.05e-15 : ℝ) * len v ≤ 1.05e-15 * 1.02 := mul_le_mul_of_nonneg_left n2 (by norm_num)
    linarith
  have c3 : len (fun i => dir T P i - u i) ≤ 3.5 * e + 1.1e-15 := by
    have h0 := len_nonneg (fun i => dir T P i - u i)
    by_contra hc
    push Not at hc
    have : 0.99 * (3.5 * e + 1.1e-15) < len V * len (fun i => dir T P i - u i) := by nlinarith
    norm_num at *
    linarith
  have := len_tri (dir θ' φ) (dir T P) u
  norm_num at *
  linarith

theorem close_range {θ T B : ℝ} (h : |θ - T| ≤ 4.5e-16) (hT : |T| ≤ B) : |θ| ≤ B + 4.5e-16 := by
  have := abs_add_le T (θ - T)
  rw [add_sub_cancel] at this
  linarith

theorem close_len {v V : Vec3} {e : ℝ} (hv : ∀ i, |v i - V i| ≤ e) (he : e ≤ 1e-13) (h1 : 0.99 ≤ len V) (h2 : len V ≤ 1.01) : 1 / 10 ^ 70 ≤ len v ∧ len v ≤ 10 ^ 14 := by
  have hr := abs_le.1 ((len_rev_tri v V).trans (len_le_of_comp hv))
  have e0 := (abs_nonneg _).trans (hv 0)
  exact ⟨le_trans (by norm_num : (1 : ℝ) / 10 ^ 70 ≤ 0.98) (by norm_num at *; linarith), by norm_num at *; linarith⟩

/-- From a vector that is nearly V to a direction that is nearly V's. -/
theorem flC2s_dir {fl : ℝ → ℝ} (R : Rounding fl) {L : Libm} (hL : LibmOK L) (nz : Bool) (v V : Vec3) (e : ℝ) (hv : ∀ i, |v i - V i| ≤ e) (he : e ≤ 1e-13) (h1 : 0.99 ≤ len V) (h2 : len V ≤ 1.01)
    (u : Vec3) (hu : (fun i => len V * u i) = V) :
    let o := (flAnp fl (flC2s fl L nz v).1, flAnpm fl (flC2s fl L nz v).2)
    0 ≤ o.1 ∧ o.1 ≤ flD2PI fl ∧ |o.2| ≤ π / 2 + 4.5e-16 ∧ len (fun i => dir o.1 o.2 i - u i) ≤ 3.5 * e + 3e-15 := by
  intro o
  obtain ⟨n1, n2⟩ := close_len hv he h1 h2
  obtain ⟨T, P, t1, t2, t3, t4, t5⟩ := flC2s_spec R hL nz v n1 n2
  have p1 := pi_lt_d4
  have hT : |(flC2s fl L nz v).1| ≤ 3.15 := (close_range t1 t3).trans (by norm_num at *; linarith)
  have hPs : |(flC2s fl L nz v).2| ≤ π / 2 + 4.5e-16 := close_range t2 t4
  obtain ⟨a1, a2, k, a3⟩ := flAnp_small R _ hT
  have a4 : o.2 = (flC2s fl L nz v).2 := flAnpm_small R (flC2s fl L nz v).2 (by norm_num at *; linarith)
  have := angles_dir _ _ _ T P _ v V e hv he h1 h2 u hu t1 t2 t5 k a3
  refine ⟨a1, a2, by rw [a4]; exact hPs, ?_⟩
  rw [a4]
  exact this.trans (by norm_num; linarith)

theorem near_len {M : Mat3} (ho : ∀ i j, |(M.transpose * M) i j - (1 : Mat3) i j| ≤ 1e-10) {v : Vec3} (hv : dot v v = 1) : 0.99 ≤ len (M.mulVec v) ∧ len (M.mulVec v) ≤ 1.01 := by
  have e : dot (M.mulVec v) (M.mulVec v) = dot v ((M.transpose * M).mulVec v) := by
    rw [dot_dotProduct, dot_dotProduct, ← Matrix.mulVec_mulVec, Matrix.dotProduct_mulVec v, Matrix.vecMul_transpose]
  have hn := near_orth ho hv
  have l1 : len (fun i => (M.transpose * M).mulVec v i - v i) ≤ 3 * 1e-10 := by
    refine Real.sqrt_le_iff.2 ⟨by norm_num, ?_⟩
    rw [Fin.sum_univ_three]; exact hn
  have c := dot_le_len v (fun i => (M.transpose * M).mulVec v i - v i)
  rw [dot_sub_right, hv, ← e, len_one hv, one_mul] at c
  have c' := abs_le.1 (c.trans l1)
  have q := len_sq (M.mulVec v)
  have n := len_nonneg (M.mulVec v)
  generalize len (M.mulVec v) = N at *
  generalize dot (M.mulVec v) (M.mulVec v) = D at *
  constructor <;> norm_num at * <;> nlinarith

/-- A frame rotation in double precision. -/
theorem fl_frame {fl : ℝ → ℝ} (R : Rounding fl) {L : Libm} (hL : LibmOK L) (nz : Bool) (M : Mat3) (hM : ∀ i j, |M i j| ≤ 1) (ho : ∀ i j, |(M.transpose * M) i j - (1 : Mat3) i j| ≤ 1e-10) (a b : ℝ)
    (w : ℝ × ℝ) (hw : (fun i => √(dot (M.mulVec (dir a b)) (M.mulVec (dir a b))) * dir w.1 w.2 i) = M.mulVec (dir a b)) :
    let s := flC2s fl L nz (flRxp fl (fun i j => fl (M i j)) (flS2c fl L a b))
    let o := (flAnp fl s.1, flAnpm fl s.2)
    0 ≤ o.1 ∧ o.1 ≤ flD2PI fl ∧ |o.2| ≤ π / 2 + 4.5e-16 ∧ len (fun i => dir o.1 o.2 i - dir w.1 w.2 i) ≤ 1.5e-14 := by
  intro s o
  obtain ⟨n1, n2⟩ := near_len ho (dot_dir a b)
  rw [← len_eq] at hw
  obtain ⟨h1, h2, h3, h4⟩ := flC2s_dir R hL nz _ _ 3.2e-15 (flRxp_err R M hM _ _ (dir_le a b) (flS2c_err R hL a b)) (by norm_num) n1 n2 _ hw
  exact ⟨h1, h2, h3, h4.trans (by norm_num)⟩

/-- The vector of palDe2h and palDh2e in double precision. -/
theorem horizon_err {fl : ℝ → ℝ} (R : Rounding fl) {L : Libm} (hL : LibmOK L) (h d p : ℝ) (i : Fin 3) :
    |(![fl (fl (fl (-L.cos h * L.cos d) * L.sin p) + fl (L.sin d * L.cos p)), fl (-L.sin h * L.cos d), fl (fl (fl (L.cos h * L.cos d) * L.cos p) + fl (L.sin d * L.sin p))] : Vec3) i -
      (![-cos h * cos d * sin p + sin d * cos p, -sin h * cos d, cos h * cos d * cos p + sin d * sin p] : Vec3) i| ≤ 1.64e-15 := by
  have cn : ∀ x, |-L.cos x - -cos x| ≤ 2.3e-16 := fun x => by rw [show -L.cos x - -cos x = -(L.cos x - cos x) by ring, abs_neg]; exact hL.cos x
  have sn : ∀ x, |-L.sin x - -sin x| ≤ 2.3e-16 := fun x => by rw [show -L.sin x - -sin x = -(L.sin x - sin x) by ring, abs_neg]; exact hL.sin x
  have c1 := fun x => abs_cos_le_one x
  have s1 := fun x => abs_sin_le_one x
  have c1' : ∀ x, |-cos x| ≤ 1 := fun x => by rw [abs_neg]; exact c1 x
  have s1' : ∀ x, |-sin x| ≤ 1 := fun x => by rw [abs_neg]; exact s1 x
  have m : ∀ a b : ℝ, |a| ≤ 1 → |b| ≤ 1 → |a * b| ≤ 1 := fun a b ha hb => by rw [abs_mul]; exact mul_le_one₀ ha (abs_nonneg _) hb
  have q1 := sin_sq_add_cos_sq h; have q2 := sin_sq_add_cos_sq d; have q3 := sin_sq_add_cos_sq p
  have u : (-cos h * cos d * sin p + sin d * cos p) ^ 2 + (-sin h * cos d) ^ 2 + (cos h * cos d * cos p + sin d * sin p) ^ 2 = 1 := by grind
  fin_cases i
  · refine R.add 1 _ (R.mul 9.3e-16 (R.mul 5.8e-16 (cn h) (hL.cos d) (c1' h) (c1 d) (by norm_num) (by norm_num) (by norm_num)) (hL.sin p) (m _ _ (c1' h) (c1 d)) (s1 p) (by norm_num) (by norm_num) (by norm_num))
      (R.mul 5.8e-16 (hL.sin d) (hL.cos p) (s1 d) (c1 p) (by norm_num) (by norm_num) (by norm_num)) ?_ (by norm_num) (by norm_num) le_rfl (by norm_num) (by norm_num)
    exact abs_le_one_iff_mul_self_le_one.2 (by nlinarith)
  · exact R.mul _ (sn h) (hL.cos d) (s1' h) (c1 d) (by norm_num) (by norm_num) (by norm_num)
  · refine R.add 1 _ (R.mul 9.3e-16 (R.mul 5.8e-16 (hL.cos h) (hL.cos d) (c1 h) (c1 d) (by norm_num) (by norm_num) (by norm_num)) (hL.cos p) (m _ _ (c1 h) (c1 d)) (c1 p) (by norm_num) (by norm_num) (by norm_num))
      (R.mul 5.8e-16 (hL.sin d) (hL.sin p) (s1 d) (s1 p) (by norm_num) (by norm_num) (by norm_num)) ?_ (by norm_num) (by norm_num) le_rfl (by norm_num) (by norm_num)
    exact abs_le_one_iff_mul_self_le_one.2 (by nlinarith)

/-- The exact vector has length one. -/
theorem horizon_len (h d p : ℝ) : len (![-cos h * cos d * sin p + sin d * cos p, -sin h * cos d, cos h * cos d * cos p + sin d * sin p] : Vec3) = 1 := by
  refine len_one ?_
  rw [dot_eq]
  simp only [Matrix.cons_val_zero, Matrix.cons_val_one, Matrix.cons_val]
  have q1 := sin_sq_add_cos_sq h; have q2 := sin_sq_add_cos_sq d; have q3 := sin_sq_add_cos_sq p
  grind

/-- Unit vectors along nearly equal vectors. -/
theorem norm_close {k k' : ℝ} {u u' W W' : Vec3} (hk : 0 ≤ k) (hk' : 0 ≤ k') (hu : len u = 1) (hu' : len u' = 1) (h : (fun i => k * u i) = W) (h' : (fun i => k' * u' i) = W') :
    k * len (fun i => u i - u' i) ≤ 2 * len (fun i => W i - W' i) := by
  have l : len W = k := by rw [← h, len_smul, hu, mul_one, abs_of_nonneg hk]
  have l' : len W' = k' := by rw [← h', len_smul, hu', mul_one, abs_of_nonneg hk']
  have e : k * len (fun i => u i - u' i) = len (fun i => W i - k * u' i) := by
    have := len_smul k (fun i => u i - u' i)
    rw [abs_of_nonneg hk] at this
    rw [← this, ← h]
    congr 1; funext i; ring
  have t := len_tri W W' (fun i => k * u' i)
  have e2 : len (fun i => W' i - k * u' i) = |k' - k| := by
    have : (fun i => W' i - k * u' i) = fun i => (k' - k) * u' i := by funext i; rw [← h']; ring
    rw [this, len_smul, hu', mul_one]
  have r := len_rev_tri W W'
  rw [l, l'] at r
  rw [abs_sub_comm] at r
  rw [e]
  linarith

/-- The horizon components of a direction. -/
noncomputable def horizonVec (h d p : ℝ) : Vec3 := ![-cos h * cos d * sin p + sin d * cos p, -sin h * cos d, cos h * cos d * cos p + sin d * sin p]

/-- Angles from the horizon components in double precision. -/
theorem horizon_angles {fl : ℝ → ℝ} (R : Rounding fl) {L : Libm} (hL : LibmOK L) (nz : Bool) (h d p : ℝ) :
    let s := flDh2e fl L nz h d p
    |s.1| ≤ π + 4.5e-16 ∧ |s.2| ≤ π / 2 + 4.5e-16 ∧ ∀ θ' ε (k : ℤ), |θ' - (s.1 + k * (2 * π))| ≤ ε → len (fun i => dir θ' s.2 i - horizonVec h d p i) ≤ 3.5 * 1.64e-15 + 2e-15 + ε := by
  intro s
  obtain ⟨v, hv⟩ : ∃ v : Vec3, v = ![fl (fl (fl (-L.cos h * L.cos d) * L.sin p) + fl (L.sin d * L.cos p)), fl (-L.sin h * L.cos d), fl (fl (fl (L.cos h * L.cos d) * L.cos p) + fl (L.sin d * L.sin p))] := ⟨_, rfl⟩
  have he : ∀ i, |v i - horizonVec h d p i| ≤ 1.64e-15 := by rw [hv]; exact horizon_err R hL h d p
  have hl : len (horizonVec h d p) = 1 := horizon_len h d p
  have l1 : 0.99 ≤ len (horizonVec h d p) := by rw [hl]; norm_num
  have l2 : len (horizonVec h d p) ≤ 1.01 := by rw [hl]; norm_num
  obtain ⟨n1, n2⟩ := close_len he (by norm_num) l1 l2
  have hs : s = (if fl (√(fl (fl (v 0 * v 0) + fl (v 1 * v 1)))) = 0 then 0 else flAtan2 L nz (v 1) (v 0), L.atan2 (v 2) (fl (√(fl (fl (v 0 * v 0) + fl (v 1 * v 1)))))) := by rw [hv]; rfl
  obtain ⟨T, P, t1, t2, t3, t4, t5⟩ := flC2s_core R hL nz v n1 n2 s.1 s.2 (by
      rw [hs]
      dsimp only
      by_cases h0 : fl (√(fl (fl (v 0 * v 0) + fl (v 1 * v 1)))) = 0
      · left; rw [if_pos h0]; exact ⟨h0, rfl⟩
      · right
        rw [if_neg h0]
        refine ⟨?_, rfl⟩
        by_contra hc
        push Not at hc
        apply h0
        rw [hc.1, hc.2, mul_zero, R.zero, add_zero, R.zero, Real.sqrt_zero, R.zero]) (by
      intro _
      rw [hs]
      exact hL.atan2 _ _)
  refine ⟨close_range t1 t3, close_range t2 t4, fun θ' ε k hk => ?_⟩
  exact angles_dir s.1 s.2 θ' T P ε v _ 1.64e-15 he (by norm_num) l1 l2 _ (by rw [hl]; funext i; rw [one_mul]) t1 t2 t5 k hk

/-- palDe2h differs from palDh2e by the range of the azimuth. -/
theorem flDe2h_eq {fl : ℝ → ℝ} (R : Rounding fl) {L : Libm} (hL : LibmOK L) (nz : Bool) (h d p : ℝ) : flDe2h fl L nz h d p = (flAnp fl (flDh2e fl L nz h d p).1, (flDh2e fl L nz h d p).2) := by
  have h1 := (horizon_angles R hL nz h d p).1
  have p1 := pi_lt_d4
  have hb := D2_b
  have e : flAnp fl (flDh2e fl L nz h d p).1 = if (flDh2e fl L nz h d p).1 < 0 then fl ((flDh2e fl L nz h d p).1 + flPal2PI fl) else (flDh2e fl L nz h d p).1 := by
    unfold flAnp
    rw [flD2PI_eq R, flPal2PI_eq R]
    dsimp only
    rw [Props.fmod_self _ (by norm_num at *; linarith)]
  rw [e]
  rfl

/-- The horizon components keep distances. -/
theorem horizon_iso (a b a' b' p : ℝ) : len (fun i => horizonVec a b p i - horizonVec a' b' p i) = len (fun i => dir a b i - dir a' b' i) := by
  unfold len
  congr 1
  rw [Fin.sum_univ_three, Fin.sum_univ_three]
  simp only [horizonVec, dir, Matrix.cons_val_zero, Matrix.cons_val_one, Matrix.cons_val]
  have := sin_sq_add_cos_sq p
  grind

/-- The modulus of a vector in double precision. -/
theorem flPm_err {fl : ℝ → ℝ} (R : Rounding fl) (v : Vec3) (h2 : len v ≤ 10 ^ 14) : 0 ≤ flPm fl v ∧ |flPm fl v - len v| ≤ 5.2e-16 * len v + 1 / 10 ^ 96 := by
  have c := fun i => (comp_le_len v i).trans h2
  have sq : ∀ i, v i * v i ≤ 10 ^ 28 := fun i => by nlinarith [abs_le.1 (c i), sq_abs (v i), abs_nonneg (v i)]
  have n : ∀ i, 0 ≤ v i * v i := fun i => mul_self_nonneg _
  have hd := fl_sumsq R (v 0) (v 1) (c 0) (c 1)
  have b : ∀ i, |v i * v i| ≤ 10 ^ 30 := fun i => by rw [abs_of_nonneg (n i)]; linarith [sq i]
  have m := fun i => R.nonneg (b i) (n i)
  have e : ∀ i, |fl (v i * v i) - v i * v i| ≤ 1.1103e-16 * (v i * v i) + 1 / 10 ^ 200 := fun i => by have := R.err (b i); rwa [abs_of_nonneg (n i)] at this
  have hlen := len_sq v
  rw [dot_eq] at hlen
  have er : ∀ x : ℝ, |x| ≤ 10 ^ 30 → |fl x - x| ≤ 1.1103e-16 * |x| + 1 / 10 ^ 200 := fun x hx => R.err hx
  have hroot : len v = √(v 0 * v 0 + v 1 * v 1 + v 2 * v 2) := by rw [len_eq, dot_eq]
  unfold flPm
  rw [hroot]
  have key : 0 ≤ fl (fl (fl (v 0 * v 0) + fl (v 1 * v 1)) + fl (v 2 * v 2)) ∧ |fl (fl (fl (v 0 * v 0) + fl (v 1 * v 1)) + fl (v 2 * v 2)) - (v 0 * v 0 + v 1 * v 1 + v 2 * v 2)| ≤
      4e-16 * (v 0 * v 0 + v 1 * v 1 + v 2 * v 2) + 10 / 10 ^ 200 := by
    have z : (1 : ℝ) / 10 ^ 200 ≤ 1e-20 := by norm_num
    have z0 : (0 : ℝ) ≤ 1 / 10 ^ 200 := by positivity
    rw [show (4 : ℝ) / 10 ^ 200 = 4 * (1 / 10 ^ 200) by ring] at hd
    rw [show (10 : ℝ) / 10 ^ 200 = 10 * (1 / 10 ^ 200) by ring]
    have e0 := e 0; have e1 := e 1; have e2 := e 2
    have q0 := sq 0; have q1 := sq 1; have q2 := sq 2
    have n0 := n 0; have n1 := n 1; have n2 := n 2
    have m0 := m 0; have m1 := m 1; have m2 := m 2
    clear e sq n m b c hlen hroot h2
    generalize (1 : ℝ) / 10 ^ 200 = t at *
    generalize fl (v 0 * v 0) = p at *
    generalize fl (v 1 * v 1) = q at *
    generalize fl (v 2 * v 2) = w at *
    generalize v 0 * v 0 = X at *
    generalize v 1 * v 1 = Y at *
    generalize v 2 * v 2 = Z at *
    have a0 := abs_le.1 e0; have a1 := abs_le.1 e1; have a2 := abs_le.1 e2; have ad := abs_le.1 hd
    have pq0 : 0 ≤ fl (p + q) := R.nonneg (by rw [abs_of_nonneg (add_nonneg m0 m1)]; norm_num at *; linarith) (add_nonneg m0 m1)
    have hb : |fl (p + q) + w| ≤ 10 ^ 30 := by rw [abs_of_nonneg (add_nonneg pq0 m2)]; norm_num at *; linarith
    have ef := er _ hb
    rw [abs_of_nonneg (add_nonneg pq0 m2)] at ef
    refine ⟨R.nonneg hb (add_nonneg pq0 m2), ?_⟩
    have af := abs_le.1 ef
    rw [abs_le]
    constructor <;> norm_num at * <;> linarith
  refine fl_hyp R _ _ (by linarith [n 0, n 1, n 2]) ?_ key.2 key.1
  linarith [sq 0, sq 1, sq 2]

/-- Angles of nearly equal points of the upper half-plane. -/
theorem half_plane (s x y E : ℝ) (h0 : 0 ≤ s) (h1 : s ≤ π) (hy : 0 ≤ y) (hx : |x - cos s| ≤ E) (hy2 : |y - sin s| ≤ E) (hE : E ≤ 1 / 10) : |atan2 y x - s| ≤ 2.5 * E := by
  have E0 := (abs_nonneg _).trans hx
  have c := hyp_cos_atan2 y x
  have d := hyp_sin_atan2 y x
  have a0 := atan2_nonneg (x := x) hy
  have a1 := (atan2_mem y x).2
  have hm := Real.sqrt_nonneg (x * x + y * y)
  generalize atan2 y x = α at *
  generalize √(x * x + y * y) = m at *
  have q1 := sin_sq_add_cos_sq α
  have q2 := sin_sq_add_cos_sq s
  have D : (x - cos s) ^ 2 + (y - sin s) ^ 2 ≤ 2 * E ^ 2 := by
    have := pow_le_pow_left₀ (abs_nonneg _) hx 2
    have := pow_le_pow_left₀ (abs_nonneg _) hy2 2
    rw [sq_abs] at *
    linarith
  have e1 : (x - cos s) ^ 2 + (y - sin s) ^ 2 = (m - 1) ^ 2 + 2 * m * (1 - cos (α - s)) := by
    rw [← c, ← d, cos_sub]
    grind
  have hm2 : 0.85 ≤ m := by
    by_contra hc
    push Not at hc
    have : 2 * m * (1 - cos (α - s)) ≥ 0 := mul_nonneg (by linarith) (by linarith [cos_le_one (α - s)])
    norm_num at *
    nlinarith
  have hcos : 1 - cos (α - s) ≤ E ^ 2 / 0.85 := by
    rw [le_div_iff₀ (by norm_num)]
    nlinarith [sq_nonneg (m - 1), cos_le_one (α - s)]
  have hq : 2 / π ^ 2 * (α - s) ^ 2 ≤ 1 - cos (α - s) := by
    have := Real.cos_le_one_sub_mul_cos_sq (x := α - s) (abs_le.2 ⟨by linarith, by linarith⟩)
    linarith
  have hp := pi_lt_d4
  have hp0 := pi_pos
  have h5 : (α - s) ^ 2 ≤ (2.5 * E) ^ 2 := by
    have := mul_le_mul_of_nonneg_left (hq.trans hcos) (sq_nonneg π)
    field_simp at this
    have p2 : π ^ 2 ≤ 10 := by nlinarith
    have p3 : π ^ 2 * E ^ 2 ≤ 10 * E ^ 2 := mul_le_mul_of_nonneg_right p2 (sq_nonneg E)
    norm_num at *
    nlinarith [sq_nonneg E]
  exact abs_le_of_sq_le_sq h5 (by positivity)

/-- palDsep in double precision. -/
theorem flSeps_err {fl : ℝ → ℝ} (R : Rounding fl) {L : Libm} (hL : LibmOK L) (a b c d : ℝ) : |flSeps fl L a b c d - palDsep a b c d| ≤ 1.4e-14 := by
  obtain ⟨A, hA⟩ : ∃ A, A = dir a b := ⟨_, rfl⟩
  obtain ⟨B, hB⟩ : ∃ B, B = dir c d := ⟨_, rfl⟩
  have ea := flS2c_err R hL a b
  have eb := flS2c_err R hL c d
  have la : ∀ i, |A i| ≤ 1 := by rw [hA]; exact dir_le a b
  have lb : ∀ i, |B i| ≤ 1 := by rw [hB]; exact dir_le c d
  rw [← hA] at ea
  rw [← hB] at eb
  have uA : dot A A = 1 := by rw [hA]; exact dot_dir _ _
  have uB : dot B B = 1 := by rw [hB]; exact dot_dir _ _
  have hS : palDsep a b c d = eraSepp A B := by unfold palDsep eraSeps; rw [eraS2c_eq, eraS2c_eq, hA, hB]
  unfold flSeps
  rw [hS]
  generalize flS2c fl L a b = p at *
  generalize flS2c fl L c d = q at *
  clear hA hB hS a b c d
  have pr : ∀ i j, |fl (p i * q j) - A i * B j| ≤ 1.28e-15 := fun i j => R.mul _ (ea i) (eb j) (la i) (lb j) (by norm_num) (by norm_num) (by norm_num)
  have pb : ∀ i j, |A i * B j| ≤ 1 := fun i j => by rw [abs_mul]; exact mul_le_one₀ (la i) (abs_nonneg _) (lb j)
  have sub : ∀ i, |eraPxp A B i| ≤ 1 := by
    intro i
    have h := comp_le_len (eraPxp A B) i
    refine h.trans ?_
    rw [len_eq, cross_sq, uA, uB]
    exact Real.sqrt_le_one.2 (by nlinarith [mul_self_nonneg (dot A B)])
  have sb : ∀ i j k l, |A i * B j - A k * B l| ≤ 1 → |fl (fl (p i * q j) - fl (p k * q l)) - (A i * B j - A k * B l)| ≤ 2.68e-15 := by
    intro i j k l h
    have e1 : |-fl (p k * q l) - -(A k * B l)| ≤ 1.28e-15 := by
      rw [show -fl (p k * q l) - -(A k * B l) = -(fl (p k * q l) - A k * B l) by ring, abs_neg]; exact pr k l
    have := R.add 1 2.68e-15 (pr i j) e1 (by rw [← sub_eq_add_neg]; exact h) (by norm_num) (by norm_num) le_rfl (by norm_num) (by norm_num)
    rwa [← sub_eq_add_neg, ← sub_eq_add_neg] at this
  have cr : ∀ i, |flPxp fl p q i - eraPxp A B i| ≤ 2.68e-15 := by
    intro i
    fin_cases i
    · exact sb 1 2 2 1 (sub 0)
    · exact sb 2 0 0 2 (sub 1)
    · exact sb 0 1 1 0 (sub 2)
  have lc := len_le_of_comp cr
  have rt := (len_rev_tri (flPxp fl p q) (eraPxp A B)).trans lc
  have hd : |dot A B| ≤ 1 := by have := dot_le_len A B; rwa [len_one uA, len_one uB, one_mul] at this
  have s1 := R.add 2 2.79e-15 (pr 0 0) (pr 1 1) ((abs_add_le _ _).trans (by linarith [pb 0 0, pb 1 1])) (by norm_num) (by norm_num) (by norm_num) (by norm_num) (by norm_num)
  have s2 := R.add 1 4.2e-15 s1 (pr 2 2) (by rw [dot_eq] at hd; exact hd) (by norm_num) (by norm_num) le_rfl (by norm_num) (by norm_num)
  have hcs : |flPdp fl p q - dot A B| ≤ 5.3e-15 := by rw [dot_eq]; exact s2.trans (by norm_num)
  -- the exact separation
  obtain ⟨s, hs⟩ : ∃ s, s = eraSepp A B := ⟨_, rfl⟩
  have rng := sepp_range A B
  have hcos : cos s = dot A B := by
    have := sepp_cos A B
    rwa [uA, uB, Real.sqrt_one, one_mul, one_mul, ← hs] at this
  have hsin : sin s = len (eraPxp A B) := by
    rw [len_eq, cross_sq, uA, uB, ← hcos, sin_eq_sqrt_one_sub_cos_sq (by rw [hs]; exact rng.1) (by rw [hs]; exact rng.2), one_mul, sq]
  have lC : len (eraPxp A B) ≤ 1 := by rw [← hsin]; exact sin_le_one s
  have lv : len (flPxp fl p q) ≤ 1.01 := by have := (abs_le.1 rt).2; norm_num at *; linarith
  obtain ⟨m0, m1⟩ := flPm_err R (flPxp fl p q) (lv.trans (by norm_num))
  have z : (1 : ℝ) / 10 ^ 96 ≤ 1e-20 := by norm_num
  have hss : |flPm fl (flPxp fl p q) - sin s| ≤ 5.3e-15 := by
    rw [hsin]
    have := abs_sub_le (flPm fl (flPxp fl p q)) (len (flPxp fl p q)) (len (eraPxp A B))
    generalize (1 : ℝ) / 10 ^ 96 = t at *
    norm_num at *
    linarith
  rw [← hcos] at hcs
  have hp := half_plane s (flPdp fl p q) (flPm fl (flPxp fl p q)) 5.3e-15 (by rw [hs]; exact rng.1) (by rw [hs]; exact rng.2) m0 hcs hss (by norm_num)
  unfold flSepp
  dsimp only
  rw [← hs]
  by_cases h0 : flPm fl (flPxp fl p q) ≠ 0 ∨ flPdp fl p q ≠ 0
  · rw [if_pos h0]
    have := abs_sub_le (L.atan2 (flPm fl (flPxp fl p q)) (flPdp fl p q)) (atan2 (flPm fl (flPxp fl p q)) (flPdp fl p q)) s
    have := hL.atan2 (flPm fl (flPxp fl p q)) (flPdp fl p q)
    norm_num at *
    linarith
  · push Not at h0
    rw [h0.1, h0.2] at hp
    rw [if_neg (by rw [h0.1, h0.2]; simp)]
    rw [atan2_zero] at hp
    exact hp.trans (by norm_num)

end Pal
