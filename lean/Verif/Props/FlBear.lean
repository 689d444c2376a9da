import Verif.Model.FlBear
import Verif.Props.FlSphere
import Verif.Props.Parallactic

/-!
# C116: bearings and parallactic angles in double precision
-/

namespace Pal.Props
open Real Pal Pal.Spec

/-- An angle is controlled by the chord, up to whole turns. -/
theorem angle_of_chord (a b : ℝ) : ∃ k : ℤ, |a - (b + k * (2 * π))| ≤ π / 2 * len (fun i => dir a 0 i - dir b 0 i) := by
  have hp := pi_pos
  refine ⟨round ((a - b) / (2 * π)), ?_⟩
  set k := round ((a - b) / (2 * π)) with hk
  set δ := a - (b + k * (2 * π)) with hδ
  have h1 : |δ| ≤ π := by
    have := abs_sub_round ((a - b) / (2 * π))
    rw [← hk] at this
    have e : δ = ((a - b) / (2 * π) - k) * (2 * π) := by rw [hδ]; field_simp; ring
    rw [e, abs_mul, abs_of_pos (by positivity : 0 < 2 * π)]
    nlinarith
  have h2 : |sin (δ / 2)| ≥ 2 / π * |δ / 2| := mul_abs_le_abs_sin (by rw [abs_div, abs_of_pos (by norm_num : (0 : ℝ) < 2)]; linarith)
  have h3 : len (fun i => dir a 0 i - dir b 0 i) = 2 * |sin (δ / 2)| := by
    unfold len
    rw [Fin.sum_univ_three]
    simp only [dir, Matrix.cons_val_zero, Matrix.cons_val_one, Matrix.cons_val, cos_zero, sin_zero]
    have c : cos δ = cos (a - b) := by rw [hδ, show a - (b + k * (2 * π)) = a - b - k * (2 * π) by ring, cos_sub_int_mul_two_pi]
    have s := Real.sin_sq_eq_half_sub (δ / 2)
    rw [show 2 * (δ / 2) = δ by ring, c, cos_sub] at s
    have q1 := sin_sq_add_cos_sq a
    have q2 := sin_sq_add_cos_sq b
    rw [show (1 * cos a - 1 * cos b) ^ 2 + (1 * sin a - 1 * sin b) ^ 2 + (0 - 0) ^ 2 = (2 * sin (δ / 2)) ^ 2 by linear_combination q1 + q2 - 4 * s]
    rw [Real.sqrt_sq_eq_abs, abs_mul, abs_of_pos (by norm_num : (0 : ℝ) < 2)]
  rw [h3]
  rw [abs_div, abs_of_pos (by norm_num : (0 : ℝ) < 2)] at h2
  have : |δ| = π / 2 * (2 * (2 / π * (|δ| / 2))) := by field_simp
  rw [this]
  exact mul_le_mul_of_nonneg_left (by linarith) (by positivity)

/-- An angle computed from slightly wrong components. -/
theorem bearing_close {x y X Y e S q ρ T θ : ℝ} (hx : |x - X| ≤ e) (hy : |y - Y| ≤ e) (hS : 0 ≤ S) (hS1 : S ≤ 2) (hX : S * cos q = X) (hY : S * sin q = Y) (hρ : 0 ≤ ρ) (rx : ρ * cos T = x) (ry : ρ * sin T = y)
    (ht : |θ - T| ≤ 4.5e-16) : ∃ k : ℤ, S * |θ - (q + k * (2 * π))| ≤ 5.45 * e + 9e-16 := by
  obtain ⟨k, hk⟩ := angle_of_chord T q
  refine ⟨k, ?_⟩
  have one : ∀ a : ℝ, len (dir a 0) = 1 := fun a => len_one (dot_dir a 0)
  have c := norm_close (k := S) (k' := ρ) (u := dir q 0) (u' := dir T 0) (W := ![X, Y, 0]) (W' := ![x, y, 0]) hS hρ (one q) (one T)
    (by funext i; fin_cases i <;> simp [dir, hX, hY]) (by funext i; fin_cases i <;> simp [dir, rx, ry])
  have l := len_le_of_comp (a := fun i => (![X, Y, 0] : Vec3) i - (![x, y, 0] : Vec3) i) (e := e) (by
    intro i
    fin_cases i
    · show |X - x| ≤ e; rwa [abs_sub_comm]
    · show |Y - y| ≤ e; rwa [abs_sub_comm]
    · show |(0 : ℝ) - 0| ≤ e; simpa using (abs_nonneg _).trans hx)
  have sw : len (fun i => dir q 0 i - dir T 0 i) = len (fun i => dir T 0 i - dir q 0 i) := by
    unfold len; congr 1; refine Finset.sum_congr rfl fun i _ => by ring
  rw [sw] at c
  have t := abs_add_le (θ - T) (T - (q + k * (2 * π)))
  rw [show θ - T + (T - (q + k * (2 * π))) = θ - (q + k * (2 * π)) by ring] at t
  have p4 := pi_lt_d4
  have e0 := (abs_nonneg _).trans hx
  generalize len (fun i => dir T 0 i - dir q 0 i) = D at *
  generalize |θ - (q + k * (2 * π))| = A at *
  generalize |T - (q + k * (2 * π))| = B at *
  have h1 : S * A ≤ S * (4.5e-16 + π / 2 * D) := mul_le_mul_of_nonneg_left (by linarith) hS
  have h2 : π / 2 * (S * D) ≤ π / 2 * (2 * (1.7321 * e)) := mul_le_mul_of_nonneg_left (by linarith) (by positivity)
  have h3 : π * (1.7321 * e) ≤ 3.1416 * (1.7321 * e) := mul_le_mul_of_nonneg_right (by linarith) (by positivity)
  norm_num at *
  nlinarith

theorem sub_err {fl : ℝ → ℝ} (R : Rounding fl) {a A b B α β : ℝ} (ε : ℝ) (ha : |a - A| ≤ α) (hb : |b - B| ≤ β) (hM : |A - B| ≤ 1) (h1 : α ≤ 1e-13) (h2 : β ≤ 1e-13) (he : α + β + 1.111e-16 ≤ ε) :
    |fl (a - b) - (A - B)| ≤ ε := by
  have := R.add (a := a) (A := A) (b := -b) (B := -B) 1 ε ha (by rwa [← neg_add', abs_neg, ← sub_eq_add_neg] ) (by rwa [← sub_eq_add_neg]) h1 h2 le_rfl (by norm_num) (by linarith)
  rwa [← sub_eq_add_neg, ← sub_eq_add_neg] at this

/-- Components of a bearing whose longitude difference is slightly wrong. -/
theorem bear_comp {fl : ℝ → ℝ} (R : Rounding fl) {L : Libm} (hL : LibmOK L) (d D b1 b2 η : ℝ) (h : |d - D| ≤ η) (hη : η ≤ 5e-14) :
    |fl (L.sin d * L.cos b2) - sin D * cos b2| ≤ η + 5.8e-16 ∧ |fl (L.cos b2 * L.sin d) - cos b2 * sin D| ≤ η + 5.8e-16 ∧
    |fl (fl (L.sin b2 * L.cos b1) - fl (fl (L.cos b2 * L.sin b1) * L.cos d)) - (sin b2 * cos b1 - cos b2 * sin b1 * cos D)| ≤ η + 1.6e-15 := by
  have η0 := (abs_nonneg _).trans h
  have s1 : |L.sin d - sin D| ≤ η + 2.3e-16 := by
    have t := abs_add_le (L.sin d - sin d) (sin d - sin D)
    have u : |sin d - sin D| ≤ |d - D| := by
      have := Real.lipschitzWith_sin.dist_le_mul d D
      simpa [Real.dist_eq] using this
    rw [sub_add_sub_cancel] at t
    linarith [hL.sin d]
  have c1 : |L.cos d - cos D| ≤ η + 2.3e-16 := by
    have t := abs_add_le (L.cos d - cos d) (cos d - cos D)
    have u : |cos d - cos D| ≤ |d - D| := by
      have := Real.lipschitzWith_cos.dist_le_mul d D
      simpa [Real.dist_eq] using this
    rw [sub_add_sub_cancel] at t
    linarith [hL.cos d]
  have z : η + 2.3e-16 ≤ 1e-13 := by norm_num at *; linarith
  refine ⟨R.mul _ s1 (hL.cos b2) (abs_sin_le_one _) (abs_cos_le_one _) z (by norm_num) (by norm_num; linarith), R.mul _ (hL.cos b2) s1 (abs_cos_le_one _) (abs_sin_le_one _) (by norm_num) z (by norm_num; linarith), ?_⟩
  have m1 : |fl (L.sin b2 * L.cos b1) - sin b2 * cos b1| ≤ 5.72e-16 := R.mul _ (hL.sin b2) (hL.cos b1) (abs_sin_le_one _) (abs_cos_le_one _) (by norm_num) (by norm_num) (by norm_num)
  have m2 : |fl (L.cos b2 * L.sin b1) - cos b2 * sin b1| ≤ 5.72e-16 := R.mul _ (hL.cos b2) (hL.sin b1) (abs_cos_le_one _) (abs_sin_le_one _) (by norm_num) (by norm_num) (by norm_num)
  have p1 : |cos b2 * sin b1| ≤ 1 := by rw [abs_mul]; exact mul_le_one₀ (abs_cos_le_one _) (abs_nonneg _) (abs_sin_le_one _)
  have m3 : |fl (fl (L.cos b2 * L.sin b1) * L.cos d) - cos b2 * sin b1 * cos D| ≤ η + 9.14e-16 := R.mul _ m2 c1 p1 (abs_cos_le_one _) (by norm_num) z (by norm_num; linarith)
  refine sub_err R _ m1 m3 ?_ (by norm_num) (by norm_num at *; linarith) (by norm_num; linarith)
  have e : sin b2 * cos b1 - cos b2 * sin b1 * cos D = dot (dir D b2) (northAt 0 b1) := by rw [dot_eq]; simp [dir, northAt]; ring
  rw [e]
  have f := frame_sq 0 b1 (dir D b2)
  rw [dot_dir] at f
  refine abs_le_one_iff_mul_self_le_one.2 ?_
  nlinarith [mul_self_nonneg (dot (dir D b2) (dir 0 b1)), mul_self_nonneg (dot (dir D b2) (eastAt 0))]

/-- **C116** palDbear in double precision: the bearing it returns differs from the exact bearing, up to whole turns, by at most 2e-14 divided by the sine of the separation; it is in the
documented range to a rounding error; the points are given with longitudes at most two turns apart. -/
theorem C116_dbear {fl : ℝ → ℝ} (R : Rounding fl) {L : Libm} (hL : LibmOK L) (nz : Bool) (a1 b1 a2 b2 : ℝ) (h : |a2 - a1| ≤ 4 * π) :
    |flDbear fl L nz a1 b1 a2 b2| ≤ π + 4.5e-16 ∧
    ∃ k : ℤ, sin (palDsep a1 b1 a2 b2) * |flDbear fl L nz a1 b1 a2 b2 - (palDbear a1 b1 a2 b2 + k * (2 * π))| ≤ 2e-14 := by
  have p4 := pi_lt_d4
  have hd : |fl (a2 - a1) - (a2 - a1)| ≤ 1.4e-15 := R.add_err _ (X := a2 - a1) (δ := 0) (B := 12.5664) (by rw [sub_self, abs_zero]) (by norm_num at *; linarith) (by norm_num) (by norm_num) (by norm_num)
  obtain ⟨y, -, x⟩ := bear_comp R hL _ _ b1 b2 _ hd (by norm_num)
  obtain ⟨g1, g2, -, -⟩ := C75_dbear a1 b1 a2 b2
  have he : dot (dir a2 b2) (eastAt a1) = sin (a2 - a1) * cos b2 := by
    rw [dot_eq, sin_sub]; simp [dir, eastAt]; ring
  have hn : dot (dir a2 b2) (northAt a1 b1) = sin b2 * cos b1 - cos b2 * sin b1 * cos (a2 - a1) := by
    rw [dot_eq, cos_sub]; simp [dir, northAt]; ring
  rw [hn] at g1
  rw [he] at g2
  obtain ⟨-, s1, s2, -⟩ := C31_dsep a1 b1 a2 b2 0 0
  have S0 := sin_nonneg_of_nonneg_of_le_pi s1 s2
  have S1 := (sin_le_one (palDsep a1 b1 a2 b2)).trans one_le_two
  have y' := y.trans (by norm_num : (1.4e-15 + 5.8e-16 : ℝ) ≤ 3e-15)
  have x' := x.trans (by norm_num : (1.4e-15 + 1.6e-15 : ℝ) ≤ 3e-15)
  unfold flDbear flPas
  dsimp only
  generalize fl (L.sin (fl (a2 - a1)) * L.cos b2) = Y at *
  generalize fl (fl (L.sin b2 * L.cos b1) - fl (fl (L.cos b2 * L.sin b1) * L.cos (fl (a2 - a1)))) = X at *
  by_cases hxy : X ≠ 0 ∨ Y ≠ 0
  · rw [if_pos hxy]
    obtain ⟨T, t1, t2, t3, t4⟩ := flAtan2_spec hL nz Y X hxy
    refine ⟨close_range t1 t4, ?_⟩
    obtain ⟨k, hk⟩ := bearing_close x' y' S0 S1 g1 g2 (Real.sqrt_nonneg _) t2.symm t3.symm t1
    exact ⟨k, hk.trans (by norm_num)⟩
  · rw [if_neg hxy]
    rw [not_or, not_not, not_not] at hxy
    refine ⟨by rw [abs_zero]; positivity, ?_⟩
    obtain ⟨k, hk⟩ := bearing_close (ρ := 0) (T := 0) (θ := 0) x' y' S0 S1 g1 g2 le_rfl (by rw [hxy.1, zero_mul]) (by rw [hxy.2, zero_mul]) (by norm_num)
    exact ⟨k, hk.trans (by norm_num)⟩

/-- **C116** palPa in double precision: the parallactic angle differs from the exact one, up to whole turns, by at most 1e-14 divided by the cosine of the elevation, for all arguments. -/
theorem C116_pa {fl : ℝ → ℝ} (R : Rounding fl) {L : Libm} (hL : LibmOK L) (nz : Bool) (ha dec phi : ℝ) :
    |flPa fl L nz ha dec phi| ≤ π + 4.5e-16 ∧
    ∃ k : ℤ, cos (palDe2h ha dec phi).2 * |flPa fl L nz ha dec phi - (palPa ha dec phi + k * (2 * π))| ≤ 1e-14 := by
  obtain ⟨-, y, x⟩ := bear_comp R hL ha ha dec phi 0 (by rw [sub_self, abs_zero]) (by norm_num)
  obtain ⟨g2, g1⟩ := C115_components ha dec phi
  have S0 := pa_cos_el ha dec phi
  have S1 := (cos_le_one (palDe2h ha dec phi).2).trans one_le_two
  have y' := y.trans (by norm_num : (0 + 5.8e-16 : ℝ) ≤ 1.6e-15)
  have x' := x.trans (by norm_num : (0 + 1.6e-15 : ℝ) ≤ 1.6e-15)
  unfold flPa
  dsimp only
  generalize fl (L.cos phi * L.sin ha) = Y at *
  generalize fl (fl (L.sin phi * L.cos dec) - fl (fl (L.cos phi * L.sin dec) * L.cos ha)) = X at *
  by_cases hxy : Y = 0 ∧ X = 0
  · rw [if_pos hxy]
    obtain ⟨T, t1, t2, t3, t4⟩ := flAtan2_spec hL nz Y 1 (Or.inl one_ne_zero)
    refine ⟨close_range t1 t4, ?_⟩
    obtain ⟨k, hk⟩ := bearing_close (ρ := 0) (T := T) x' y' S0 S1 g1 g2 le_rfl (by rw [hxy.2, zero_mul]) (by rw [hxy.1, zero_mul]) t1
    exact ⟨k, hk.trans (by norm_num)⟩
  · rw [if_neg hxy]
    rw [not_and_or] at hxy
    obtain ⟨T, t1, t2, t3, t4⟩ := flAtan2_spec hL nz Y X (by tauto)
    refine ⟨close_range t1 t4, ?_⟩
    obtain ⟨k, hk⟩ := bearing_close x' y' S0 S1 g1 g2 (Real.sqrt_nonneg _) t2.symm t3.symm t1
    exact ⟨k, hk.trans (by norm_num)⟩

/-- Rounded products of numbers that are slightly wrong. -/
theorem mulM {fl : ℝ → ℝ} (R : Rounding fl) {a A b B α β MA MB : ℝ} (ε : ℝ) (ha : |a - A| ≤ α) (hb : |b - B| ≤ β) (hA : |A| ≤ MA) (hB : |B| ≤ MB) (h1 : α ≤ 1e-13) (h2 : β ≤ 1e-13) (hM1 : 1 ≤ MA) (hM2 : 1 ≤ MB)
    (hM : MA * MB ≤ 100) (he : α * MB + β * MA + 1e-25 + 1.111e-16 * (MA * MB) ≤ ε) : |fl (a * b) - A * B| ≤ ε := by
  have a0 := (abs_nonneg _).trans ha
  have b0 := (abs_nonneg _).trans hb
  have h3 : α * β ≤ 1e-26 := by nlinarith
  have h4 : α * MB ≤ 1e-13 * 100 := mul_le_mul h1 (by nlinarith) (by linarith) (by norm_num)
  have h5 : β * MA ≤ 1e-13 * 100 := mul_le_mul h2 (by nlinarith) (by linarith) (by norm_num)
  have h6 : |A * B| ≤ MA * MB := by rw [abs_mul]; exact mul_le_mul hA hB (abs_nonneg _) (by linarith)
  have h7 : 1 ≤ MA * MB := by nlinarith
  refine R.add_err ε (mul_err _ ha hb hA hB le_rfl) h6 h7 ?_ ?_
  · norm_num at *; linarith
  · generalize MA * MB = P at *
    generalize α * MB = Q at *
    generalize β * MA = U at *
    generalize α * β = V at *
    norm_num at *
    linarith

theorem addM {fl : ℝ → ℝ} (R : Rounding fl) {a A b B α β : ℝ} (M ε : ℝ) (ha : |a - A| ≤ α) (hb : |b - B| ≤ β) (hA : |A + B| ≤ M) (h1 : α ≤ 1e-13) (h2 : β ≤ 1e-13) (hM1 : 1 ≤ M) (hM : M ≤ 1000)
    (he : α + β + 1.111e-16 * M ≤ ε) : |fl (a + b) - (A + B)| ≤ ε := R.add M ε ha hb hA h1 h2 hM1 hM he

theorem subM {fl : ℝ → ℝ} (R : Rounding fl) {a A b B α β : ℝ} (M ε : ℝ) (ha : |a - A| ≤ α) (hb : |b - B| ≤ β) (hA : |A| + |B| ≤ M) (h1 : α ≤ 1e-13) (h2 : β ≤ 1e-13) (hM1 : 1 ≤ M) (hM : M ≤ 1000)
    (he : α + β + 1.111e-16 * M ≤ ε) : |fl (a - b) - (A - B)| ≤ ε := by
  have := R.add (a := a) (A := A) (b := -b) (B := -B) M ε ha (by rwa [← neg_add', abs_neg, ← sub_eq_add_neg]) (by have := abs_add_le A (-B); rw [abs_neg] at this; linarith) h1 h2 hM1 hM he
  rwa [← sub_eq_add_neg, ← sub_eq_add_neg] at this

/-- Rounded scalar products. -/
theorem dotM {fl : ℝ → ℝ} (R : Rounding fl) {a A b B : Vec3} {α β MA MB : ℝ} (ε : ℝ) (ha : ∀ i, |a i - A i| ≤ α) (hb : ∀ i, |b i - B i| ≤ β) (hA : ∀ i, |A i| ≤ MA) (hB : ∀ i, |B i| ≤ MB) (h1 : α ≤ 5e-15) (h2 : β ≤ 5e-15)
    (hM1 : 1 ≤ MA) (hM2 : 1 ≤ MB) (hM : MA * MB ≤ 3) (he : 3 * (α * MB + β * MA) + 1e-24 + 8.888e-16 * (MA * MB) ≤ ε) : |flPdp fl a b - eraPdp A B| ≤ ε := by
  have a0 := (abs_nonneg _).trans (ha 0)
  have b0 := (abs_nonneg _).trans (hb 0)
  have p : ∀ i, |fl (a i * b i) - A i * B i| ≤ α * MB + β * MA + 1e-25 + 1.111e-16 * (MA * MB) := fun i =>
    mulM R _ (ha i) (hb i) (hA i) (hB i) (h1.trans (by norm_num)) (h2.trans (by norm_num)) hM1 hM2 (hM.trans (by norm_num)) le_rfl
  have q : ∀ i, |A i * B i| ≤ MA * MB := fun i => by rw [abs_mul]; exact mul_le_mul (hA i) (hB i) (abs_nonneg _) (by linarith)
  have k1 : α * MB ≤ 5e-15 * 3 := mul_le_mul h1 (by nlinarith) (by linarith) (by norm_num)
  have k2 : β * MA ≤ 5e-15 * 3 := mul_le_mul h2 (by nlinarith) (by linarith) (by norm_num)
  have k3 : 1 ≤ MA * MB := by nlinarith
  have k4 : 0 ≤ α * MB := mul_nonneg a0 (by linarith)
  have k5 : 0 ≤ β * MA := mul_nonneg b0 (by linarith)
  generalize MA * MB = P at *
  generalize α * MB = Q at *
  generalize β * MA = U at *
  have s1 := addM R (2 * P) (2 * (Q + U + 1e-25 + 1.111e-16 * P) + 2.222e-16 * P) (p 0) (p 1) (by have := abs_add_le (A 0 * B 0) (A 1 * B 1); linarith [q 0, q 1]) (by norm_num at *; linarith) (by norm_num at *; linarith) (by linarith) (by linarith)
    (by norm_num at *; linarith)
  have s2 := addM R (3 * P) ε s1 (p 2) (by
    have := abs_add_le (A 0 * B 0 + A 1 * B 1) (A 2 * B 2)
    have := abs_add_le (A 0 * B 0) (A 1 * B 1); linarith [q 0, q 1, q 2]) (by norm_num at *; linarith) (by norm_num at *; linarith) (by linarith) (by linarith) (by norm_num at *; linarith)
  exact s2

/-- The components palDpav works with, exactly. -/
theorem pap_exact (a1 b1 a2 b2 k m : ℝ) :
    let eta : Vec3 := ![-(k * dir a1 b1 0) * (k * dir a1 b1 2), -(k * dir a1 b1 1) * (k * dir a1 b1 2), k * dir a1 b1 0 * (k * dir a1 b1 0) + k * dir a1 b1 1 * (k * dir a1 b1 1)]
    eraPxp eta (dir a1 b1) = (fun i => k * k * cos b1 * eastAt a1 i) ∧ eta = (fun i => k * k * cos b1 * northAt a1 b1 i) ∧
    eraPdp (fun i => m * dir a2 b2 i - k * dir a1 b1 i) (eraPxp eta (dir a1 b1)) = k * k * m * cos b1 * dot (dir a2 b2) (eastAt a1) ∧
    eraPdp (fun i => m * dir a2 b2 i - k * dir a1 b1 i) eta = k * k * m * cos b1 * dot (dir a2 b2) (northAt a1 b1) := by
  have h1 := sin_sq_add_cos_sq a1
  have h2 := sin_sq_add_cos_sq b1
  intro eta
  have e2 : eta = (fun i => k * k * cos b1 * northAt a1 b1 i) := by
    funext i
    fin_cases i
    · show -(k * (cos b1 * cos a1)) * (k * sin b1) = k * k * cos b1 * (-sin b1 * cos a1); ring
    · show -(k * (cos b1 * sin a1)) * (k * sin b1) = k * k * cos b1 * (-sin b1 * sin a1); ring
    · show k * (cos b1 * cos a1) * (k * (cos b1 * cos a1)) + k * (cos b1 * sin a1) * (k * (cos b1 * sin a1)) = k * k * cos b1 * cos b1
      linear_combination (k * k * cos b1 * cos b1) * h1
  have e1 : eraPxp eta (dir a1 b1) = (fun i => k * k * cos b1 * eastAt a1 i) := by
    rw [e2]
    funext i
    fin_cases i
    · show k * k * cos b1 * (-sin b1 * sin a1) * sin b1 - k * k * cos b1 * cos b1 * (cos b1 * sin a1) = k * k * cos b1 * -sin a1
      linear_combination (-(k * k * cos b1 * sin a1)) * h2
    · show k * k * cos b1 * cos b1 * (cos b1 * cos a1) - k * k * cos b1 * (-sin b1 * cos a1) * sin b1 = k * k * cos b1 * cos a1
      linear_combination (k * k * cos b1 * cos a1) * h2
    · show k * k * cos b1 * (-sin b1 * cos a1) * (cos b1 * sin a1) - k * k * cos b1 * (-sin b1 * sin a1) * (cos b1 * cos a1) = k * k * cos b1 * 0
      ring
  refine ⟨e1, e2, ?_, ?_⟩
  · rw [e1]
    simp only [dot_eq, eraPdp, dir, eastAt, Matrix.cons_val_zero, Matrix.cons_val_one, Matrix.cons_val]
    ring
  · rw [e2]
    simp only [dot_eq, eraPdp, dir, northAt, Matrix.cons_val_zero, Matrix.cons_val_one, Matrix.cons_val]
    linear_combination (k * k * k * cos b1 * cos b1 * sin b1) * h1

theorem kkm_bounds {k m : ℝ} (hk1 : 0.99 ≤ k) (hk2 : k ≤ 1.01) (hm1 : 0.99 ≤ m) (hm2 : m ≤ 1.01) : 0.97 ≤ k * k * m ∧ k * k * m ≤ 1.1 := by
  have a : 0.9801 ≤ k * k := by norm_num at *; nlinarith
  have b : k * k ≤ 1.0201 := by norm_num at *; nlinarith
  constructor <;> norm_num at * <;> nlinarith

set_option maxHeartbeats 1000000 in
/-- **C116** palDpav in double precision: for vectors whose lengths are within 1% of unity, the position angle differs from the exact bearing of the directions (palDbear), up to whole turns, by at
most 1.3e-13 divided by the sine of the separation and by the cosine of the first point's latitude. -/
theorem C116_dpav {fl : ℝ → ℝ} (R : Rounding fl) {L : Libm} (hL : LibmOK L) (nz : Bool) (a1 b1 a2 b2 k m : ℝ) (hk1 : 0.99 ≤ k) (hk2 : k ≤ 1.01) (hm1 : 0.99 ≤ m) (hm2 : m ≤ 1.01) (hb : 0 ≤ cos b1) :
    let t := flDpav fl L nz (fun i => k * dir a1 b1 i) (fun i => m * dir a2 b2 i)
    |t| ≤ π + 4.5e-16 ∧ ∃ j : ℤ, cos b1 * sin (palDsep a1 b1 a2 b2) * |t - (palDbear a1 b1 a2 b2 + j * (2 * π))| ≤ 1.3e-13 := by
  intro t
  have k0 : 0 < k := by norm_num at hk1; linarith
  have m0 : 0 < m := by norm_num at hm1; linarith
  obtain ⟨x1, x2, x3, x4⟩ := pap_exact a1 b1 a2 b2 k m
  have la : len (fun i => k * dir a1 b1 i) = k := by rw [len_smul, len_one (dot_dir _ _), mul_one, abs_of_pos k0]
  have lb : len (fun i => m * dir a2 b2 i) = m := by rw [len_smul, len_one (dot_dir _ _), mul_one, abs_of_pos m0]
  have hkk : k * k ≤ 1.0201 := by norm_num at *; nlinarith
  have hkc : k * k * cos b1 ≤ 1.0201 := by nlinarith [cos_le_one b1, mul_pos k0 k0]
  have hkc0 : 0 ≤ k * k * cos b1 := by positivity
  have hE : ∀ i, |eastAt a1 i| ≤ 1 := by
    intro i; fin_cases i
    · show |-sin a1| ≤ 1; rw [abs_neg]; exact abs_sin_le_one _
    · exact abs_cos_le_one _
    · show |(0 : ℝ)| ≤ 1; norm_num
  have hN : ∀ i, |northAt a1 b1 i| ≤ 1 := by
    intro i; fin_cases i
    · show |-sin b1 * cos a1| ≤ 1; rw [abs_mul, abs_neg]; exact mul_le_one₀ (abs_sin_le_one _) (abs_nonneg _) (abs_cos_le_one _)
    · show |-sin b1 * sin a1| ≤ 1; rw [abs_mul, abs_neg]; exact mul_le_one₀ (abs_sin_le_one _) (abs_nonneg _) (abs_sin_le_one _)
    · exact abs_cos_le_one _
  have hA : ∀ i, |k * dir a1 b1 i| ≤ 1.01 := fun i => by rw [abs_mul, abs_of_pos k0]; nlinarith [dir_le a1 b1 i, abs_nonneg (dir a1 b1 i)]
  have hB : ∀ i, |m * dir a2 b2 i| ≤ 1.01 := fun i => by rw [abs_mul, abs_of_pos m0]; nlinarith [dir_le a2 b2 i, abs_nonneg (dir a2 b2 i)]
  have hau : ∀ i, |(flPn fl (fun i => k * dir a1 b1 i)).2 i - dir a1 b1 i| ≤ 8e-16 := by
    intro i
    have := (C104_dvn R (fun i => k * dir a1 b1 i) (by rw [la]; norm_num at *; linarith) (by rw [la]; norm_num at *; linarith)).2 i
    rwa [la, mul_div_cancel_left₀ _ k0.ne'] at this
  have ham : (flPn fl (fun i => k * dir a1 b1 i)).1 ≠ 0 := by
    have := abs_le.1 (C104_dvn R (fun i => k * dir a1 b1 i) (by rw [la]; norm_num at *; linarith) (by rw [la]; norm_num at *; linarith)).1
    rw [la] at this
    have : 0 < (flPn fl (fun i => k * dir a1 b1 i)).1 := by norm_num at *; linarith
    exact this.ne'
  have hbm : flPm fl (fun i => m * dir a2 b2 i) ≠ 0 := by
    have := abs_le.1 (flPm_err R (fun i => m * dir a2 b2 i) (by rw [lb]; norm_num at *; linarith)).2
    rw [lb] at this
    have z : (1 : ℝ) / 10 ^ 96 ≤ 1e-18 := by norm_num
    generalize (1 : ℝ) / 10 ^ 96 = w at *
    have : 0 < flPm fl (fun i => m * dir a2 b2 i) := by norm_num at *; linarith
    exact this.ne'
  set a : Vec3 := fun i => k * dir a1 b1 i with ha
  set b : Vec3 := fun i => m * dir a2 b2 i with hb'
  set eta : Vec3 := ![fl (-a 0 * a 2), fl (-a 1 * a 2), fl (fl (a 0 * a 0) + fl (a 1 * a 1))] with heta
  set ETA : Vec3 := ![-(a 0) * a 2, -(a 1) * a 2, a 0 * a 0 + a 1 * a 1] with hETA
  have x2' : ETA = fun i => k * k * cos b1 * northAt a1 b1 i := x2
  have x1' : eraPxp ETA (dir a1 b1) = fun i => k * k * cos b1 * eastAt a1 i := x1
  have zz : ∀ x : ℝ, |x - x| ≤ 0 := fun x => by rw [sub_self, abs_zero]
  have e1 : ∀ i, |eta i - ETA i| ≤ 3.5e-16 := by
    have pr : ∀ i j, |fl (a i * a j) - a i * a j| ≤ 1.14e-16 := fun i j =>
      mulM R _ (zz _) (zz _) (hA i) (hA j) (by norm_num) (by norm_num) (by norm_num) (by norm_num) (by norm_num) (by norm_num)
    have pn : ∀ i j, |fl (-a i * a j) - -a i * a j| ≤ 1.14e-16 := fun i j =>
      mulM (MA := 1.01) R _ (zz _) (zz _) (by rw [abs_neg]; exact hA i) (hA j) (by norm_num) (by norm_num) (by norm_num) (by norm_num) (by norm_num) (by norm_num)
    intro i
    fin_cases i
    · exact (pn 0 2).trans (by norm_num)
    · exact (pn 1 2).trans (by norm_num)
    · refine addM R 1.0201 _ (pr 0 0) (pr 1 1) ?_ (by norm_num) (by norm_num) (by norm_num) (by norm_num) (by norm_num)
      have : a 0 * a 0 + a 1 * a 1 = k * k * cos b1 * northAt a1 b1 2 := congrFun x2' 2
      rw [this, abs_mul, abs_of_nonneg hkc0]
      nlinarith [hN 2, abs_nonneg (northAt a1 b1 2)]
  have nE : ∀ i, |ETA i| ≤ 1.0201 := fun i => by rw [x2', abs_mul, abs_of_nonneg hkc0]; nlinarith [hN i, abs_nonneg (northAt a1 b1 i)]
  have nX : ∀ i, |eraPxp ETA (dir a1 b1) i| ≤ 1.0201 := fun i => by rw [x1', abs_mul, abs_of_nonneg hkc0]; nlinarith [hE i, abs_nonneg (eastAt a1 i)]
  have e2 : ∀ i, |flPxp fl eta (flPn fl a).2 i - eraPxp ETA (dir a1 b1) i| ≤ 2.9e-15 := by
    have pr : ∀ i j, |fl (eta i * (flPn fl a).2 j) - ETA i * dir a1 b1 j| ≤ 1.28e-15 := fun i j =>
      mulM R _ (e1 i) (hau j) (nE i) (dir_le a1 b1 j) (by norm_num) (by norm_num) (by norm_num) (by norm_num) (by norm_num) (by norm_num)
    have nb : ∀ i j, |ETA i * dir a1 b1 j| ≤ 1.0201 := fun i j => by
      rw [abs_mul]; nlinarith [nE i, dir_le a1 b1 j, abs_nonneg (ETA i), abs_nonneg (dir a1 b1 j)]
    have sb : ∀ i j p q, |fl (fl (eta i * (flPn fl a).2 j) - fl (eta p * (flPn fl a).2 q)) - (ETA i * dir a1 b1 j - ETA p * dir a1 b1 q)| ≤ 2.9e-15 := fun i j p q =>
      subM R 2.0402 _ (pr i j) (pr p q) (by have h1 := nb i j; have h2 := nb p q; linarith only [h1, h2]) (by norm_num) (by norm_num) (by norm_num) (by norm_num) (by norm_num)
    intro i
    fin_cases i
    · exact sb 1 2 2 1
    · exact sb 2 0 0 2
    · exact sb 0 1 1 0
  have e3 : ∀ i, |fl (b i - a i) - (b i - a i)| ≤ 2.3e-16 := fun i =>
    subM R 2.02 _ (zz _) (zz _) (by have h1 : |a i| ≤ 1.01 := hA i; have h2 : |b i| ≤ 1.01 := hB i; linarith only [h1, h2]) (by norm_num) (by norm_num) (by norm_num) (by norm_num) (by norm_num)
  have n3 : ∀ i, |b i - a i| ≤ 2.02 := fun i => by
    have h0 := abs_sub (b i) (a i)
    have h1 : |a i| ≤ 1.01 := hA i
    have h2 : |b i| ≤ 1.01 := hB i
    linarith only [h0, h1, h2]
  have st : |flPdp fl (fun i => fl (b i - a i)) (flPxp fl eta (flPn fl a).2) - eraPdp (fun i => b i - a i) (eraPxp ETA (dir a1 b1))| ≤ 2.2e-14 :=
    dotM R _ e3 e2 n3 nX (by norm_num) (by norm_num) (by norm_num) (by norm_num) (by norm_num) (by norm_num)
  have ct : |flPdp fl (fun i => fl (b i - a i)) eta - eraPdp (fun i => b i - a i) ETA| ≤ 2.2e-14 :=
    dotM R _ e3 e1 n3 nE (by norm_num) (by norm_num) (by norm_num) (by norm_num) (by norm_num) (by norm_num)
  have x3' : eraPdp (fun i => b i - a i) (eraPxp ETA (dir a1 b1)) = k * k * m * cos b1 * dot (dir a2 b2) (eastAt a1) := x3
  have x4' : eraPdp (fun i => b i - a i) ETA = k * k * m * cos b1 * dot (dir a2 b2) (northAt a1 b1) := x4
  rw [x3'] at st
  rw [x4'] at ct
  obtain ⟨g1, g2, -, -⟩ := C75_dbear a1 b1 a2 b2
  obtain ⟨-, s1, s2, -⟩ := C31_dsep a1 b1 a2 b2 0 0
  have S0 := sin_nonneg_of_nonneg_of_le_pi s1 s2
  have S1 := sin_le_one (palDsep a1 b1 a2 b2)
  have ht : t = flAtan2 L nz (if flPdp fl (fun i => fl (b i - a i)) (flPxp fl eta (flPn fl a).2) = 0 ∧ flPdp fl (fun i => fl (b i - a i)) eta = 0 then
      (flPdp fl (fun i => fl (b i - a i)) (flPxp fl eta (flPn fl a).2), (1 : ℝ)) else (flPdp fl (fun i => fl (b i - a i)) (flPxp fl eta (flPn fl a).2), flPdp fl (fun i => fl (b i - a i)) eta)).1
      (if flPdp fl (fun i => fl (b i - a i)) (flPxp fl eta (flPn fl a).2) = 0 ∧ flPdp fl (fun i => fl (b i - a i)) eta = 0 then
      (flPdp fl (fun i => fl (b i - a i)) (flPxp fl eta (flPn fl a).2), (1 : ℝ)) else (flPdp fl (fun i => fl (b i - a i)) (flPxp fl eta (flPn fl a).2), flPdp fl (fun i => fl (b i - a i)) eta)).2 := by
    show flPap fl L nz a b = _
    unfold flPap
    dsimp only
    rw [if_neg (by rintro (h | h); exacts [ham h, hbm h])]
  clear_value t
  generalize flPdp fl (fun i => fl (b i - a i)) (flPxp fl eta (flPn fl a).2) = Y at *
  generalize flPdp fl (fun i => fl (b i - a i)) eta = X at *
  obtain ⟨hkm, hkm2⟩ := kkm_bounds hk1 hk2 hm1 hm2
  have hS : 0 ≤ k * k * m * cos b1 * sin (palDsep a1 b1 a2 b2) := mul_nonneg (mul_nonneg (by positivity) hb) S0
  have hcs : cos b1 * sin (palDsep a1 b1 a2 b2) ≤ 1 := mul_le_one₀ (cos_le_one _) S0 S1
  have hcs0 : 0 ≤ cos b1 * sin (palDsep a1 b1 a2 b2) := mul_nonneg hb S0
  have hS2 : k * k * m * cos b1 * sin (palDsep a1 b1 a2 b2) ≤ 2 := by
    rw [mul_assoc (k * k * m)]
    have := mul_le_mul hkm2 hcs hcs0 (by norm_num)
    linarith only [this]
  have key : ∃ ρ T, 0 ≤ ρ ∧ ρ * cos T = X ∧ ρ * sin T = Y ∧ |t - T| ≤ 4.5e-16 ∧ |T| ≤ π := by
    by_cases h : Y = 0 ∧ X = 0
    · rw [if_pos h] at ht
      obtain ⟨T, t1, -, -, t4⟩ := flAtan2_spec hL nz Y 1 (Or.inl one_ne_zero)
      exact ⟨0, T, le_rfl, by rw [h.2, zero_mul], by rw [h.1, zero_mul], by rw [ht]; exact t1, t4⟩
    · rw [if_neg h] at ht
      rw [not_and_or] at h
      obtain ⟨T, t1, t2, t3, t4⟩ := flAtan2_spec hL nz Y X (by tauto)
      exact ⟨_, T, Real.sqrt_nonneg _, t2.symm, t3.symm, by rw [ht]; exact t1, t4⟩
  obtain ⟨ρ, T, r0, rx, ry, t1, t4⟩ := key
  refine ⟨close_range t1 t4, ?_⟩
  obtain ⟨j, hj⟩ := bearing_close (q := palDbear a1 b1 a2 b2) ct st hS hS2 (by rw [← g1]; ring) (by rw [← g2]; ring) r0 rx ry t1
  refine ⟨j, ?_⟩
  have nn := mul_nonneg hcs0 (abs_nonneg (t - (palDbear a1 b1 a2 b2 + j * (2 * π))))
  have ee : k * k * m * cos b1 * sin (palDsep a1 b1 a2 b2) * |t - (palDbear a1 b1 a2 b2 + j * (2 * π))| =
      k * k * m * (cos b1 * sin (palDsep a1 b1 a2 b2) * |t - (palDbear a1 b1 a2 b2 + j * (2 * π))|) := by ring
  rw [ee] at hj
  generalize cos b1 * sin (palDsep a1 b1 a2 b2) * |t - (palDbear a1 b1 a2 b2 + j * (2 * π))| = Z at *
  have : 0.97 * Z ≤ k * k * m * Z := mul_le_mul_of_nonneg_right hkm nn
  generalize k * k * m * Z = Z' at *
  clear * - hj this nn
  norm_num at *
  linarith

/-- IEEE arithmetic with a correctly rounded library meets the hypotheses. -/
example : |(2 : ℝ) - 1| ≤ 4 * π ∧ Rounding ieee ∧ LibmOK roundedLibm :=
  ⟨by have := pi_gt_three; norm_num; linarith, ieee_rounding, roundedLibm_ok⟩

end Pal.Props
