import Verif.Model.Erfa
import Verif.Spec.Sphere
import Mathlib.Tactic.LinearCombination
import Mathlib.Tactic.FieldSimp

/-!
# Lemmas about atan2, fmod, and the ERFA helpers
-/

namespace Pal
open Real Pal.Spec

theorem norm_mk (x y : ℝ) : ‖(⟨x, y⟩ : ℂ)‖ = √(x * x + y * y) := by
  rw [Complex.norm_def, Complex.normSq_mk]

theorem hyp_cos_atan2 (y x : ℝ) : √(x * x + y * y) * cos (atan2 y x) = x := by
  have := Complex.norm_mul_cos_arg ⟨x, y⟩
  rwa [norm_mk] at this

theorem hyp_sin_atan2 (y x : ℝ) : √(x * x + y * y) * sin (atan2 y x) = y := by
  have := Complex.norm_mul_sin_arg ⟨x, y⟩
  rwa [norm_mk] at this

theorem atan2_polar {r t : ℝ} (hr : 0 < r) (ht : t ∈ Set.Ioc (-π) π) : atan2 (r * sin t) (r * cos t) = t := by
  have := Complex.arg_mul_cos_add_sin_mul_I hr ht
  refine Eq.trans ?_ this
  unfold atan2
  congr 1
  apply Complex.ext
  · simp [← Complex.ofReal_cos, ← Complex.ofReal_sin]
  · simp [← Complex.ofReal_cos, ← Complex.ofReal_sin]

theorem atan2_mem (y x : ℝ) : atan2 y x ∈ Set.Ioc (-π) π := Complex.arg_mem_Ioc _

theorem atan2_zero : atan2 0 0 = 0 := Complex.arg_zero

theorem abs_atan2_le {y x : ℝ} (hx : 0 ≤ x) : |atan2 y x| ≤ π / 2 :=
  Complex.abs_arg_le_pi_div_two_iff.2 hx

theorem atan2_nonneg {y x : ℝ} (hy : 0 ≤ y) : 0 ≤ atan2 y x := Complex.arg_nonneg_iff.2 hy

theorem atan2_scale {k : ℝ} (hk : 0 < k) (y x : ℝ) : atan2 (k * y) (k * x) = atan2 y x := by
  unfold atan2
  have : (⟨k * x, k * y⟩ : ℂ) = (k : ℂ) * ⟨x, y⟩ := by
    apply Complex.ext <;> simp
  rw [this, Complex.arg_real_mul _ hk]

theorem atan2_zero_pos {x : ℝ} (hx : 0 ≤ x) : atan2 0 x = 0 := by
  have := Complex.arg_ofReal_of_nonneg hx
  exact this

/-- The angle whose sine and cosine are proportional to the arguments. -/
theorem atan2_eq_of {r t x y : ℝ} (hr : 0 < r) (ht : t ∈ Set.Ioc (-π) π) (hy : y = r * sin t) (hx : x = r * cos t) : atan2 y x = t := by
  rw [hy, hx]; exact atan2_polar hr ht

theorem sincos_same {a b : ℝ} (hs : sin a = sin b) (hc : cos a = cos b) : SameAngle a b := by
  have h1 : cos (a - b) = 1 := by
    rw [cos_sub, hs, hc]; have := sin_sq_add_cos_sq b; linear_combination this
  obtain ⟨k, hk⟩ := (Real.cos_eq_one_iff _).1 h1
  exact ⟨k, by linarith⟩

theorem Spec.SameAngle.sin {a b : ℝ} (h : SameAngle a b) : Real.sin a = Real.sin b := by
  obtain ⟨k, rfl⟩ := h
  exact Real.sin_add_int_mul_two_pi b k

theorem Spec.SameAngle.cos {a b : ℝ} (h : SameAngle a b) : Real.cos a = Real.cos b := by
  obtain ⟨k, rfl⟩ := h
  exact Real.cos_add_int_mul_two_pi b k

theorem Spec.SameAngle.refl (a : ℝ) : SameAngle a a := ⟨0, by simp⟩
theorem Spec.SameAngle.symm {a b : ℝ} (h : SameAngle a b) : SameAngle b a := by
  obtain ⟨k, rfl⟩ := h; exact ⟨-k, by push_cast; ring⟩
theorem Spec.SameAngle.trans {a b c : ℝ} (h : SameAngle a b) (h' : SameAngle b c) : SameAngle a c := by
  obtain ⟨k, rfl⟩ := h; obtain ⟨l, rfl⟩ := h'; exact ⟨l + k, by push_cast; ring⟩

theorem Spec.SameAngle.eq_of_Ico {a b c : ℝ} (h : SameAngle a b) (ha : a ∈ Set.Ico c (c + 2 * π)) (hb : b ∈ Set.Ico c (c + 2 * π)) : a = b := by
  obtain ⟨k, rfl⟩ := h
  have hp := Real.two_pi_pos
  have h1 : (k : ℝ) * (2 * π) < 1 * (2 * π) := by linarith [ha.2, hb.1]
  have h2 : (-1 : ℝ) * (2 * π) < k * (2 * π) := by linarith [ha.1, hb.2]
  have h3 : (k : ℝ) < 1 := lt_of_mul_lt_mul_right h1 hp.le
  have h4 : (-1 : ℝ) < k := lt_of_mul_lt_mul_right h2 hp.le
  have : k = 0 := by
    have h3' : k < 1 := by exact_mod_cast h3
    have h4' : -1 < k := by exact_mod_cast h4
    omega
  simp [this]

theorem Spec.SameAngle.eq_of_Ioc {a b c : ℝ} (h : SameAngle a b) (ha : a ∈ Set.Ioc c (c + 2 * π)) (hb : b ∈ Set.Ioc c (c + 2 * π)) : a = b := by
  obtain ⟨k, rfl⟩ := h
  have hp := Real.two_pi_pos
  have h1 : (k : ℝ) * (2 * π) < 1 * (2 * π) := by linarith [ha.2, hb.1]
  have h2 : (-1 : ℝ) * (2 * π) < k * (2 * π) := by linarith [ha.1, hb.2]
  have h3 : (k : ℝ) < 1 := lt_of_mul_lt_mul_right h1 hp.le
  have h4 : (-1 : ℝ) < k := lt_of_mul_lt_mul_right h2 hp.le
  have : k = 0 := by
    have h3' : k < 1 := by exact_mod_cast h3
    have h4' : -1 < k := by exact_mod_cast h4
    omega
  simp [this]

/-! ## fmod -/

theorem truncR_bound (q : ℝ) : |q - truncR q| < 1 ∧ (0 ≤ q → 0 ≤ q - truncR q) ∧ (q ≤ 0 → q - truncR q ≤ 0) := by
  unfold truncR
  split_ifs with h
  · have h1 := Int.floor_le q
    have h2 := Int.lt_floor_add_one q
    refine ⟨?_, fun _ => by linarith, fun hq => ?_⟩
    · rw [abs_of_nonneg (by linarith)]; linarith
    · have : q = 0 := le_antisymm hq h
      rw [this]; simp
  · have h1 := Int.le_ceil q
    have h2 := Int.ceil_lt_add_one q
    refine ⟨?_, fun hq => absurd hq h, fun _ => by linarith⟩
    rw [abs_of_nonpos (by linarith)]; linarith

theorem fmod_spec (a : ℝ) {y : ℝ} (hy : 0 < y) : |fmod a y| < y ∧ (0 ≤ a → 0 ≤ fmod a y) ∧ (a ≤ 0 → fmod a y ≤ 0) ∧
    fmod a y = a + (-(truncR (a / y)) : ℤ) * y := by
  obtain ⟨h1, h2, h3⟩ := truncR_bound (a / y)
  have e : fmod a y = y * (a / y - truncR (a / y)) := by unfold fmod; field_simp
  refine ⟨?_, fun h => ?_, fun h => ?_, ?_⟩
  · rw [e, abs_mul, abs_of_pos hy]; nlinarith
  · rw [e]; exact mul_nonneg hy.le (h2 (div_nonneg h hy.le))
  · rw [e]; exact mul_nonpos_of_nonneg_of_nonpos hy.le (h3 (div_nonpos_of_nonpos_of_nonneg h hy.le))
  · unfold fmod; push_cast; ring

theorem fmod_small {a y : ℝ} (hy : 0 < y) (h : |a| < y) : fmod a y = a := by
  have hq : |a / y| < 1 := by rw [abs_div, abs_of_pos hy, div_lt_one hy]; exact h
  have : truncR (a / y) = 0 := by
    unfold truncR
    rw [abs_lt] at hq
    split_ifs with h0
    · rw [Int.floor_eq_zero_iff]; exact ⟨h0, hq.2⟩
    · push Not at h0
      rw [Int.ceil_eq_zero_iff]; exact ⟨hq.1, h0.le⟩
  unfold fmod
  rw [this]; simp

theorem eraAnp_spec (a : ℝ) : eraAnp a ∈ Set.Ico 0 (2 * π) ∧ SameAngle (eraAnp a) a := by
  have hp := Real.two_pi_pos
  obtain ⟨h1, h2, h3, h4⟩ := fmod_spec a hp
  rw [abs_lt] at h1
  unfold eraAnp
  dsimp only
  split_ifs with h
  · refine ⟨⟨by linarith, by linarith⟩, ⟨-truncR (a / (2 * π)) + 1, ?_⟩⟩
    rw [h4]; push_cast; ring
  · push Not at h
    exact ⟨⟨h, h1.2⟩, ⟨_, h4⟩⟩

theorem eraAnp_eq {a : ℝ} (h : a ∈ Set.Ico 0 (2 * π)) : eraAnp a = a := by
  obtain ⟨h1, h2⟩ := eraAnp_spec a
  refine h2.eq_of_Ico (c := 0) ?_ ?_ <;> simpa

theorem sin_eraAnp (a : ℝ) : sin (eraAnp a) = sin a := (eraAnp_spec a).2.sin
theorem cos_eraAnp (a : ℝ) : cos (eraAnp a) = cos a := (eraAnp_spec a).2.cos

theorem eraAnpm_spec (a : ℝ) : |eraAnpm a| ≤ π ∧ SameAngle (eraAnpm a) a := by
  have hp := Real.two_pi_pos
  obtain ⟨h1, h2, h3, h4⟩ := fmod_spec a hp
  rw [abs_lt] at h1
  unfold eraAnpm
  dsimp only
  split_ifs with h h0
  · have hw := h3 h0.le
    rw [abs_of_nonpos hw] at h
    refine ⟨?_, ⟨-truncR (a / (2 * π)) + 1, ?_⟩⟩
    · rw [abs_le]; constructor <;> linarith
    · rw [h4]; push_cast; ring
  · push Not at h0
    have hw := h2 h0
    rw [abs_of_nonneg hw] at h
    refine ⟨?_, ⟨-truncR (a / (2 * π)) - 1, ?_⟩⟩
    · rw [abs_le]; constructor <;> linarith
    · rw [h4]; push_cast; ring
  · push Not at h
    exact ⟨h.le, ⟨_, h4⟩⟩

theorem eraAnpm_eq {a : ℝ} (h : |a| < π) : eraAnpm a = a := by
  unfold eraAnpm
  have hf : fmod a (2 * π) = a := fmod_small Real.two_pi_pos (by linarith [Real.pi_pos])
  dsimp only
  rw [hf, if_neg (by push Not; exact h)]

/-! ## Spherical coordinates -/

theorem hyp_nonneg (x y : ℝ) : 0 ≤ √(x * x + y * y) := Real.sqrt_nonneg _

theorem hyp_sq (x y : ℝ) : √(x * x + y * y) * √(x * x + y * y) = x * x + y * y :=
  Real.mul_self_sqrt (add_nonneg (mul_self_nonneg _) (mul_self_nonneg _))

theorem hyp_eq_zero {x y : ℝ} : √(x * x + y * y) = 0 ↔ x = 0 ∧ y = 0 := by
  rw [Real.sqrt_eq_zero (add_nonneg (mul_self_nonneg _) (mul_self_nonneg _))]
  constructor
  · intro h
    have hx := mul_self_nonneg x
    have hy := mul_self_nonneg y
    constructor <;> apply mul_self_eq_zero.1 <;> linarith
  · rintro ⟨rfl, rfl⟩; simp

/-- Cartesian to spherical: the length times the unit vector of the recovered direction is the vector; for a vector on the axis any longitude does. -/
theorem sph_of_cart (x y z lon : ℝ) (h : (x ≠ 0 ∨ y ≠ 0) → lon = atan2 y x ∨ SameAngle lon (atan2 y x)) :
    (fun i => √(x * x + y * y + z * z) * dir lon (atan2 z (√(x * x + y * y))) i) = ![x, y, z] := by
  have hr := hyp_sq x y
  have h1 := hyp_cos_atan2 z (√(x * x + y * y))
  have h2 := hyp_sin_atan2 z (√(x * x + y * y))
  rw [hr] at h1 h2
  set ρ := √(x * x + y * y + z * z)
  set e := atan2 z (√(x * x + y * y))
  have hx := hyp_cos_atan2 y x
  have hy := hyp_sin_atan2 y x
  have hcx : √(x * x + y * y) * cos lon = x := by
    by_cases h0 : x = 0 ∧ y = 0
    · rw [hyp_eq_zero.2 h0, h0.1]; simp
    · rcases h (by tauto) with h | h
      · rw [h]; exact hx
      · rw [h.cos]; exact hx
  have hsy : √(x * x + y * y) * sin lon = y := by
    by_cases h0 : x = 0 ∧ y = 0
    · rw [hyp_eq_zero.2 h0, h0.2]; simp
    · rcases h (by tauto) with h | h
      · rw [h]; exact hy
      · rw [h.sin]; exact hy
  funext i
  fin_cases i
  · simp [dir]; rw [← mul_assoc, h1, hcx]
  · simp [dir]; rw [← mul_assoc, h1, hsy]
  · simp [dir]; exact h2

theorem dir_unit (lon lat : ℝ) : dir lon lat 0 * dir lon lat 0 + dir lon lat 1 * dir lon lat 1 + dir lon lat 2 * dir lon lat 2 = 1 := by
  simp only [dir, Matrix.cons_val_zero, Matrix.cons_val_one, Matrix.cons_val]
  have h1 := sin_sq_add_cos_sq lon
  have h2 := sin_sq_add_cos_sq lat
  linear_combination (cos lat) ^ 2 * h1 + h2

/-- Equal unit vectors with latitudes in range have equal latitudes, and, away from the poles, longitudes equal up to whole turns. -/
theorem dir_inj {a b a' b' : ℝ} (h : dir a b = dir a' b') (hb : |b| ≤ π / 2) (hb' : |b'| ≤ π / 2) :
    b = b' ∧ (cos b ≠ 0 → SameAngle a a') := by
  have h0 := congrFun h 0
  have h1 := congrFun h 1
  have h2 := congrFun h 2
  simp [dir] at h0 h1 h2
  rw [abs_le] at hb hb'
  have hbb : b = b' := Real.injOn_sin ⟨by linarith, hb.2⟩ ⟨by linarith, hb'.2⟩ h2
  subst hbb
  refine ⟨rfl, fun hc => ?_⟩
  exact sincos_same (mul_left_cancel₀ hc h1) (mul_left_cancel₀ hc h0)

theorem eraS2c_eq (a b : ℝ) : eraS2c a b = dir a b := by
  unfold eraS2c dir
  funext i; fin_cases i <;> simp [mul_comm]

theorem eraC2s_spec (p : Vec3) : (fun i => eraPm p * dir (eraC2s p).1 (eraC2s p).2 i) = p := by
  have hlat : (eraC2s p).2 = atan2 (p 2) (√(p 0 * p 0 + p 1 * p 1)) := by
    unfold eraC2s
    dsimp only
    split_ifs with h2
    · rw [h2, atan2_zero_pos (Real.sqrt_nonneg _)]
    · rfl
  rw [hlat]
  unfold eraPm
  rw [sph_of_cart (p 0) (p 1) (p 2)]
  · funext i; fin_cases i <;> rfl
  · intro h
    left
    unfold eraC2s
    dsimp only
    rw [if_neg]
    intro h0
    have := hyp_eq_zero.1 (by rw [h0]; simp : √(p 0 * p 0 + p 1 * p 1) = 0)
    tauto

theorem eraC2s_range (p : Vec3) : (eraC2s p).1 ∈ Set.Ioc (-π) π ∧ |(eraC2s p).2| ≤ π / 2 := by
  have hp := Real.pi_pos
  constructor
  · unfold eraC2s; dsimp only
    split_ifs
    · exact ⟨by linarith, hp.le⟩
    · exact atan2_mem _ _
  · unfold eraC2s; dsimp only
    split_ifs
    · simp; positivity
    · exact abs_atan2_le (Real.sqrt_nonneg _)

/-- For a unit vector `palDcc2s` recovers a direction whose unit vector is the vector. -/
theorem eraC2s_unit (p : Vec3) (h : p 0 * p 0 + p 1 * p 1 + p 2 * p 2 = 1) : dir (eraC2s p).1 (eraC2s p).2 = p := by
  have := eraC2s_spec p
  unfold eraPm at this
  rw [h, Real.sqrt_one] at this
  simpa using this

end Pal

namespace Pal
open Real Pal.Spec

theorem atan2_trig {k : ℝ} (hk : 0 < k) (q : ℝ) : cos (atan2 (k * sin q) (k * cos q)) = cos q ∧ sin (atan2 (k * sin q) (k * cos q)) = sin q := by
  have h1 := hyp_cos_atan2 (k * sin q) (k * cos q)
  have h2 := hyp_sin_atan2 (k * sin q) (k * cos q)
  have hs : √(k * cos q * (k * cos q) + k * sin q * (k * sin q)) = k := by
    rw [show k * cos q * (k * cos q) + k * sin q * (k * sin q) = k * k by linear_combination (k * k) * sin_sq_add_cos_sq q]
    exact Real.sqrt_mul_self hk.le
  rw [hs] at h1 h2
  exact ⟨mul_left_cancel₀ hk.ne' h1, mul_left_cancel₀ hk.ne' h2⟩

end Pal
