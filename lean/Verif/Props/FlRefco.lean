import Verif.Model.FlRefco
import Verif.Lemmas.FlMap
import Verif.Lemmas.FlSmall
import Verif.Props.FlSphere
import Verif.Props.Refr2

/-!
# The two-term refraction model in double precision: property C152
-/

namespace Pal.Props
open Real Pal
variable {fl : ℝ → ℝ}

/-- C152 (sample points) The zenith distances at which palRefco calls palRefro are, as doubles, those whose tangents are 1 and 4, to 1.2e-15 radians. -/
theorem C152_points (R : Rounding fl) : |fl 0.7853981633974483 - arctan 1| ≤ 1.2e-15 ∧ |fl 1.325817663668033 - arctan 4| ≤ 1.2e-15 := by
  obtain ⟨a, b⟩ := C50_sample_points
  have c := R.cst 0.7853981633974483 (M := 0.8) (by norm_num) (by norm_num) (by norm_num)
  have d := R.cst 1.325817663668033 (M := 1.4) (by norm_num) (by norm_num) (by norm_num)
  have := abs_sub_le (fl 0.7853981633974483) 0.7853981633974483 (arctan 1)
  have := abs_sub_le (fl 1.325817663668033) 1.325817663668033 (arctan 4)
  constructor <;> norm_num at * <;> linarith

/-- C152 (fit) Whatever palRefro returns at the two sample zenith distances (in absolute value at most M ≤ 0.1 radians), the constants A and B that palRefco returns in double precision reproduce it: A·1 + B·1³ is the first value to 4e-16 M and A·4 + B·4³ the second to 3.2e-15 M. -/
theorem C152_fit (R : Rounding fl) (refro : ℝ → ℝ) (M : ℝ) (hM : M ≤ 0.1) (hM0 : 1e-20 ≤ M) (h1 : |refro (fl 0.7853981633974483)| ≤ M) (h2 : |refro (fl 1.325817663668033)| ≤ M) :
    let o := flRefco fl refro
    |o.1 * 1 + o.2 * 1 ^ 3 - refro (fl 0.7853981633974483)| ≤ 4e-16 * M ∧ |o.1 * 4 + o.2 * 4 ^ 3 - refro (fl 1.325817663668033)| ≤ 3.2e-15 * M := by
  intro o
  have z0 : 0 ≤ M := by linarith
  obtain ⟨a, ha⟩ : ∃ a, a = refro (fl 0.7853981633974483) := ⟨_, rfl⟩
  obtain ⟨b, hb⟩ : ∃ a, a = refro (fl 1.325817663668033) := ⟨_, rfl⟩
  have o1 : o.1 = fl (fl (fl (64 * a) - b) / 60) := by rw [ha, hb]; rfl
  have o2 : o.2 = fl (fl (b - fl (4 * a)) / 60) := by rw [ha, hb]; rfl
  rw [o1, o2, ← ha, ← hb]
  rw [← ha] at h1
  rw [← hb] at h2
  have z : (1e-190 : ℝ) ≤ 1e-30 * M := by
    have : (1e-190 : ℝ) ≤ 1e-30 * 1e-20 := by norm_num
    exact this.trans (mul_le_mul_of_nonneg_left hM0 (by norm_num))
  have step : ∀ {x X δ B ε : ℝ}, |x - X| ≤ δ * M → |X| ≤ B * M → B ≤ 100 → δ ≤ 1 → δ + 1.1103e-16 * (B + δ) + 1e-30 ≤ ε → |fl x - X| ≤ ε * M := by
    intro x X δ B ε p q r s u
    have k1 := mul_le_mul_of_nonneg_right r z0
    have k2 := mul_le_mul_of_nonneg_right s z0
    have k3 := mul_le_mul_of_nonneg_right u z0
    refine R.add_err2 _ p q ?_ ?_
    · refine le_trans ?_ (by norm_num : (100 : ℝ) ≤ 10 ^ 29)
      linarith
    · generalize (1e-190 : ℝ) = t at z
      linarith
  have m1 : |fl (64 * a) - 64 * a| ≤ 7.2e-15 * M := step (δ := 0) (B := 64) (by rw [zero_mul]; exact noerr _) (by rw [abs_mul, abs_of_pos (by norm_num : (0 : ℝ) < 64)]; linarith) (by norm_num) (by norm_num) (by norm_num)
  have m2 : |fl (4 * a) - 4 * a| ≤ 4.5e-16 * M := step (δ := 0) (B := 4) (by rw [zero_mul]; exact noerr _) (by rw [abs_mul, abs_of_pos (by norm_num : (0 : ℝ) < 4)]; linarith) (by norm_num) (by norm_num) (by norm_num)
  have k1 := abs_le.1 m1
  have k2 := abs_le.1 m2
  have i1 := abs_le.1 h1
  have i2 := abs_le.1 h2
  have n1 : |fl (fl (64 * a) - b) - (64 * a - b)| ≤ 1.45e-14 * M := step (δ := 7.2e-15) (B := 65) (by rw [sub_sub_sub_cancel_right]; exact m1) (by rw [abs_le]; constructor <;> linarith) (by norm_num) (by norm_num) (by norm_num)
  have n2 : |fl (b - fl (4 * a)) - (b - 4 * a)| ≤ 1.01e-15 * M := step (δ := 4.5e-16) (B := 5) (by rw [sub_sub_sub_cancel_left, abs_sub_comm]; exact m2) (by rw [abs_le]; constructor <;> linarith) (by norm_num) (by norm_num) (by norm_num)
  have j1 := abs_le.1 n1
  have j2 := abs_le.1 n2
  have p1 : |fl (fl (fl (64 * a) - b) / 60) - (64 * a - b) / 60| ≤ 3.63e-16 * M := step (δ := 2.42e-16) (B := 1.0834) (by rw [abs_le]; constructor <;> linarith) (by rw [abs_le]; constructor <;> linarith) (by norm_num) (by norm_num) (by norm_num)
  have p2 : |fl (fl (b - fl (4 * a)) / 60) - (b - 4 * a) / 60| ≤ 2.63e-17 * M := step (δ := 1.69e-17) (B := 0.08334) (by rw [abs_le]; constructor <;> linarith) (by rw [abs_le]; constructor <;> linarith) (by norm_num) (by norm_num) (by norm_num)
  have q1 := abs_le.1 p1
  have q2 := abs_le.1 p2
  constructor <;> rw [abs_le] <;> constructor <;> linarith

/-- With IEEE doubles and the refraction 60″ tan z: A comes out near 60″, and the two-term model reproduces the sample at tangent 4. -/
example : |(flRefco ieee fun z => 2.9e-4 * sin z / cos z).1 * 4 + (flRefco ieee fun z => 2.9e-4 * sin z / cos z).2 * 4 ^ 3 - 2.9e-4 * sin (ieee 1.325817663668033) / cos (ieee 1.325817663668033)| ≤ 3.2e-15 * 2.9e-3 := by
  have key : ∀ x : ℝ, 0.1 ≤ cos x → |2.9e-4 * sin x / cos x| ≤ 2.9e-3 := by
    intro x hx
    have c0 : 0 < cos x := by linarith
    rw [abs_div, abs_of_pos c0, div_le_iff₀ c0, abs_mul, abs_of_pos (by norm_num : (0 : ℝ) < 2.9e-4)]
    have := abs_sin_le_one x
    linarith
  have low : ∀ x : ℝ, 0 ≤ x → x ≤ 1.4 → 0.1 ≤ cos x := by
    intro x h0 h1
    have p := pi_gt_d4
    have := Real.cos_le_cos_of_nonneg_of_le_pi h0 (by linarith) h1
    have q : cos 1.4 = sin (π / 2 - 1.4) := by rw [sin_pi_div_two_sub]
    have r := Real.mul_le_sin (x := π / 2 - 1.4) (by norm_num at *; linarith) (by linarith)
    have s : 0.1 ≤ 2 / π * (π / 2 - 1.4) := by
      rw [div_mul_eq_mul_div, le_div_iff₀ pi_pos]; norm_num at *; linarith
    linarith
  have c := ieee_rounding.cst 0.7853981633974483 (M := 0.8) (by norm_num) (by norm_num) (by norm_num)
  have d := ieee_rounding.cst 1.325817663668033 (M := 1.4) (by norm_num) (by norm_num) (by norm_num)
  have c' := abs_le.1 c
  have d' := abs_le.1 d
  exact (C152_fit ieee_rounding (fun z => 2.9e-4 * sin z / cos z) 2.9e-3 (by norm_num) (by norm_num)
    (key _ (low _ (by norm_num at *; linarith) (by norm_num at *; linarith))) (key _ (low _ (by norm_num at *; linarith) (by norm_num at *; linarith)))).2

end Pal.Props
