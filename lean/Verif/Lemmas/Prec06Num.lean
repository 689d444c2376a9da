import Verif.Lemmas.Prec06
import Verif.Lemmas.Taylor
import Verif.Lemmas.Nutc

/-! # Numerical evaluation of the IAU 2006 matrices at 1900, 2000 and 2100 (generated constants, checked by the kernel through `norm_num`) -/

namespace Pal
open Real Spec Matrix Props

/-- Rational approximations of the sine and cosine of an angle, from one of a nearby rational angle. -/
theorem trig_near {a a0 s c : ℝ} (h0 : 0 ≤ a0) (hd : |a - a0| ≤ 2e-12)
    (h1 : s - 9.8e-11 ≤ a0 - a0 ^ 3 / 6 + a0 ^ 5 / 120 - a0 ^ 7 / 5040 + a0 ^ 9 / 362880 - a0 ^ 11 / 39916800)
    (h2 : a0 - a0 ^ 3 / 6 + a0 ^ 5 / 120 - a0 ^ 7 / 5040 + a0 ^ 9 / 362880 ≤ s + 9.8e-11)
    (h3 : c - 9.8e-11 ≤ 1 - a0 ^ 2 / 2 + a0 ^ 4 / 24 - a0 ^ 6 / 720 + a0 ^ 8 / 40320 - a0 ^ 10 / 3628800)
    (h4 : 1 - a0 ^ 2 / 2 + a0 ^ 4 / 24 - a0 ^ 6 / 720 + a0 ^ 8 / 40320 ≤ c + 9.8e-11) : |sin a - s| ≤ 1e-10 ∧ |cos a - c| ≤ 1e-10 := by
  have e1 := abs_le.1 ((abs_sin_sub_le a a0).trans hd)
  have e2 := abs_le.1 ((abs_cos_sub_le a a0).trans hd)
  have := sin_t9 a0 h0
  have := sin_t11 a0 h0
  have := cos_t8 a0 h0
  have := cos_t10 a0 h0
  constructor <;> rw [abs_le] <;> constructor <;> linarith [e1.1, e1.2, e2.1, e2.2]

theorem das2r_near (v a0 : ℝ) (hv : 0 ≤ v) (h1 : a0 - 2e-12 ≤ v * 3.14159265358979323846 / 648000) (h2 : v * 3.14159265358979323847 / 648000 ≤ a0 + 2e-12) : |v * das2r - a0| ≤ 2e-12 := by
  have p1 := Real.pi_gt_d20
  have p2 := Real.pi_lt_d20
  unfold das2r
  have e : v * (π / 648000) = v * π / 648000 := by ring
  rw [e, abs_le]
  have q1 : v * 3.14159265358979323846 ≤ v * π := mul_le_mul_of_nonneg_left p1.le hv
  have q2 : v * π ≤ v * 3.14159265358979323847 := mul_le_mul_of_nonneg_left p2.le hv
  constructor <;> linarith

/-- Matrices of the shape of rotations about the x and z axes, with any two numbers in place of cosine and sine. -/
def rxq (c s : ℝ) : Mat3 := !![1, 0, 0; 0, c, s; 0, -s, c]
def rzq (c s : ℝ) : Mat3 := !![c, s, 0; -s, c, 0; 0, 0, 1]

theorem small_rxq {a c s u : ℝ} (hs : |sin a - s| ≤ u) (hc : |cos a - c| ≤ u) : Small (axisX a - rxq c s) (2 * u) := by
  intro x
  have hl := len_sq x
  rw [dot_eq] at hl
  have hu : 0 ≤ u := (abs_nonneg _).trans hs
  refine (Real.sqrt_le_iff.2 ⟨mul_nonneg (by linarith) (len_nonneg x), ?_⟩)
  rw [mul_pow, pow_two (len x), hl]
  have e : (∑ i, ((axisX a - rxq c s) *ᵥ x) i ^ 2) = ((sin a - s) ^ 2 + (cos a - c) ^ 2) * (x 1 ^ 2 + x 2 ^ 2) := by
    simp [Fin.sum_univ_three, axisX, rxq, Matrix.mulVec, dotProduct]
    ring
  rw [e]
  have q1 : (sin a - s) ^ 2 ≤ u ^ 2 := sq_le_sq' (abs_le.1 hs).1 (abs_le.1 hs).2
  have q2 : (cos a - c) ^ 2 ≤ u ^ 2 := sq_le_sq' (abs_le.1 hc).1 (abs_le.1 hc).2
  calc _ ≤ (u ^ 2 + u ^ 2) * (x 1 ^ 2 + x 2 ^ 2) := mul_le_mul_of_nonneg_right (add_le_add q1 q2) (by positivity)
    _ ≤ _ := by nlinarith [mul_nonneg (sq_nonneg u) (sq_nonneg (x 0)), mul_nonneg (sq_nonneg u) (sq_nonneg (x 1)), mul_nonneg (sq_nonneg u) (sq_nonneg (x 2))]

theorem small_rzq {a c s u : ℝ} (hs : |sin a - s| ≤ u) (hc : |cos a - c| ≤ u) : Small (axisZ a - rzq c s) (2 * u) := by
  intro x
  have hl := len_sq x
  rw [dot_eq] at hl
  have hu : 0 ≤ u := (abs_nonneg _).trans hs
  refine (Real.sqrt_le_iff.2 ⟨mul_nonneg (by linarith) (len_nonneg x), ?_⟩)
  rw [mul_pow, pow_two (len x), hl]
  have e : (∑ i, ((axisZ a - rzq c s) *ᵥ x) i ^ 2) = ((sin a - s) ^ 2 + (cos a - c) ^ 2) * (x 0 ^ 2 + x 1 ^ 2) := by
    simp [Fin.sum_univ_three, axisZ, rzq, Matrix.mulVec, dotProduct]
    ring
  rw [e]
  have q1 : (sin a - s) ^ 2 ≤ u ^ 2 := sq_le_sq' (abs_le.1 hs).1 (abs_le.1 hs).2
  have q2 : (cos a - c) ^ 2 ≤ u ^ 2 := sq_le_sq' (abs_le.1 hc).1 (abs_le.1 hc).2
  calc _ ≤ (u ^ 2 + u ^ 2) * (x 0 ^ 2 + x 1 ^ 2) := mul_le_mul_of_nonneg_right (add_le_add q1 q2) (by positivity)
    _ ≤ _ := by nlinarith [mul_nonneg (sq_nonneg u) (sq_nonneg (x 0)), mul_nonneg (sq_nonneg u) (sq_nonneg (x 1)), mul_nonneg (sq_nonneg u) (sq_nonneg (x 2))]

/-- Replacing a rotation and a near-rotation by approximations of known size, in a product. -/
theorem Small.prod {A A' B B' : Mat3} {e f : ℝ} (hA : IsRotation A) (hB : IsRotation B) (h : Small (A - A') e) (h' : Small (B - B') f) : Small (A * B - A' * B') (e + (1 + e) * f) := by
  have : A * B - A' * B' = (A - A') * B + (A - (A - A')) * (B - B') := by noncomm_ring
  rw [this]
  exact (h.rmul hB).add (((rot_small hA).sub h).mul h')

theorem Small.transp {A A' : Mat3} {e : ℝ} (h : Small (A - A') e) : Small (A.transpose - A'.transpose) e := by
  intro x
  rw [← Matrix.transpose_sub]
  generalize A - A' = M at *
  by_cases h0 : len (M.transpose *ᵥ x) = 0
  · rw [h0]; exact mul_nonneg h.nonneg (len_nonneg x)
  · have hp : 0 < len (M.transpose *ᵥ x) := lt_of_le_of_ne (len_nonneg _) (Ne.symm h0)
    have e1 : len (M.transpose *ᵥ x) * len (M.transpose *ᵥ x) = dot x (M *ᵥ (M.transpose *ᵥ x)) := by
      rw [len_sq, dot_dotProduct, dot_dotProduct, Matrix.dotProduct_mulVec x M (M.transpose *ᵥ x), Matrix.mulVec_transpose]
    have e2 := (le_abs_self _).trans (dot_le_len x (M *ᵥ (M.transpose *ᵥ x)))
    have e3 := h (M.transpose *ᵥ x)
    have e4 : len x * len (M *ᵥ (M.transpose *ᵥ x)) ≤ len x * (e * len (M.transpose *ᵥ x)) := mul_le_mul_of_nonneg_left e3 (len_nonneg x)
    rw [← e1] at e2
    have e5 : len (M.transpose *ᵥ x) * len (M.transpose *ᵥ x) ≤ (e * len x) * len (M.transpose *ᵥ x) := by linarith
    exact le_of_mul_le_mul_right e5 hp

theorem Small.entry {M : Mat3} {e : ℝ} (h : Small M e) (i j : Fin 3) : |M i j| ≤ e := by
  have h1 := h (Pi.single j 1)
  have h2 : len (Pi.single j (1 : ℝ) : Vec3) = 1 := len_one (by rw [dot_eq]; fin_cases j <;> simp)
  rw [h2, mul_one] at h1
  have h3 := comp_le_len (M *ᵥ Pi.single j 1) i
  rw [Matrix.mulVec_single_one] at h3 h1
  exact h3.trans h1

theorem fw_approx (g f p e cg sg cf sf cp sp ce se : ℝ) (hg : |sin g - sg| ≤ 1e-10 ∧ |cos g - cg| ≤ 1e-10) (hf : |sin f - sf| ≤ 1e-10 ∧ |cos f - cf| ≤ 1e-10)
    (hp : |sin p - sp| ≤ 1e-10 ∧ |cos p - cp| ≤ 1e-10) (he : |sin e - se| ≤ 1e-10 ∧ |cos e - ce| ≤ 1e-10) :
    Small (eraFw2m g f p e - rxq ce (-se) * rzq cp (-sp) * rxq cf sf * rzq cg sg) 8.1e-10 := by
  have n : ∀ a s, |sin a - s| ≤ 1e-10 → |sin (-a) - (-s)| ≤ 1e-10 := fun a s h => by
    rw [sin_neg, show -sin a - -s = -(sin a - s) by ring, abs_neg]; exact h
  have nc : ∀ a c, |cos a - c| ≤ 1e-10 → |cos (-a) - c| ≤ 1e-10 := fun a c h => by rwa [cos_neg]
  rw [fw2m_eq]
  have s1 := Small.prod (rot_axisX (-e)) (rot_axisZ (-p)) (small_rxq (n _ _ he.1) (nc _ _ he.2)) (small_rzq (n _ _ hp.1) (nc _ _ hp.2))
  have s2 := Small.prod (rot_mul (rot_axisX (-e)) (rot_axisZ (-p))) (rot_axisX f) s1 (small_rxq hf.1 hf.2)
  have s3 := Small.prod (rot_mul (rot_mul (rot_axisX (-e)) (rot_axisZ (-p))) (rot_axisX f)) (rot_axisZ g) s2 (small_rzq hg.1 hg.2)
  exact s3.mono (by norm_num)

theorem trig_neg {a s c : ℝ} (h : |sin a - s| ≤ 1e-10 ∧ |cos a - c| ≤ 1e-10) : |sin (-a) - -s| ≤ 1e-10 ∧ |cos (-a) - c| ≤ 1e-10 := by
  constructor
  · rw [sin_neg, show -sin a - -s = -(sin a - s) by ring, abs_neg]; exact h.1
  · rw [cos_neg]; exact h.2

theorem ang_mg : |sin (10.1157920340 * das2r) - 0.000049042744| ≤ 1e-10 ∧ |cos (10.1157920340 * das2r) - 0.999999998797| ≤ 1e-10 :=
  trig_near (a0 := 0.000049042744) (by norm_num) (das2r_near _ _ (by norm_num) (by norm_num) (by norm_num)) (by norm_num) (by norm_num) (by norm_num) (by norm_num)

theorem ang_mf : |sin (84428.2744284876 * das2r) - 0.397985433312| ≤ 1e-10 ∧ |cos (84428.2744284876 * das2r) - 0.917391734687| ≤ 1e-10 :=
  trig_near (a0 := 0.409319825154) (by norm_num) (das2r_near _ _ (by norm_num) (by norm_num) (by norm_num)) (by norm_num) (by norm_num) (by norm_num) (by norm_num)

theorem ang_mp : |sin (5036.9646827172 * das2r) - 0.024417466909| ≤ 1e-10 ∧ |cos (5036.9646827172 * das2r) - 0.999701849208| ≤ 1e-10 :=
  trig_near (a0 := 0.024419893894) (by norm_num) (das2r_near _ _ (by norm_num) (by norm_num) (by norm_num)) (by norm_num) (by norm_num) (by norm_num) (by norm_num)

theorem ang_me : |sin (84428.2405819674 * das2r) - 0.397985282775| ≤ 1e-10 ∧ |cos (84428.2405819674 * das2r) - 0.917391799993| ≤ 1e-10 :=
  trig_near (a0 := 0.409319661061) (by norm_num) (das2r_near _ _ (by norm_num) (by norm_num) (by norm_num)) (by norm_num) (by norm_num) (by norm_num) (by norm_num)

theorem ang_pg : |sin (10.9963392580 * das2r) - 0.000053311757| ≤ 1e-10 ∧ |cos (10.9963392580 * das2r) - 0.999999998579| ≤ 1e-10 :=
  trig_near (a0 := 0.000053311757) (by norm_num) (das2r_near _ _ (by norm_num) (by norm_num) (by norm_num)) (by norm_num) (by norm_num) (by norm_num) (by norm_num)

theorem ang_pf : |sin (84334.6534622324 * das2r) - 0.397568999917| ≤ 1e-10 ∧ |cos (84334.6534622324 * das2r) - 0.917572280698| ≤ 1e-10 :=
  trig_near (a0 := 0.408865937901) (by norm_num) (das2r_near _ _ (by norm_num) (by norm_num) (by norm_num)) (by norm_num) (by norm_num) (by norm_num) (by norm_num)

theorem ang_pp : |sin (5039.9979148132 * das2r) - 0.024432168046| ≤ 1e-10 ∧ |cos (5039.9979148132 * das2r) - 0.999701490028| ≤ 1e-10 :=
  trig_near (a0 := 0.024434599419) (by norm_num) (das2r_near _ _ (by norm_num) (by norm_num) (by norm_num)) (by norm_num) (by norm_num) (by norm_num) (by norm_num)

theorem ang_pe : |sin (84334.5710506806 * das2r) - 0.397568633308| ≤ 1e-10 ∧ |cos (84334.5710506806 * das2r) - 0.917572439543| ≤ 1e-10 :=
  trig_near (a0 := 0.408865538359) (by norm_num) (das2r_near _ _ (by norm_num) (by norm_num) (by norm_num)) (by norm_num) (by norm_num) (by norm_num) (by norm_num)

theorem ang_zg : |sin (0.0529280000 * das2r) - 2.56602E-7| ≤ 1e-10 ∧ |cos (0.0529280000 * das2r) - 1.000000000000| ≤ 1e-10 :=
  trig_near (a0 := 2.56602E-7) (by norm_num) (das2r_near _ _ (by norm_num) (by norm_num) (by norm_num)) (by norm_num) (by norm_num) (by norm_num) (by norm_num)

theorem ang_zf : |sin (84381.4128190000 * das2r) - 0.397776999444| ≤ 1e-10 ∧ |cos (84381.4128190000 * das2r) - 0.917482129915| ≤ 1e-10 :=
  trig_near (a0 := 0.409092633660) (by norm_num) (das2r_near _ _ (by norm_num) (by norm_num) (by norm_num)) (by norm_num) (by norm_num) (by norm_num) (by norm_num)

theorem ang_zp : |sin (0.0417750000 * das2r) - 2.02531E-7| ≤ 1e-10 ∧ |cos (0.0417750000 * das2r) - 1.000000000000| ≤ 1e-10 :=
  trig_near (a0 := 2.02531E-7) (by norm_num) (das2r_near _ _ (by norm_num) (by norm_num) (by norm_num)) (by norm_num) (by norm_num) (by norm_num) (by norm_num)

theorem ang_ze : |sin (84381.4060000000 * das2r) - 0.397776969113| ≤ 1e-10 ∧ |cos (84381.4060000000 * das2r) - 0.917482143065| ≤ 1e-10 :=
  trig_near (a0 := 0.409092600601) (by norm_num) (das2r_near _ _ (by norm_num) (by norm_num) (by norm_num)) (by norm_num) (by norm_num) (by norm_num) (by norm_num)

theorem fw_m : Small (eraFw2m (-(10.1157920340 * das2r)) (84428.2744284876 * das2r) (-(5036.9646827172 * das2r)) (84428.2405819674 * das2r) - rxq 0.917391799993 (-0.397985282775) * rzq 0.999701849208 (-(-0.024417466909)) * rxq 0.917391734687 0.397985433312 * rzq 0.999999998797 (-0.000049042744)) 8.1e-10 :=
  fw_approx _ _ _ _ 0.999999998797 (-0.000049042744) 0.917391734687 0.397985433312 0.999701849208 (-0.024417466909) 0.917391799993 0.397985282775 (trig_neg ang_mg) ang_mf (trig_neg ang_mp) ang_me

theorem fw_p : Small (eraFw2m (10.9963392580 * das2r) (84334.6534622324 * das2r) (5039.9979148132 * das2r) (84334.5710506806 * das2r) - rxq 0.917572439543 (-0.397568633308) * rzq 0.999701490028 (-0.024432168046) * rxq 0.917572280698 0.397568999917 * rzq 0.999999998579 0.000053311757) 8.1e-10 :=
  fw_approx _ _ _ _ 0.999999998579 0.000053311757 0.917572280698 0.397568999917 0.999701490028 0.024432168046 0.917572439543 0.397568633308 ang_pg ang_pf ang_pp ang_pe

theorem fw_z : Small (eraFw2m (-(0.0529280000 * das2r)) (84381.4128190000 * das2r) (-(0.0417750000 * das2r)) (84381.4060000000 * das2r) - rxq 0.917482143065 (-0.397776969113) * rzq 1.000000000000 (-(-2.02531E-7)) * rxq 0.917482129915 0.397776999444 * rzq 1.000000000000 (-2.56602E-7)) 8.1e-10 :=
  fw_approx _ _ _ _ 1.000000000000 (-2.56602E-7) 0.917482129915 0.397776999444 1.000000000000 (-2.02531E-7) 0.917482143065 0.397776969113 (trig_neg ang_zg) ang_zf (trig_neg ang_zp) ang_ze

end Pal
