import Verif.Model.Eqeqx
import Verif.Lemmas.Prec06
import Verif.Lemmas.Prec06Num
import Verif.Props.Rot
import Verif.Lemmas.Nutc

/-!
# The equation of the origins of a Fukushima-Williams matrix, in closed form
-/

namespace Pal
open Real Spec Matrix Props

/-- For any rotation the equation of the origins only needs two sums of elements. -/
theorem eors_rot {r : Mat3} (h : IsRotation r) (hz : 0 < 1 + r 2 2) :
    (r 0 0 * (1 - r 2 0 / (1 + r 2 2) * r 2 0) + r 0 1 * (-(r 2 0 / (1 + r 2 2)) * r 2 1) + r 0 2 * (-r 2 0)) * (1 + r 2 2) = r 0 0 + r 1 1 ∧
    (r 1 0 * (1 - r 2 0 / (1 + r 2 2) * r 2 0) + r 1 1 * (-(r 2 0 / (1 + r 2 2)) * r 2 1) + r 1 2 * (-r 2 0)) * (1 + r 2 2) = r 1 0 - r 0 1 := by
  have ha := rot_adj h
  have A : ∀ i j, r.adjugate i j = r j i := fun i j => by rw [ha]; rfl
  have A11 := A 1 1
  have A10 := A 1 0
  rw [Matrix.adjugate_fin_three] at A11 A10
  simp at A11 A10
  have h02 : (r * r.transpose) 0 2 = 0 := by rw [h.1]; rfl
  have h12 : (r * r.transpose) 1 2 = 0 := by rw [h.1]; rfl
  simp only [Matrix.mul_apply, Fin.sum_univ_three, Matrix.transpose_apply] at h02 h12
  have hne := hz.ne'
  constructor
  · field_simp
    linear_combination A11 - r 2 0 * h02
  · field_simp
    linear_combination -A10 - r 2 0 * h12

/-- The two components whose ratio is the tangent of half the equation of the origins. -/
noncomputable def fwW (p b : ℝ) : ℝ := cos (p / 2) * cos b
noncomputable def fwZ (p a : ℝ) : ℝ := sin (p / 2) * cos a

theorem fw_elements (g f p e : ℝ) :
    let r := eraFw2m g f p e
    let W := fwW p ((e - f) / 2)
    let Z := fwZ p ((e + f) / 2)
    r 0 0 + r 1 1 = 2 * ((W ^ 2 - Z ^ 2) * cos g + 2 * W * Z * sin g) ∧
    r 1 0 - r 0 1 = 2 * (2 * W * Z * cos g - (W ^ 2 - Z ^ 2) * sin g) ∧
    1 + r 2 2 = 2 * (W ^ 2 + Z ^ 2) ∧
    r 2 0 = sin p * sin e * cos g - (sin (e - f) - (1 - cos p) * sin e * cos f) * sin g ∧
    r 2 1 = sin p * sin e * sin g + (sin (e - f) - (1 - cos p) * sin e * cos f) * cos g := by
  obtain ⟨h, hh⟩ : ∃ h, h = p / 2 := ⟨_, rfl⟩
  obtain ⟨a, hva⟩ : ∃ a, a = (e + f) / 2 := ⟨_, rfl⟩
  obtain ⟨b, hb⟩ : ∃ b, b = (e - f) / 2 := ⟨_, rfl⟩
  have ep : p = 2 * h := by linarith
  have ee : e = a + b := by linarith
  have ef : f = a - b := by linarith
  intro r W Z
  have hW : W = cos h * cos b := by show fwW p ((e - f) / 2) = _; unfold fwW; rw [← hh, ← hb]
  have hZ : Z = sin h * cos a := by show fwZ p ((e + f) / 2) = _; unfold fwZ; rw [← hh, ← hva]
  have e00 : r 0 0 = cos p * cos g - sin p * cos f * -sin g := by
    show eraFw2m g f p e 0 0 = _
    simp [eraFw2m, eraRx, eraRz, eraIr]; ring
  have e01 : r 0 1 = cos p * sin g - sin p * cos f * cos g := by
    show eraFw2m g f p e 0 1 = _
    simp [eraFw2m, eraRx, eraRz, eraIr]; ring
  have e10 : r 1 0 = sin p * cos e * cos g - (cos p * cos e * cos f + sin e * sin f) * sin g := by
    show eraFw2m g f p e 1 0 = _
    simp [eraFw2m, eraRx, eraRz, eraIr]; ring
  have e11 : r 1 1 = sin p * cos e * sin g + (cos p * cos e * cos f + sin e * sin f) * cos g := by
    show eraFw2m g f p e 1 1 = _
    simp [eraFw2m, eraRx, eraRz, eraIr]; ring
  have e22 : r 2 2 = cos p * sin e * sin f + cos e * cos f := by
    show eraFw2m g f p e 2 2 = _
    simp [eraFw2m, eraRx, eraRz, eraIr]; ring
  have e20 : r 2 0 = sin p * sin e * cos g - (cos p * sin e * cos f - cos e * sin f) * sin g := by
    show eraFw2m g f p e 2 0 = _
    simp [eraFw2m, eraRx, eraRz, eraIr]; ring
  have e21 : r 2 1 = sin p * sin e * sin g + (cos p * sin e * cos f - cos e * sin f) * cos g := by
    show eraFw2m g f p e 2 1 = _
    simp [eraFw2m, eraRx, eraRz, eraIr]; ring
  have s1 : cos p + (cos p * cos e * cos f + sin e * sin f) = 2 * (W ^ 2 - Z ^ 2) := by
    rw [hW, hZ, ep, ee, ef, cos_two_mul, cos_add, cos_sub, sin_add, sin_sub]
    have h1 := sin_sq_add_cos_sq h
    have h2 := sin_sq_add_cos_sq a
    have h3 := sin_sq_add_cos_sq b
    generalize sin h = sh at *
    generalize cos h = ch at *
    generalize sin a = sa at *
    generalize cos a = ca at *
    generalize sin b = sb at *
    generalize cos b = cb at *
    grind
  have s2 : sin p * cos e + sin p * cos f = 4 * W * Z := by
    rw [hW, hZ, ep, ee, ef, sin_two_mul, cos_add, cos_sub]
    ring
  refine ⟨?_, ?_, ?_, ?_, ?_⟩
  · rw [e00, e11]; linear_combination cos g * s1 + sin g * s2
  · rw [e10, e01]; linear_combination cos g * s2 - sin g * s1
  · rw [e22, hW, hZ, ep, ee, ef, cos_two_mul, cos_add, cos_sub, sin_add, sin_sub]
    have h1 := sin_sq_add_cos_sq h
    have h2 := sin_sq_add_cos_sq a
    have h3 := sin_sq_add_cos_sq b
    generalize sin h = sh at *
    generalize cos h = ch at *
    generalize sin a = sa at *
    generalize cos a = ca at *
    generalize sin b = sb at *
    generalize cos b = cb at *
    grind
  · rw [e20, sin_sub]; ring
  · rw [e21, sin_sub]; ring

/-- The equation of the origins in closed form. -/
theorem eors_fw (g f p e s : ℝ) (hW : 0 < fwW p ((e - f) / 2))
    (hr : 2 * arctan (fwZ p ((e + f) / 2) / fwW p ((e - f) / 2)) - g ∈ Set.Ioc (-π) π) :
    eraEors (eraFw2m g f p e) s = s - (2 * arctan (fwZ p ((e + f) / 2) / fwW p ((e - f) / 2)) - g) := by
  obtain ⟨h1, h2, h3, -, -⟩ := fw_elements g f p e
  have hrot := fw2m_rot g f p e
  generalize eraFw2m g f p e = r at *
  generalize fwW p ((e - f) / 2) = W at *
  generalize fwZ p ((e + f) / 2) = Z at *
  have hpos : 0 < 1 + r 2 2 := by rw [h3]; positivity
  obtain ⟨k1, k2⟩ := eors_rot hrot hpos
  obtain ⟨q, hq⟩ : ∃ q, q = arctan (Z / W) := ⟨_, rfl⟩
  rw [← hq] at hr ⊢
  have hc : 0 < cos q := by rw [hq]; exact cos_arctan_pos _
  have ht : sin q * W = Z * cos q := by
    have := tan_arctan (Z / W)
    rw [← hq, tan_eq_sin_div_cos] at this
    field_simp at this
    linarith
  have hsc := sin_sq_add_cos_sq q
  have hA : W ^ 2 - Z ^ 2 = (W ^ 2 + Z ^ 2) * cos (2 * q) := by
    rw [cos_two_mul]
    have : (W ^ 2 - Z ^ 2) * cos q ^ 2 = (W ^ 2 + Z ^ 2) * (2 * cos q ^ 2 - 1) * cos q ^ 2 := by
      have e1 : sin q ^ 2 * W ^ 2 = Z ^ 2 * cos q ^ 2 := by linear_combination (sin q * W + Z * cos q) * ht
      have e2 : sin q ^ 2 = 1 - cos q ^ 2 := by linarith
      rw [e2] at e1
      have e3 : W ^ 2 = (W ^ 2 + Z ^ 2) * cos q ^ 2 := by linarith
      have e4 : Z ^ 2 * cos q ^ 2 = (W ^ 2 + Z ^ 2) * (1 - cos q ^ 2) * cos q ^ 2 := by linear_combination -cos q ^ 2 * e3
      linear_combination cos q ^ 2 * e3 - e4
    exact mul_right_cancel₀ (pow_ne_zero 2 hc.ne') this
  have hB : 2 * W * Z = (W ^ 2 + Z ^ 2) * sin (2 * q) := by
    rw [sin_two_mul]
    have e1 : Z * cos q = sin q * W := ht.symm
    have : (2 * W * Z) * cos q ^ 2 = ((W ^ 2 + Z ^ 2) * (2 * sin q * cos q)) * cos q ^ 2 := by
      have e3 : W ^ 2 = (W ^ 2 + Z ^ 2) * cos q ^ 2 := by
        have e1 : sin q ^ 2 * W ^ 2 = Z ^ 2 * cos q ^ 2 := by linear_combination (sin q * W + Z * cos q) * ht
        have e2 : sin q ^ 2 = 1 - cos q ^ 2 := by linarith
        rw [e2] at e1
        linarith
      linear_combination 2 * W * cos q * e1 + 2 * sin q * cos q * e3
    exact mul_right_cancel₀ (pow_ne_zero 2 hc.ne') this
  have hn := hpos.ne'
  unfold eraEors
  dsimp only
  generalize r 0 0 * (1 - r 2 0 / (1 + r 2 2) * r 2 0) + r 0 1 * (-(r 2 0 / (1 + r 2 2)) * r 2 1) + r 0 2 * (-r 2 0) = P at *
  generalize r 1 0 * (1 - r 2 0 / (1 + r 2 2) * r 2 0) + r 1 1 * (-(r 2 0 / (1 + r 2 2)) * r 2 1) + r 1 2 * (-r 2 0) = Q at *
  have hP : P = cos (2 * q - g) := by
    have : P * (1 + r 2 2) = cos (2 * q - g) * (1 + r 2 2) := by
      rw [k1, h1, h3, cos_sub]
      linear_combination 2 * cos g * hA + 2 * sin g * hB
    exact mul_right_cancel₀ hn this
  have hQ : Q = sin (2 * q - g) := by
    have : Q * (1 + r 2 2) = sin (2 * q - g) * (1 + r 2 2) := by
      rw [k2, h2, h3, sin_sub]
      linear_combination 2 * cos g * hB - 2 * sin g * hA
    exact mul_right_cancel₀ hn this
  have hne : P ≠ 0 ∨ Q ≠ 0 := by
    by_contra hcon
    push Not at hcon
    have := sin_sq_add_cos_sq (2 * q - g)
    rw [← hP, ← hQ, hcon.1, hcon.2] at this
    norm_num at this
  rw [if_pos hne, atan2_eq_of one_pos hr (by rw [hQ, one_mul]) (by rw [hP, one_mul])]


/-- `arctan (k tan h)` to the third order. -/
theorem arctan_tan_third {k h : ℝ} (hk : 0.9 ≤ k) (hk1 : k ≤ 0.93) (h0 : 0 ≤ h) (h1 : h ≤ 0.0123) :
    |arctan (k * tan h) - (k * h + k * (1 - k ^ 2) / 3 * h ^ 3)| ≤ 0.1 * h ^ 5 := by
  have hpi := pi_gt_three
  have hd : ∀ x ∈ Set.Icc (0 : ℝ) 0.0123, HasDerivAt (fun y => arctan (k * tan y)) (k / (1 - (1 - k ^ 2) * sin x ^ 2)) x := by
    intro x hx
    have hc : cos x ≠ 0 := (cos_pos_of_mem_Ioo ⟨by linarith [hx.1], by linarith [hx.2]⟩).ne'
    have := ((hasDerivAt_tan hc).const_mul k).arctan
    refine this.congr_deriv ?_
    have hs := sin_sq_add_cos_sq x
    have e1 : 1 + (k * tan x) ^ 2 = (1 - (1 - k ^ 2) * sin x ^ 2) / cos x ^ 2 := by
      rw [tan_eq_sin_div_cos, eq_div_iff (pow_ne_zero 2 hc)]
      field_simp
      linear_combination hs
    rw [e1]
    have hne : (1 - (1 - k ^ 2) * sin x ^ 2) ≠ 0 := by
      have : sin x ^ 2 ≤ 1 := sin_sq_le_one x
      have h2 : 0 ≤ sin x ^ 2 := sq_nonneg _
      have h3 : 1 - k ^ 2 ≤ 0.19 := by nlinarith
      have h4 := mul_le_mul_of_nonneg_right h3 h2
      intro h5
      linarith
    field_simp
  have bnd : ∀ x ∈ Set.Icc (0 : ℝ) 0.0123, |k / (1 - (1 - k ^ 2) * sin x ^ 2) - (k + k * (1 - k ^ 2) * x ^ 2)| ≤ 0.5 * x ^ 4 := by
    intro x hx
    obtain ⟨x0, x1⟩ := hx
    obtain ⟨m, hm⟩ : ∃ m, m = 1 - k ^ 2 := ⟨_, rfl⟩
    rw [← hm]
    have m0 : 0.13 ≤ m := by rw [hm]; nlinarith
    have m1 : m ≤ 0.19 := by rw [hm]; nlinarith
    obtain ⟨s, hs⟩ : ∃ s, s = sin x ^ 2 := ⟨_, rfl⟩
    rw [← hs]
    have s1 : s ≤ x ^ 2 := by
      rw [hs]
      exact pow_le_pow_left₀ (sin_nonneg_of_nonneg_of_le_pi x0 (by linarith)) (sin_le x0) 2
    have s2 : x ^ 2 - x ^ 4 / 3 ≤ s := by
      have := sin_ge_sub_cube x0
      have h3 : 0 ≤ x - x ^ 3 / 6 := by nlinarith [pow_nonneg x0 3]
      have h4 := pow_le_pow_left₀ h3 this 2
      rw [hs]
      have : (x - x ^ 3 / 6) ^ 2 = x ^ 2 - x ^ 4 / 3 + x ^ 6 / 36 := by ring
      have : 0 ≤ x ^ 6 := by positivity
      linarith
    have s0 : 0 ≤ s := by rw [hs]; positivity
    have xx : x ^ 2 ≤ 0.0002 := by nlinarith
    have x4 : x ^ 4 = x ^ 2 * x ^ 2 := by ring
    obtain ⟨y, hy⟩ : ∃ y, y = x ^ 2 := ⟨_, rfl⟩
    rw [x4, ← hy] at s2 ⊢
    rw [← hy] at s1 xx
    have y0 : 0 ≤ y := by rw [hy]; positivity
    have hden : 0.9 ≤ 1 - m * s := by nlinarith
    have hd0 : 0 < 1 - m * s := by linarith
    have e : k / (1 - m * s) - (k + k * m * y) = k * (m * (s - y) + m ^ 2 * y * s) / (1 - m * s) := by
      field_simp; ring
    rw [e, abs_div, abs_of_pos hd0, div_le_iff₀ hd0, abs_mul, abs_of_pos (by linarith : 0 < k)]
    have b1 : |m * (s - y) + m ^ 2 * y * s| ≤ 0.15 * (y * y) := by
      rw [abs_le]
      have q1 : m * (y - s) ≤ 0.19 * (y * y / 3) := by
        have : y - s ≤ y * y / 3 := by linarith
        calc m * (y - s) ≤ m * (y * y / 3) := mul_le_mul_of_nonneg_left this (by linarith)
          _ ≤ 0.19 * (y * y / 3) := mul_le_mul_of_nonneg_right m1 (by positivity)
      have q2 : m ^ 2 * y * s ≤ 0.04 * (y * y) := by
        have : m ^ 2 ≤ 0.04 := by nlinarith
        calc m ^ 2 * y * s ≤ 0.04 * y * s := by
              have := mul_le_mul_of_nonneg_right this (mul_nonneg y0 s0)
              linarith
          _ ≤ 0.04 * y * y := mul_le_mul_of_nonneg_left s1 (by linarith)
          _ = _ := by ring
      have q3 : 0 ≤ m ^ 2 * y * s := by positivity
      have q4 : 0 ≤ m * (y - s) := mul_nonneg (by linarith) (by linarith)
      have q5 : 0 ≤ y * y := by positivity
      constructor <;> nlinarith
    have : 0 ≤ y * y := by positivity
    calc k * _ ≤ 0.93 * (0.15 * (y * y)) := mul_le_mul hk1 b1 (abs_nonneg _) (by norm_num)
      _ ≤ 0.5 * (y * y) * (1 - m * s) := by nlinarith
  have gen : ∀ σ : ℝ, (σ = 1 ∨ σ = -1) → 0 ≤ σ * (arctan (k * tan h) - (k * h + k * (1 - k ^ 2) / 3 * h ^ 3)) + 0.1 * h ^ 5 := by
    intro σ hσ
    have hmono : MonotoneOn (fun x => σ * (arctan (k * tan x) - (k * x + k * (1 - k ^ 2) / 3 * x ^ 3)) + 0.1 * x ^ 5) (Set.Icc 0 0.0123) := by
      have hder : ∀ x ∈ Set.Icc (0 : ℝ) 0.0123, HasDerivAt (fun x => σ * (arctan (k * tan x) - (k * x + k * (1 - k ^ 2) / 3 * x ^ 3)) + 0.1 * x ^ 5)
          (σ * (k / (1 - (1 - k ^ 2) * sin x ^ 2) - (k + k * (1 - k ^ 2) * x ^ 2)) + 0.5 * x ^ 4) x := by
        intro x hx
        have a1 := (hasDerivAt_id x).const_mul k
        have a2 := (hasDerivAt_pow 3 x).const_mul (k * (1 - k ^ 2) / 3)
        have a3 := (hasDerivAt_pow 5 x).const_mul 0.1
        have := (((hd x hx).sub (a1.add a2)).const_mul σ).add a3
        refine this.congr_deriv ?_
        norm_num
        ring
      refine monotoneOn_of_deriv_nonneg (convex_Icc _ _) (fun x hx => (hder x hx).continuousAt.continuousWithinAt) (fun x hx => ?_) (fun x hx => ?_)
      · rw [interior_Icc] at hx
        exact (hder x ⟨hx.1.le, hx.2.le⟩).differentiableAt.differentiableWithinAt
      · rw [interior_Icc] at hx
        rw [(hder x ⟨hx.1.le, hx.2.le⟩).deriv]
        have := abs_le.1 (bnd x ⟨hx.1.le, hx.2.le⟩)
        rcases hσ with rfl | rfl <;> linarith [this.1, this.2]
    have := hmono ⟨le_refl _, by norm_num⟩ ⟨h0, h1⟩ h0
    simpa using this
  rw [abs_le]
  have g1 := gen 1 (Or.inl rfl)
  have g2 := gen (-1) (Or.inr rfl)
  constructor <;> linarith

theorem arctan_tan_third' {k h : ℝ} (hk : 0.9 ≤ k) (hk1 : k ≤ 0.93) (h1 : |h| ≤ 0.0123) :
    |arctan (k * tan h) - (k * h + k * (1 - k ^ 2) / 3 * h ^ 3)| ≤ 3e-11 := by
  have main : ∀ x : ℝ, 0 ≤ x → x ≤ 0.0123 → |arctan (k * tan x) - (k * x + k * (1 - k ^ 2) / 3 * x ^ 3)| ≤ 3e-11 := by
    intro x h0 h1
    refine (arctan_tan_third hk hk1 h0 h1).trans ?_
    have := pow_le_pow_left₀ h0 h1 5
    norm_num at this ⊢
    linarith
  rcases le_or_gt 0 h with h0 | h0
  · rw [abs_of_nonneg h0] at h1
    exact main h h0 h1
  · rw [abs_of_neg h0] at h1
    have := main (-h) (by linarith) h1
    rw [tan_neg, mul_neg, arctan_neg] at this
    rw [← abs_neg]
    convert this using 2
    ring

end Pal
