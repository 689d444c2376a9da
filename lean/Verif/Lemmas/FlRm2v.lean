import Verif.Model.FlRm2v
import Verif.Props.FlRot
import Verif.Props.FlBear
import Verif.Lemmas.FlPcd5
import Verif.Lemmas.FlMap

/-!
# palDm2av in double precision: error bounds
-/

namespace Pal
open Real Pal.Spec Pal.Props

variable {fl : ℝ → ℝ} {L : Libm}

/-- A component is at most 1.24 times a rounded modulus that is not zero, even where the squares underflow. -/
theorem flPm_ratio (R : Rounding fl) (v : Vec3) (hv : ∀ i, |v i| ≤ 100) (hs : 0 < flPm fl v) :
    1 / 10 ^ 170 ≤ flPm fl v ∧ ∀ i, |v i| ≤ 1.24 * flPm fl v := by
  have sq : ∀ i, v i * v i ≤ 10 ^ 4 := fun i => by
    have := mul_le_mul (hv i) (hv i) (abs_nonneg _) (by norm_num)
    rw [abs_mul_abs_self] at this; linarith
  have sn : ∀ i, 0 ≤ v i * v i := fun i => mul_self_nonneg _
  have big : ∀ {x : ℝ}, |x| ≤ 10 ^ 20 → |x| ≤ 2 ^ 1000 := fun h => h.trans (by
    calc (10 : ℝ) ^ 20 ≤ 2 ^ 67 := by norm_num
      _ ≤ 2 ^ 1000 := pow_le_pow_right₀ (by norm_num) (by norm_num))
  have sm : ∀ i, |v i * v i| ≤ 10 ^ 20 := fun i => by rw [abs_of_nonneg (sn i)]; exact (sq i).trans (by norm_num)
  have a0 : ∀ i, 0 ≤ fl (v i * v i) := fun i => R.nonneg ((sm i).trans (by norm_num)) (sn i)
  have a1 : ∀ i, fl (v i * v i) ≤ 10 ^ 5 := fun i => by
    have := R.mono (v i * v i) (10 ^ 5) (big (sm i)) (big (by rw [abs_of_pos (by norm_num)]; norm_num)) ((sq i).trans (by norm_num))
    have e : fl (10 ^ 5) = 10 ^ 5 := by
      have := R.int (10 ^ 5) (by norm_num)
      norm_num at this ⊢
      exact this
    rwa [e] at this
  have idm : ∀ i, fl (fl (v i * v i)) = fl (v i * v i) := fun i => R.idem' (sm i)
  -- the sums
  have s1 : ∀ a b : ℝ, fl a = a → 0 ≤ a → 0 ≤ b → a + b ≤ 10 ^ 20 → a ≤ fl (a + b) := fun a b h ha hb hab => by
    have := R.mono a (a + b) (big (by rw [abs_of_nonneg ha]; linarith)) (big (by rw [abs_of_nonneg (by linarith)]; exact hab)) (by linarith)
    rwa [h] at this
  set p := fl (v 0 * v 0) with hp
  set q := fl (v 1 * v 1) with hq
  set w := fl (v 2 * v 2) with hw
  have p0 := a0 0; have q0 := a0 1; have w0 := a0 2
  have p1 := a1 0; have q1 := a1 1; have w1 := a1 2
  have ip := idm 0; have iq := idm 1; have iw := idm 2
  rw [← hp] at p0 p1 ip
  rw [← hq] at q0 q1 iq
  rw [← hw] at w0 w1 iw
  have b20 : (10 : ℝ) ^ 5 + 10 ^ 5 ≤ 10 ^ 20 := by norm_num
  have e1 := s1 p q ip p0 q0 (by linarith)
  have e2 := s1 q p iq q0 p0 (by linarith)
  rw [add_comm q p] at e2
  have r0 : |fl (p + q)| ≤ 10 ^ 6 := by
    have er := R.err (x := p + q) (by rw [abs_of_nonneg (by linarith)]; exact le_trans (by linarith) (by norm_num : (10 : ℝ) ^ 20 ≤ 10 ^ 30))
    rw [abs_of_nonneg (by linarith : 0 ≤ p + q)] at er
    rw [abs_of_nonneg (by linarith)]
    have := (abs_le.1 er).2
    have t : (1 : ℝ) / 10 ^ 200 ≤ 1 := by norm_num
    have : (10 : ℝ) ^ 5 = 100000 := by norm_num
    have : (10 : ℝ) ^ 6 = 1000000 := by norm_num
    generalize (1 : ℝ) / 10 ^ 200 = t at *
    linarith
  have ipq : fl (fl (p + q)) = fl (p + q) := R.idem' (by rw [abs_of_nonneg (by linarith)]; linarith)
  have hpq0 : 0 ≤ fl (p + q) := by linarith
  rw [abs_of_nonneg hpq0] at r0
  have b6 : (10 : ℝ) ^ 6 + 10 ^ 5 ≤ 10 ^ 20 := by norm_num
  have e3 := s1 (fl (p + q)) w ipq hpq0 w0 (by linarith)
  have e4 := s1 w (fl (p + q)) iw w0 hpq0 (by linarith)
  rw [add_comm w] at e4
  have hflPm : flPm fl v = fl (√(fl (fl (p + q) + w))) := rfl
  obtain ⟨t, ht⟩ : ∃ t, t = fl (fl (p + q) + w) := ⟨_, rfl⟩
  rw [← ht] at hflPm e3 e4
  have tp : p ≤ t := by linarith
  have tq : q ≤ t := by linarith
  have tM : t ≤ 10 ^ 8 := by
    have er := R.err (x := fl (p + q) + w) (by rw [abs_of_nonneg (by linarith)]; exact le_trans (by linarith) (by norm_num : (10 : ℝ) ^ 20 ≤ 10 ^ 30))
    rw [abs_of_nonneg (by linarith : 0 ≤ fl (p + q) + w), ← ht] at er
    have := (abs_le.1 er).2
    have t : (1 : ℝ) / 10 ^ 200 ≤ 1 := by norm_num
    have : (10 : ℝ) ^ 5 = 100000 := by norm_num
    have : (10 : ℝ) ^ 6 = 1000000 := by norm_num
    have : (10 : ℝ) ^ 8 = 100000000 := by norm_num
    generalize (1 : ℝ) / 10 ^ 200 = t at *
    linarith
  have tne : t ≠ 0 := by
    intro h
    rw [hflPm, h, Real.sqrt_zero, R.zero] at hs
    exact lt_irrefl _ hs
  have t0 : 0 < t := lt_of_le_of_ne (by linarith) (Ne.symm tne)
  -- the smallest number
  have tiny : ∀ x : ℝ, |x| ≤ 2 ^ 1000 → 0 < fl x → (2 : ℝ) ^ (-1074 : ℤ) ≤ fl x := by
    intro x hx h
    obtain ⟨m, e, -, he, hfx⟩ := R.rep x hx
    rw [hfx] at h ⊢
    have m1 : (0 : ℝ) < m := by
      rcases lt_trichotomy (m : ℝ) 0 with h' | h' | h'
      · exact absurd h (not_lt.2 (mul_nonpos_of_nonpos_of_nonneg h'.le (by positivity)))
      · rw [h', zero_mul] at h; exact absurd h (lt_irrefl _)
      · exact h'
    have m2 : (1 : ℝ) ≤ m := by exact_mod_cast (by exact_mod_cast m1 : 0 < m)
    calc (2 : ℝ) ^ (-1074 : ℤ) ≤ 2 ^ e := zpow_le_zpow_right₀ (by norm_num) he
      _ = 1 * 2 ^ e := by ring
      _ ≤ m * 2 ^ e := mul_le_mul_of_nonneg_right m2 (by positivity)
  have tt : (2 : ℝ) ^ (-1074 : ℤ) ≤ t := by
    rw [ht]
    refine tiny _ (big ?_) (ht ▸ t0)
    rw [abs_of_nonneg (by linarith)]; linarith
  have half : (1 : ℝ) / 2 ^ 1075 = (2 : ℝ) ^ (-1074 : ℤ) / 2 := by
    rw [show (-1074 : ℤ) = -(1074 : ℕ) by norm_num, zpow_neg, zpow_natCast, pow_succ]; field_simp
  have key : ∀ i, v i * v i ≤ 1.51 * t := fun i => by
    have nr := R.near (v i * v i) (big (sm i))
    rw [abs_of_nonneg (sn i), half] at nr
    have lo := (abs_le.1 nr).1
    have pw : v i * v i / 2 ^ 53 ≤ 1e-15 * (v i * v i) := by
      rw [div_le_iff₀ (by norm_num)]
      have := sn i
      nlinarith only [this]
    have fit : fl (v i * v i) ≤ t := by
      fin_cases i
      · exact tp
      · exact tq
      · exact e4
    generalize (2 : ℝ) ^ (-1074 : ℤ) = h at *
    generalize v i * v i / 2 ^ 53 = z at *
    linarith only [lo, pw, fit, tt, t0, sn i]
  have rt : 0 < √t := Real.sqrt_pos.2 t0
  have rt1 : (2 : ℝ) ^ (-537 : ℤ) ≤ √t := by
    refine Real.le_sqrt_of_sq_le (le_trans (le_of_eq ?_) tt)
    rw [← zpow_natCast, ← zpow_mul]; norm_num
  have rtM : √t ≤ 10 ^ 4 := by
    rw [show (10 : ℝ) ^ 4 = √(10 ^ 8) by rw [show (10 : ℝ) ^ 8 = (10 ^ 4) ^ 2 by norm_num, Real.sqrt_sq (by norm_num)]]
    exact Real.sqrt_le_sqrt tM
  have nr := R.near (√t) (big (by rw [abs_of_pos rt]; exact rtM.trans (by norm_num)))
  rw [abs_of_pos rt, half] at nr
  have small : (2 : ℝ) ^ (-1074 : ℤ) ≤ 1e-15 * 2 ^ (-537 : ℤ) := by
    rw [show (-1074 : ℤ) = -537 + -537 by norm_num, zpow_add₀ (by norm_num)]
    refine mul_le_mul_of_nonneg_right ?_ (by positivity)
    calc (2 : ℝ) ^ (-537 : ℤ) ≤ 2 ^ (-50 : ℤ) := zpow_le_zpow_right₀ (by norm_num) (by norm_num)
      _ ≤ 1e-15 := by norm_num
  have lo := (abs_le.1 nr).1
  rw [← hflPm] at lo
  have pw : √t / 2 ^ 53 ≤ 1e-15 * √t := by
    rw [div_le_iff₀ (by norm_num)]
    nlinarith only [rt]
  have n537 : (2 : ℝ) / 10 ^ 170 ≤ 2 ^ (-537 : ℤ) := by
    rw [zpow_neg, show (537 : ℤ) = ((537 : ℕ) : ℤ) by norm_num, zpow_natCast, div_le_iff₀ (by positivity), inv_mul_eq_div, le_div_iff₀ (by positivity)]
    calc (2 : ℝ) * 2 ^ 537 = 2 ^ 538 := by rw [pow_succ' _ 537]
      _ ≤ 2 ^ 560 := pow_le_pow_right₀ (by norm_num) (by norm_num)
      _ = (2 ^ 56) ^ 10 := by rw [← pow_mul]
      _ ≤ (10 ^ 17) ^ 10 := pow_le_pow_left₀ (by norm_num) (by norm_num) 10
      _ = 10 ^ 170 := by rw [← pow_mul]
  have hlow : (1 - 1e-14) * √t ≤ flPm fl v := by
    generalize (2 : ℝ) ^ (-1074 : ℤ) = h at *
    generalize (2 : ℝ) ^ (-537 : ℤ) = h' at *
    generalize √t / 2 ^ 53 = z at *
    linarith only [lo, pw, small, rt1, rt]
  refine ⟨?_, fun i => ?_⟩
  · have e : (2 : ℝ) / 10 ^ 170 = 2 * (1 / 10 ^ 170) := by ring
    rw [e] at n537
    generalize (2 : ℝ) ^ (-537 : ℤ) = h' at *
    have : (0 : ℝ) < 1 / 10 ^ 170 := by positivity
    generalize (1 : ℝ) / 10 ^ 170 = z at *
    linarith only [n537, rt1, hlow, this]
  · have : |v i| ≤ √(1.51 * t) := by
      rw [← Real.sqrt_mul_self_eq_abs]
      exact Real.sqrt_le_sqrt (key i)
    have e : √(1.51 * t) ≤ 1.2289 * √t := by
      rw [Real.sqrt_le_left (by positivity), mul_pow, Real.sq_sqrt t0.le]
      nlinarith only [t0]
    linarith only [this, e, hlow, rt]

/-- The axial vector of exact arithmetic and the differences of the entries. -/
theorem rm2v_exact (W : Vec3) (h : len W ≤ 3) :
    ∃ (X : Vec3) (g : ℝ), (palDav2m W 1 2 - palDav2m W 2 1 = X 0 ∧ palDav2m W 2 0 - palDav2m W 0 2 = X 1 ∧ palDav2m W 0 1 - palDav2m W 1 0 = X 2) ∧
      palDav2m W 0 0 + palDav2m W 1 1 + palDav2m W 2 2 - 1 = 2 * cos (len W) ∧ len X = 2 * sin (len W) ∧ 0 ≤ g ∧ g ≤ 10.66 ∧ (len W ≤ π / 2 → g ≤ 0.786) ∧ (∀ i, W i = g * X i) ∧ len W = g * (2 * sin (len W)) := by
  have n0 := len_nonneg W
  have e2 : len W = √(W 0 * W 0 + W 1 * W 1 + W 2 * W 2) := by rw [len_eq, dot_eq]
  have hsq : len W * len W = W 0 * W 0 + W 1 * W 1 + W 2 * W 2 := by
    rw [e2, Real.mul_self_sqrt]
    exact add_nonneg (add_nonneg (mul_self_nonneg _) (mul_self_nonneg _)) (mul_self_nonneg _)
  have sn : 0 ≤ sin (len W) := sin_nonneg_of_nonneg_of_le_pi n0 (by have := pi_gt_three; linarith)
  unfold palDav2m eraRv2m
  rw [← e2]
  rcases n0.eq_or_lt with h0 | h0
  · have w0 : ∀ i, W i = 0 := fun i => by
      have := comp_le_len W i
      rw [← h0] at this
      exact abs_nonpos_iff.1 this
    refine ⟨fun _ => 0, 1 / 2, ?_, ?_, ?_, by norm_num, by norm_num, fun _ => by norm_num, fun i => by rw [w0 i]; ring, ?_⟩
    · simp [← h0, w0]
    · simp [← h0, w0]; norm_num
    · rw [← h0]; simp [len]
    · rw [← h0]; simp
  · have s0 : 0 < sin (len W) := sin_pos_of_pos_of_lt_pi h0 (by have := pi_gt_three; linarith)
    have ne := h0.ne'
    refine ⟨fun i => 2 * sin (len W) * (W i / len W), len W / (2 * sin (len W)), ?_, ?_, ?_, by positivity, ?_, ?_, ?_, ?_⟩
    · simp only [if_pos h0, gt_iff_lt]
      refine ⟨?_, ?_, ?_⟩ <;> simp <;> ring
    · simp only [if_pos h0, gt_iff_lt]
      have : W 0 / len W * (W 0 / len W) + W 1 / len W * (W 1 / len W) + W 2 / len W * (W 2 / len W) = 1 := by
        field_simp
        linear_combination -hsq
      simp
      linear_combination (1 - cos (len W)) * this
    · have : (fun i => 2 * sin (len W) * (W i / len W)) = fun i => (2 * sin (len W) / len W) * W i := by
        funext i; ring
      rw [this, len_smul, abs_of_nonneg (by positivity)]
      field_simp
    · rw [div_le_iff₀ (by positivity)]
      by_cases hp : len W ≤ π / 2
      · have := mul_le_sin n0 hp
        have := pi_lt_d2
        have q : 2 / π ≥ 0.6 := by rw [ge_iff_le, le_div_iff₀ pi_pos]; linarith
        nlinarith
      · push Not at hp
        have l1 := pi_gt_d6
        have l2 := pi_lt_d6
        have := sin_gt_sub_cube (x := π - 3) (by linarith)
        have m := sin_le_sin_of_le_of_le_pi_div_two (x := π - 3) (y := π - len W) (by linarith) (by linarith) (by linarith)
        rw [sin_pi_sub (len W)] at m
        have c : (π - 3) ^ 3 ≤ 0.1416 ^ 3 := pow_le_pow_left₀ (by linarith) (by linarith) 3
        norm_num at c
        linarith
    · intro hp
      rw [div_le_iff₀ (by positivity)]
      have a := mul_le_sin n0 hp
      have := pi_lt_d6
      have q : 2 / π ≥ 0.6366 := by rw [ge_iff_le, le_div_iff₀ pi_pos]; linarith
      nlinarith
    · intro i; field_simp
    · field_simp
/-- palDm2av in double precision, with the bound g of angle over twice its sine. -/
theorem flRm2v_core (R : Rounding fl) (hL : LibmOK L) {m : Mat3} {W X : Vec3} {g G δ : ℝ} (h : len W ≤ 3) (hδ : δ ≤ 1e-9) (δ0 : 0 ≤ δ)
    (x0 : |m 1 2 - m 2 1 - X 0| ≤ 2 * δ) (x1 : |m 2 0 - m 0 2 - X 1| ≤ 2 * δ) (x2 : |m 0 1 - m 1 0 - X 2| ≤ 2 * δ)
    (d0 : |m 0 0| ≤ 1 + δ) (d1 : |m 1 1| ≤ 1 + δ) (d2 : |m 2 2| ≤ 1 + δ) (tr : |m 0 0 + m 1 1 + m 2 2 - 1 - 2 * cos (len W)| ≤ 3 * δ)
    (hX : len X = 2 * sin (len W)) (g0 : 0 ≤ g) (hg : g ≤ G) (hG : G ≤ 10.66) (hW : ∀ i, W i = g * X i) (hl : len W = g * (2 * sin (len W))) :
    ∀ i, |flRm2v fl L m i - W i| ≤ (6.3 * G + 11.8) * δ + (2.1e-15 * G + 7e-15) := by
  have n0 := len_nonneg W
  obtain ⟨S, hS⟩ : ∃ S, S = 2 * sin (len W) := ⟨_, rfl⟩
  obtain ⟨C, hC⟩ : ∃ C, C = 2 * cos (len W) := ⟨_, rfl⟩
  have S2 : S ≤ 2 := by rw [hS]; linarith [sin_le_one (len W)]
  rw [← hS] at hX hl
  rw [← hC] at tr
  have S0 : 0 ≤ S := by rw [← hX]; exact len_nonneg X
  have Xc : ∀ i, |X i| ≤ 2 := fun i => (comp_le_len X i).trans (by linarith)
  have G0 : 0 ≤ G := g0.trans hg
  -- the differences
  obtain ⟨x, hx⟩ : ∃ x : Vec3, x = ![fl (m 1 2 - m 2 1), fl (m 2 0 - m 0 2), fl (m 0 1 - m 1 0)] := ⟨_, rfl⟩
  have E : ∀ i, |x i - X i| ≤ 2 * δ + 2.3e-16 := by
    have one : ∀ {a A : ℝ}, |a - A| ≤ 2 * δ → |A| ≤ 2 → |fl a - A| ≤ 2 * δ + 2.3e-16 := fun {a A} h1 h2 =>
      R.add_err2 (B := 2) _ h1 h2 (by linarith) (by linarith)
    intro i
    rw [hx]
    fin_cases i
    · exact one x0 (Xc 0)
    · exact one x1 (Xc 1)
    · exact one x2 (Xc 2)
  have lx := len_le_of_comp E
  have lr := (len_rev_tri x X).trans lx
  have lr' := abs_le.1 lr
  have pm := flPm_err R x (by rw [hX] at lr'; linarith)
  obtain ⟨s, hs⟩ : ∃ s, s = flPm fl x := ⟨_, rfl⟩
  have z96 : (1 : ℝ) / 10 ^ 96 ≤ 1e-50 := by norm_num
  have D : |s - S| ≤ 3.4642 * δ + 1.45e-15 := by
    have a := pm.2
    rw [← hs] at a
    rw [hX] at lr lr'
    have := abs_sub_le s (len x) S
    generalize (1 : ℝ) / 10 ^ 96 = t at *
    linarith
  have D' := abs_le.1 D
  have xc : ∀ i, |x i| ≤ 100 := fun i => by
    have := abs_add_le (x i - X i) (X i)
    rw [sub_add_cancel] at this
    linarith [E i, Xc i]
  have un : flRm2v fl L m = if s > 0 then (fun i => fl (x i * fl (L.atan2 s (fl (fl (fl (m 0 0 + m 1 1) + m 2 2) - 1)) / s))) else fun _ => 0 := by
    have e : s = fl (√(fl (fl (fl (fl (m 1 2 - m 2 1) * fl (m 1 2 - m 2 1)) + fl (fl (m 2 0 - m 0 2) * fl (m 2 0 - m 0 2))) + fl (fl (m 0 1 - m 1 0) * fl (m 0 1 - m 1 0))))) := by
      rw [hs, hx]; rfl
    unfold flRm2v
    dsimp only
    rw [← e, hx]
    split
    · funext i; fin_cases i <;> rfl
    · funext i; fin_cases i <;> rfl
  rw [un]
  by_cases sp : s > 0
  · rw [if_pos sp]
    obtain ⟨low, ratio⟩ := flPm_ratio R x xc (hs ▸ sp)
    rw [← hs] at low ratio
    -- the cosine
    have cb : |C| ≤ 2 := by rw [hC, abs_mul, abs_of_pos (by norm_num : (0 : ℝ) < 2)]; linarith [abs_cos_le_one (len W)]
    have Cc : |fl (fl (fl (m 0 0 + m 1 1) + m 2 2) - 1) - C| ≤ 3.4642 * δ + 1.45e-15 := by
      have q1 : |m 0 0 + m 1 1| ≤ 2.01 := by have := abs_add_le (m 0 0) (m 1 1); linarith
      have f1 := R.add_err2 (x := m 0 0 + m 1 1) (X := m 0 0 + m 1 1) (δ := 0) (B := 2.01) 2.3e-16 (by simp) q1 (by norm_num) (by norm_num)
      have q2 : |m 0 0 + m 1 1 + m 2 2| ≤ 3.1 := by have := abs_add_le (m 0 0 + m 1 1) (m 2 2); linarith
      have f2 := R.add_err2 (x := fl (m 0 0 + m 1 1) + m 2 2) (X := m 0 0 + m 1 1 + m 2 2) (δ := 2.3e-16) (B := 3.1) 5.8e-16 (by rw [add_sub_add_right_eq_sub]; exact f1) q2 (by norm_num) (by norm_num)
      exact R.add_err2 (x := fl (fl (m 0 0 + m 1 1) + m 2 2) - 1) (X := C) (δ := 3 * δ + 5.8e-16) (B := 2) _ (by
        have := abs_add_le (fl (fl (m 0 0 + m 1 1) + m 2 2) - (m 0 0 + m 1 1 + m 2 2)) (m 0 0 + m 1 1 + m 2 2 - 1 - C)
        rw [show fl (fl (m 0 0 + m 1 1) + m 2 2) - (m 0 0 + m 1 1 + m 2 2) + (m 0 0 + m 1 1 + m 2 2 - 1 - C) = fl (fl (m 0 0 + m 1 1) + m 2 2) - 1 - C by ring] at this
        linarith) cb (by linarith) (by linarith)
    generalize fl (fl (fl (m 0 0 + m 1 1) + m 2 2) - 1) = c at *
    obtain ⟨T, t1, t2, t3, t4⟩ := flAtan2_spec hL false s c (Or.inr sp.ne')
    have fe : flAtan2 L false s c = L.atan2 s c := by simp [flAtan2]
    rw [fe] at t1
    obtain ⟨k, hk⟩ := bearing_close (S := 2) (q := len W) Cc D (by norm_num) le_rfl hC.symm hS.symm (Real.sqrt_nonneg _) t2.symm t3.symm t1
    obtain ⟨θ, hθ⟩ : ∃ θ, θ = L.atan2 s c := ⟨_, rfl⟩
    rw [← hθ] at t1 hk
    have pi1 := pi_gt_d6
    have pi2 := pi_lt_d6
    have hθ1 := close_range t1 t4
    have k0 : k = 0 := by
      have a := abs_le.1 (by linarith : |θ - (len W + k * (2 * π))| ≤ 1e-7)
      have b := abs_le.1 hθ1
      by_contra hk0
      rcases lt_or_gt_of_ne hk0 with h' | h'
      · have : (k : ℝ) ≤ -1 := by exact_mod_cast (by omega : k ≤ -1)
        have := mul_le_mul_of_nonneg_right this (by linarith only [pi1] : 0 ≤ 2 * π)
        linarith only [this, a.1, a.2, b.1, b.2, pi1, pi2, h, n0]
      · have : (1 : ℝ) ≤ k := by exact_mod_cast h'
        have := mul_le_mul_of_nonneg_right this (by linarith only [pi1] : 0 ≤ 2 * π)
        linarith only [this, a.1, a.2, b.1, b.2, pi1, pi2, h, n0]
    rw [k0, Int.cast_zero, zero_mul, add_zero] at hk
    rw [← hθ]
    intro i
    -- the quotient
    have hq : |x i * (θ / s) - W i| ≤ G * (2 * δ + 2.3e-16) + 1.24 * ((2.725 * (3.4642 * δ + 1.45e-15) + 4.5e-16) + G * (3.4642 * δ + 1.45e-15)) := by
      have e : x i * (θ / s) - W i = g * (x i - X i) + x i / s * ((θ - len W) + g * (S - s)) := by
        rw [hW i, hl]; field_simp; ring
      rw [e]
      have a1 : |g * (x i - X i)| ≤ G * (2 * δ + 2.3e-16) := by
        rw [abs_mul, abs_of_nonneg g0]; exact mul_le_mul hg (E i) (abs_nonneg _) G0
      have a2 : |x i / s| ≤ 1.24 := by rw [abs_div, abs_of_pos sp, div_le_iff₀ sp]; exact ratio i
      have a3 : |g * (S - s)| ≤ G * (3.4642 * δ + 1.45e-15) := by
        rw [abs_mul, abs_of_nonneg g0, abs_sub_comm]; exact mul_le_mul hg D (abs_nonneg _) G0
      have a4 : |x i / s * ((θ - len W) + g * (S - s))| ≤ 1.24 * ((2.725 * (3.4642 * δ + 1.45e-15) + 4.5e-16) + G * (3.4642 * δ + 1.45e-15)) := by
        rw [abs_mul]
        refine mul_le_mul a2 ((abs_add_le _ _).trans (add_le_add (by linarith) a3)) (abs_nonneg _) (by norm_num)
      exact (abs_add_le _ _).trans (add_le_add a1 a4)
    have wb : |W i| ≤ 3 := (comp_le_len W i).trans h
    -- the two roundings
    have z1 : |θ / s| ≤ 4 * 10 ^ 170 := by
      rw [abs_div, abs_of_pos sp, div_le_iff₀ sp]
      have : 4 * 10 ^ 170 * (1 / 10 ^ 170) ≤ 4 * 10 ^ 170 * s := mul_le_mul_of_nonneg_left low (by positivity)
      rw [show (4 : ℝ) * 10 ^ 170 * (1 / 10 ^ 170) = 4 by field_simp] at this
      linarith
    have nr := R.near (θ / s) (z1.trans (by
      calc (4 : ℝ) * 10 ^ 170 ≤ 2 ^ 2 * (2 ^ 4) ^ 170 := by
            refine mul_le_mul (by norm_num) (pow_le_pow_left₀ (by norm_num) (by norm_num) 170) (by positivity) (by norm_num)
        _ = 2 ^ 682 := by rw [← pow_mul, ← pow_add]
        _ ≤ 2 ^ 1000 := pow_le_pow_right₀ (by norm_num) (by norm_num)))
    have tinyy : (1 : ℝ) / 2 ^ 1075 ≤ 1e-50 := by
      rw [div_le_iff₀ (by positivity)]
      have : (2 : ℝ) ^ 200 ≤ 2 ^ 1075 := pow_le_pow_right₀ (by norm_num) (by norm_num)
      exact le_trans (by norm_num : (1 : ℝ) ≤ 1e-50 * 2 ^ 200) (mul_le_mul_of_nonneg_left this (by norm_num))
    have pq : |x i * (θ / s)| ≤ 3.1 := by
      have := abs_add_le (x i * (θ / s) - W i) (W i)
      rw [sub_add_cancel] at this
      have y : G * δ ≤ 10.66 * 1e-9 := mul_le_mul hG hδ δ0 (by norm_num)
      linarith only [this, hq, y, hδ, hG, wb]
    have f1 : |x i * fl (θ / s) - x i * (θ / s)| ≤ 4e-16 := by
      rw [← mul_sub, abs_mul]
      have a := mul_le_mul_of_nonneg_left nr (abs_nonneg (x i))
      have b : |x i| * (|θ / s| / 2 ^ 53 + 1 / 2 ^ 1075) = |x i * (θ / s)| / 2 ^ 53 + |x i| * (1 / 2 ^ 1075) := by rw [abs_mul]; ring
      rw [b] at a
      have c1 : |x i| * (1 / 2 ^ 1075) ≤ 100 * 1e-50 := mul_le_mul (xc i) tinyy (by positivity) (by norm_num)
      have c2 : |x i * (θ / s)| / 2 ^ 53 ≤ 3.1 / 2 ^ 53 := div_le_div_of_nonneg_right pq (by positivity)
      have c3 : (3.1 : ℝ) / 2 ^ 53 + 100 * 1e-50 ≤ 4e-16 := by norm_num
      linarith
    have f2 := R.add_err2 (x := x i * fl (θ / s)) (X := x i * (θ / s)) (δ := 4e-16) (B := 3.1) 8e-16 f1 pq (by norm_num) (by norm_num)
    have := abs_sub_le (fl (x i * fl (θ / s))) (x i * (θ / s)) (W i)
    linarith only [this, f2, hq, mul_nonneg G0 δ0, G0, δ0]
  · rw [if_neg sp]
    intro i
    rw [zero_sub, abs_neg, hW i, abs_mul, abs_of_nonneg g0]
    have a : |X i| ≤ 3.4642 * δ + 1.45e-15 := (comp_le_len X i).trans (by rw [hX]; push Not at sp; linarith)
    have := mul_le_mul hg a (abs_nonneg _) G0
    linarith only [this, mul_nonneg G0 δ0, G0, δ0]

end Pal
