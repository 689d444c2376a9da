import Verif.Lemmas.FlAtmdsp
import Verif.Props.FlAoppa
import Verif.Props.Refr2

/-!
# C145: dispersion adjustment of the refraction constants in double precision
-/

namespace Pal.Props
open Real Pal Pal.Spec

variable {fl : ℝ → ℝ} {pw : ℝ → ℝ → ℝ}

/-- **C145** (radio) If either wavelength exceeds 100 micrometres the constants come back unchanged. -/
theorem C145_radio (tdk pmb rh wl1 a1 b1 wl2 : ℝ) (h : 100 < wl1 ∨ 100 < wl2) : flAtmdsp fl pw tdk pmb rh wl1 a1 b1 wl2 = some (a1, b1) := by
  unfold flAtmdsp
  rw [if_pos h]

/-- **C145** (no division by zero) palAtmdsp in double precision never divides by zero: the test `dn1 != a1` is enough, because the difference of two different doubles does not round to zero. -/
theorem C145_defined (R : Rounding fl) (hp : PowOK pw) (tdk pmb rh wl1 a1 b1 wl2 : ℝ) (ha : fl a1 = a1) (ha' : |a1| ≤ 10 ^ 28) :
    ∃ r, flAtmdsp fl pw tdk pmb rh wl1 a1 b1 wl2 = some r := by
  unfold flAtmdsp
  split_ifs with h1
  · exact ⟨_, rfl⟩
  push Not at h1
  obtain ⟨d1, d2⟩ := flAtmdspDn_dbl R hp tdk pmb rh wl1 h1.1
  dsimp only
  split_ifs with h2 h3 h4
  · exact absurd h4 (fl_sub_ne_zero R (d1.trans (by norm_num)) ha' d2 ha h3).2
  · exact ⟨_, rfl⟩
  · exact ⟨_, rfl⟩
  · exact ⟨_, rfl⟩

/-- **C145** (same wavelength) Going to the same wavelength changes no bit of the constants. -/
theorem C145_same (R : Rounding fl) (hp : PowOK pw) (tdk pmb rh wl a1 b1 : ℝ) (ha : fl a1 = a1) (hb : fl b1 = b1) (ha' : |a1| ≤ 10 ^ 28) :
    flAtmdsp fl pw tdk pmb rh wl a1 b1 wl = some (a1, b1) := by
  obtain ⟨r, hr⟩ := C145_defined R hp tdk pmb rh wl a1 b1 wl ha ha'
  have one : fl 1 = 1 := by have := R.int 1 (by norm_num); simpa using this
  revert hr
  unfold flAtmdsp
  split_ifs with h1
  · exact fun _ => rfl
  dsimp only
  split_ifs with h2 h3 h4
  · intro h; exact absurd h (by simp)
  · intro _
    rw [div_self h2, one, mul_one, mul_one, ha, hb, sub_self, R.zero, mul_zero, R.zero, zero_div, R.zero, add_zero, one, mul_one, hb]
  · intro _
    rw [div_self h2, one, mul_one, mul_one, ha, hb]
  · exact fun _ => rfl

/-- **C145** (vacuum) Without any air the constants come back unchanged. -/
theorem C145_vacuum (R : Rounding fl) (tdk pmb rh wl1 a1 b1 wl2 : ℝ) (hp : pmb ≤ 0) (hr : rh ≤ 0) : flAtmdsp fl pw tdk pmb rh wl1 a1 b1 wl2 = some (a1, b1) := by
  have h0 : min (max pmb 0) (10000 : ℝ) = 0 := by rw [max_eq_right hp]; exact min_eq_left (by norm_num)
  have h1 : min (max rh 0) (1 : ℝ) = 0 := by rw [max_eq_right hr]; exact min_eq_left (by norm_num)
  have hdn : flAtmdspDn fl pw tdk pmb rh wl1 = 0 := by unfold flAtmdspDn flAtmdspW1; simp [h0, h1, R.zero]
  unfold flAtmdsp
  split_ifs with h1
  · rfl
  · simp [hdn]

set_option maxHeartbeats 1000000 in
/-- **C145** (accuracy) Wherever the partial pressure of the water vapour is at most 3.4 times the total pressure, and the pressure at least a millionth of a millibar, the constant A which palAtmdsp returns in double
precision is that of exact arithmetic to 4 parts in 10^14; and so is B to 1e-12 + 1e-8·((n1−1) + (n2−1)), relative to the given constant scaled by (n2−1)/(n1−1), unless the given A is within a thousandth of n1−1. -/
theorem C145_accuracy (R : Rounding fl) (hp : PowOK pw) (tdk pmb rh wl1 a1 b1 wl2 : ℝ) (h1 : wl1 ≤ 100) (h2 : wl2 ≤ 100) (hpm : 1e-6 ≤ pmb)
    (hm : min (max rh 0) 1 * (10 : ℝ) ^ (-8.7115 + 0.03477 * min (max tdk 100) 500) ≤ 3.4 * min pmb 10000) (ha : |a1| ≤ 1) (hb : |b1| ≤ 1) (ha' : fl a1 = a1) :
    ∃ a2 b2, flAtmdsp fl pw tdk pmb rh wl1 a1 b1 wl2 = some (a2, b2) ∧
      |a2 - (palAtmdsp tdk pmb rh wl1 a1 b1 wl2).1| ≤ 4e-14 * |(palAtmdsp tdk pmb rh wl1 a1 b1 wl2).1| + 1e-190 ∧
      (1e-3 * atmdspDn tdk pmb rh wl1 ≤ |atmdspDn tdk pmb rh wl1 - a1| →
        |b2 - (palAtmdsp tdk pmb rh wl1 a1 b1 wl2).2| ≤
          (1e-12 + 1e-8 * (atmdspDn tdk pmb rh wl1 + atmdspDn tdk pmb rh wl2)) * (|b1| * (atmdspDn tdk pmb rh wl2 / atmdspDn tdk pmb rh wl1)) + 1e-180) := by
  have hmm : 2 * atmdspW1 tdk rh ≤ 7.75e-5 * min pmb 10000 := by unfold atmdspW1; linarith [(le_min hpm (by norm_num) : (1e-6 : ℝ) ≤ min pmb 10000)]
  obtain ⟨n1, l1, u1⟩ := flAtmdspDn_near R hp tdk pmb rh wl1 h1 hpm hmm
  obtain ⟨n2, l2, u2⟩ := flAtmdspDn_near R hp tdk pmb rh wl2 h2 hpm hmm
  obtain ⟨⟨a2, b2⟩, hr⟩ := C145_defined R hp tdk pmb rh wl1 a1 b1 wl2 ha' (ha.trans (by norm_num))
  refine ⟨a2, b2, hr, ?_⟩
  revert hr
  unfold flAtmdsp palAtmdsp
  have hn : ¬ (wl1 > 100 ∨ wl2 > 100) := by rintro (h | h) <;> linarith
  rw [if_neg hn, if_neg hn]
  dsimp only
  generalize flAtmdspDn fl pw tdk pmb rh wl1 = d1 at *
  generalize flAtmdspDn fl pw tdk pmb rh wl2 = d2 at *
  generalize atmdspDn tdk pmb rh wl1 = N1 at *
  generalize atmdspDn tdk pmb rh wl2 = N2 at *
  clear hm hmm
  have P1 := n1.pos
  have P2 := n2.pos
  rw [if_pos n1.xpos.ne', if_pos P1.ne']
  obtain ⟨F, hF⟩ : ∃ F, F = N2 / N1 := ⟨_, rfl⟩
  have F0 : 1e-12 ≤ F := by rw [hF, le_div_iff₀ P1]; linarith
  have F1 : F ≤ 1e12 := by rw [hF, div_le_iff₀ P1]; linarith
  have nf : Near 3.83e-14 (fl (d2 / d1)) F := by
    rw [hF] at F0 F1 ⊢
    exact (n2.div 3.81e-14 n1 (by norm_num) (by norm_num)).fl R 3.83e-14 (le_trans (by norm_num) F0) (F1.trans (by norm_num)) (by norm_num) (by norm_num)
  rw [← hF]
  generalize fl (d2 / d1) = f at *
  have t0 : (0 : ℝ) < 1 / 10 ^ 200 := by positivity
  have t1 : (1 : ℝ) / 10 ^ 200 ≤ 1e-195 := by norm_num
  have fac : ∀ c : ℝ, |c| ≤ 1 → |fl (c * f) - c * F| ≤ 3.9e-14 * (|c| * F) + 1 / 10 ^ 200 := fun c hc => by
    have e1 : |c * f - c * F| ≤ 3.83e-14 * (|c| * F) := by
      rw [← mul_sub, abs_mul]
      have := mul_le_mul_of_nonneg_left nf.err (abs_nonneg c)
      linarith
    have cF : |c * F| = |c| * F := by rw [abs_mul, abs_of_pos nf.pos]
    have cF0 : 0 ≤ |c| * F := mul_nonneg (abs_nonneg _) nf.pos.le
    have cF1 : |c| * F ≤ 1e12 := by nlinarith only [hc, F1, F0, abs_nonneg c]
    have b : |c * f| ≤ 1.0001 * (|c| * F) := by
      have := abs_add_le (c * f - c * F) (c * F)
      rw [sub_add_cancel, cF] at this
      linarith
    have e2 := R.err (x := c * f) (b.trans (le_trans (b := 1e13) (by linarith) (by norm_num)))
    have := abs_sub_le (fl (c * f)) (c * f) (c * F)
    linarith
  have fa := fac a1 ha
  have fb := fac b1 hb
  have hA : |a2 - a1 * F| ≤ 4e-14 * |a1 * F| + 1e-190 ↔ |a2 - a1 * F| ≤ 4e-14 * (|a1| * F) + 1e-190 := by rw [abs_mul a1 F, abs_of_pos nf.pos]
  have aF : 0 ≤ |a1| * F := mul_nonneg (abs_nonneg _) nf.pos.le
  have t3 : (1e-195 : ℝ) ≤ 1e-190 := by norm_num
  have HA : |fl (a1 * f) - a1 * F| ≤ 4e-14 * |a1 * F| + 1e-190 := by
    rw [abs_mul a1 F, abs_of_pos nf.pos]
    generalize (1 : ℝ) / 10 ^ 200 = z at *
    generalize (1e-195 : ℝ) = z' at *
    generalize (1e-190 : ℝ) = z'' at *
    linarith
  intro hr
  have ea : a2 = fl (a1 * f) := by
    split_ifs at hr
    · exact (congrArg Prod.fst (Option.some.inj hr)).symm
    · exact (congrArg Prod.fst (Option.some.inj hr)).symm
  refine ⟨by rw [ea]; exact HA, fun hg => ?_⟩
  have g0 : N1 - a1 ≠ 0 := fun h => by rw [h, abs_zero] at hg; linarith
  rw [if_pos (sub_ne_zero.1 g0)]
  have e1 := n1.err
  have e2 := n2.err
  have dne : d1 ≠ a1 := fun h => by
    rw [h, abs_sub_comm] at e1
    linarith
  rw [if_pos dne] at hr
  split_ifs at hr with hz
  have eb := (congrArg Prod.snd (Option.some.inj hr)).symm
  dsimp only at eb
  rw [eb]
  clear hr eb ea HA hA fa a2 b2
  have tN : (1 : ℝ) / 10 ^ 200 ≤ 1e-40 * N1 := le_trans (b := 1e-40 * 7e-14) (by norm_num) (by linarith)
  -- the difference of the refractivities
  have hg1 : |fl (d1 - d2) - (N1 - N2)| ≤ 1.93e-14 * (N1 + N2) := by
    have s : |d1 - d2 - (N1 - N2)| ≤ 1.9e-14 * (N1 + N2) := by
      rw [show d1 - d2 - (N1 - N2) = (d1 - N1) - (d2 - N2) by ring]
      have := abs_sub (d1 - N1) (d2 - N2)
      linarith
    have s2 : |N1 - N2| ≤ N1 + N2 := by rw [abs_le]; constructor <;> linarith
    have s3 : |d1 - d2| ≤ 1.0001 * (N1 + N2) := by
      have := abs_add_le (d1 - d2 - (N1 - N2)) (N1 - N2)
      rw [sub_add_cancel] at this
      linarith
    have s4 := R.err (x := d1 - d2) (s3.trans (le_trans (b := 1) (by linarith) (by norm_num)))
    have := abs_sub_le (fl (d1 - d2)) (d1 - d2) (N1 - N2)
    generalize (1 : ℝ) / 10 ^ 200 = z at *
    linarith
  have G1 : |N1 - N2| ≤ N1 + N2 := by rw [abs_le]; constructor <;> linarith
  generalize fl (d1 - d2) = g at *
  generalize hG : N1 - N2 = G at *
  obtain ⟨S, hS⟩ : ∃ S, S = N1 + N2 := ⟨_, rfl⟩
  rw [← hS] at hg1 G1 ⊢
  have S0 : 1.4e-13 ≤ S := by linarith
  have S1 : S ≤ 0.032 := by linarith
  have NS : 0 < N1 * S := mul_pos P1 (by linarith)
  have NS1 : N1 * S ≤ 1e-3 := by nlinarith only [P1, u1, S0, S1]
  have NS2 : 9e-27 ≤ N1 * S := by nlinarith only [P1, l1, S0, S1]
  have hh : |fl (d1 * g) - N1 * G| ≤ 3.9e-14 * (N1 * S) := by
    have s : |d1 * g - N1 * G| ≤ 3.84e-14 * (N1 * S) := by
      rw [show d1 * g - N1 * G = d1 * (g - G) + (d1 - N1) * G by ring]
      refine (abs_add_le _ _).trans ?_
      rw [abs_mul, abs_mul, abs_of_pos n1.xpos]
      have a1 := mul_le_mul (n1.hi') hg1 (abs_nonneg _) (by linarith)
      have a2 := mul_le_mul e1 G1 (abs_nonneg _) (by linarith)
      linarith
    have s2 : |N1 * G| ≤ N1 * S := by rw [abs_mul, abs_of_pos P1]; exact mul_le_mul_of_nonneg_left G1 P1.le
    have s3 : |d1 * g| ≤ 1.0001 * (N1 * S) := by
      have := abs_add_le (d1 * g - N1 * G) (N1 * G)
      rw [sub_add_cancel] at this
      linarith
    have s4 := R.err (x := d1 * g) (s3.trans (le_trans (b := 1) (by linarith) (by norm_num)))
    have s5 : (1 : ℝ) / 10 ^ 200 ≤ 1e-40 * (N1 * S) := le_trans (b := 1e-40 * 9e-27) (by norm_num) (by linarith)
    have := abs_sub_le (fl (d1 * g)) (d1 * g) (N1 * G)
    generalize (1 : ℝ) / 10 ^ 200 = z at *
    linarith
  generalize fl (d1 * g) = h at *
  -- the denominator
  have A1 := abs_le.1 ha
  have hd : |fl (2 * fl (d1 - a1)) - 2 * (N1 - a1)| ≤ 1.94e-11 * |2 * (N1 - a1)| := by
    rw [abs_mul, abs_two]
    obtain ⟨M, hM⟩ : ∃ M, M = |N1 - a1| := ⟨_, rfl⟩
    rw [← hM] at hg ⊢
    have M1 : M ≤ 2 := by rw [hM]; refine (abs_sub _ _).trans (by rw [abs_of_pos P1]; linarith)
    have s : |d1 - a1 - (N1 - a1)| ≤ 1.9e-11 * M := by rw [sub_sub_sub_cancel_right]; linarith
    have s3 : |d1 - a1| ≤ 1.0001 * M := by
      have := abs_add_le (d1 - a1 - (N1 - a1)) (N1 - a1)
      rw [sub_add_cancel, ← hM] at this
      linarith
    have s4 := R.err (x := d1 - a1) (s3.trans (le_trans (b := 10) (by linarith) (by norm_num)))
    have s5 : |fl (d1 - a1) - (N1 - a1)| ≤ 1.92e-11 * M := by
      have := abs_sub_le (fl (d1 - a1)) (d1 - a1) (N1 - a1)
      generalize (1 : ℝ) / 10 ^ 200 = z at *
      linarith
    generalize fl (d1 - a1) = x at *
    have s6 : |2 * x - 2 * (N1 - a1)| ≤ 3.84e-11 * M := by rw [← mul_sub, abs_mul, abs_two]; linarith
    have s7 : |2 * x| ≤ 2.001 * M := by
      have := abs_add_le (2 * x - 2 * (N1 - a1)) (2 * (N1 - a1))
      rw [sub_add_cancel, abs_mul 2 (N1 - a1), abs_two, ← hM] at this
      linarith
    have s8 := R.err (x := 2 * x) (s7.trans (le_trans (b := 10) (by linarith) (by norm_num)))
    have := abs_sub_le (fl (2 * x)) (2 * x) (2 * (N1 - a1))
    generalize (1 : ℝ) / 10 ^ 200 = z at *
    linarith
  have D0 : 2e-3 * N1 ≤ |2 * (N1 - a1)| := by rw [abs_mul, abs_two]; linarith
  have Dn : 2 * (N1 - a1) ≠ 0 := mul_ne_zero (by norm_num) g0
  generalize fl (2 * fl (d1 - a1)) = den at *
  generalize 2 * (N1 - a1) = D at *
  have Dp : 0 < |D| := abs_pos.2 Dn
  have nG : |N1 * G| ≤ N1 * S := by rw [abs_mul, abs_of_pos P1]; exact mul_le_mul_of_nonneg_left G1 P1.le
  have key : N1 * S / |D| ≤ 500 * S := by rw [div_le_iff₀ Dp]; nlinarith only [D0, S0]
  have hX := R.quot hh hd (by norm_num) Dn (by
    rw [div_le_iff₀ Dp]
    have : 500 * S * |D| ≤ 10 ^ 239 * |D| := mul_le_mul_of_nonneg_right (le_trans (b := 16) (by linarith) (by norm_num)) Dp.le
    have k := (div_le_iff₀ Dp).1 key
    have : (10 : ℝ) ^ 240 = 10 * 10 ^ 239 := by norm_num
    rw [this]
    generalize (10 : ℝ) ^ 239 = z at *
    linarith)
  have X1 : |N1 * G / D| ≤ 500 * S := by
    rw [abs_div, div_le_iff₀ Dp]
    exact nG.trans ((div_le_iff₀ Dp).1 key)
  have hX2 : |fl (h / den) - N1 * G / D| ≤ 9.82e-9 * S := by
    refine hX.trans ?_
    have q : 1.0012 * (3.9e-14 * (N1 * S) + (1.94e-11 + 1.1104e-16) * |N1 * G|) / |D| ≤ 1.9463e-11 * (500 * S) := by
      rw [div_le_iff₀ Dp]
      have k := (div_le_iff₀ Dp).1 key
      linarith
    have s5 : (1 : ℝ) / 10 ^ 200 ≤ 1e-40 * S := le_trans (b := 1e-40 * 1.4e-13) (by norm_num) (by linarith)
    generalize (1 : ℝ) / 10 ^ 200 = z at *
    linarith
  generalize fl (h / den) = x at *
  generalize N1 * G / D = X at *
  have hY : |fl (1 + x) - (1 + X)| ≤ 9.83e-9 * S + 1.9e-15 := by
    have X2 := abs_le.1 X1
    have x2 := abs_le.1 hX2
    have s := R.err (x := 1 + x) (le_trans (b := 18) (by rw [abs_le]; constructor <;> linarith) (by norm_num))
    have s2 : |1 + x| ≤ 17.001 := by rw [abs_le]; constructor <;> linarith
    have := abs_sub_le (fl (1 + x)) (1 + x) (1 + X)
    rw [show 1 + x - (1 + X) = x - X by ring] at this
    generalize (1 : ℝ) / 10 ^ 200 = z at *
    linarith
  have Y1 : |1 + X| ≤ 17 := by
    have X2 := abs_le.1 X1
    rw [abs_le]; constructor <;> linarith
  generalize fl (1 + x) = y at *
  generalize 1 + X = Y at *
  have bF : 0 ≤ |b1| * F := mul_nonneg (abs_nonneg _) nf.pos.le
  have bF1 : |b1| * F ≤ 1e12 := by nlinarith only [hb, F1, F0, abs_nonneg b1]
  have bFe : |b1 * F| = |b1| * F := by rw [abs_mul, abs_of_pos nf.pos]
  generalize fl (b1 * f) = c at *
  generalize b1 * F = C at *
  generalize |b1| * F = E at *
  have y1 : |y| ≤ 17.001 := by
    have := abs_add_le (y - Y) Y
    rw [sub_add_cancel] at this
    linarith
  have m : |c * y - C * Y| ≤ E * (9.83e-9 * S + 1.9e-15) + 17.001 * (3.9e-14 * E + 1 / 10 ^ 200) := by
    rw [show c * y - C * Y = C * (y - Y) + y * (c - C) by ring]
    refine (abs_add_le _ _).trans ?_
    rw [abs_mul, abs_mul, bFe]
    have a1 := mul_le_mul_of_nonneg_left hY bF
    have a2 := mul_le_mul y1 fb (abs_nonneg _) (by norm_num)
    linarith
  have CY : |C * Y| ≤ 17 * E := by rw [abs_mul, bFe]; nlinarith only [Y1, bF, abs_nonneg Y]
  have SE : 0 ≤ E * S := mul_nonneg bF (by linarith)
  have SE1 : E * S ≤ 0.032 * E := by nlinarith only [bF, S1]
  have b : |c * y| ≤ 17.001 * E + 1 := by
    have := abs_add_le (c * y - C * Y) (C * Y)
    rw [sub_add_cancel] at this
    have t5 : (1 : ℝ) / 10 ^ 200 ≤ 1e-30 := by norm_num
    generalize (1 : ℝ) / 10 ^ 200 = z at *
    linarith
  have e := R.err (x := c * y) (b.trans (le_trans (b := 1e20) (by linarith) (by norm_num)))
  have b' : |c * y| ≤ 17.001 * E + 18 * (1 / 10 ^ 200) := by
    have := abs_add_le (c * y - C * Y) (C * Y)
    rw [sub_add_cancel] at this
    generalize (1 : ℝ) / 10 ^ 200 = z at *
    linarith
  have := abs_sub_le (fl (c * y)) (c * y) (C * Y)
  have t6 : 20 * ((1 : ℝ) / 10 ^ 200) ≤ 1e-180 := by norm_num
  generalize (1 : ℝ) / 10 ^ 200 = z at *
  generalize (1e-180 : ℝ) = z' at *
  linarith

example : ∃ a2 b2, flAtmdsp ieee (fun x y => x ^ y) 280 800 0.5 0.5 (ieee 1e-3) (ieee 1e-6) 0.7 = some (a2, b2) ∧
      |a2 - (palAtmdsp 280 800 0.5 0.5 (ieee 1e-3) (ieee 1e-6) 0.7).1| ≤ 4e-14 * |(palAtmdsp 280 800 0.5 0.5 (ieee 1e-3) (ieee 1e-6) 0.7).1| + 1e-190 := by
  have c := fun x : ℝ => fun h : |x| ≤ 1e-3 => ieee_rounding.err (x := x) (h.trans (by norm_num))
  have c1 := c 1e-3 (by norm_num)
  have c2 := c 1e-6 (by norm_num)
  have sz : ∀ x y : ℝ, |x| ≤ 1e-3 → |y - x| ≤ 1.1103e-16 * |x| + 1 / 10 ^ 200 → |y| ≤ 1 := fun x y h k => by
    have := abs_add_le (y - x) x
    rw [sub_add_cancel] at this
    have : (1 : ℝ) / 10 ^ 200 ≤ 1e-3 := by norm_num
    linarith
  obtain ⟨a2, b2, h, e, -⟩ := C145_accuracy ieee_rounding powExample_ok 280 800 0.5 0.5 (ieee 1e-3) (ieee 1e-6) 0.7 (by norm_num) (by norm_num) (by norm_num) (by
    rw [max_eq_left (by norm_num), min_eq_left (by norm_num : (0.5 : ℝ) ≤ 1), max_eq_left (by norm_num), min_eq_left (by norm_num : (280 : ℝ) ≤ 500), min_eq_left (by norm_num : (800 : ℝ) ≤ 10000)]
    have : (10 : ℝ) ^ (-8.7115 + 0.03477 * 280 : ℝ) ≤ 10 ^ (2 : ℝ) := rpow_le_rpow_of_exponent_le (by norm_num) (by norm_num)
    have : (10 : ℝ) ^ (2 : ℝ) = 100 := by norm_num
    linarith) (sz _ _ (by norm_num) c1) (sz _ _ (by norm_num) c2) (ieee_rounding.idem' (by norm_num))
  exact ⟨a2, b2, h, e⟩

example : flAtmdsp ieee (fun x y => x ^ y) 280 800 0.5 0.5 (1 / 1024) 0 0.5 = some (1 / 1024, 0) := by
  have h : ieee (1 / 1024) = 1 / 1024 := by
    have := ieee_rounding.keep 1 (-10) (by norm_num) (by norm_num) (by norm_num; exact (by norm_num : (1 / 1024 : ℝ) ≤ 1).trans (one_le_pow₀ (by norm_num)))
    norm_num at this ⊢
    exact this
  exact C145_same ieee_rounding powExample_ok _ _ _ _ _ _ h ieee_rounding.zero (by norm_num)

example : flAtmdsp ieee (fun x y => x ^ y) 280 (-1) (-1) 0.5 3 4 0.7 = some (3, 4) := C145_vacuum ieee_rounding _ _ _ _ _ _ _ (by norm_num) (by norm_num)

end Pal.Props
