import Verif.Lemmas.FlAngle

/-!
# Normalisation of angles in double precision: property C99
-/

namespace Pal.Props
open Real Pal

theorem fmod_congr (a : ℝ) : ∃ k : ℤ, fmod a D2 = a - k * D2 ∧ |(k : ℝ)| * D2 ≤ |a| :=
  ⟨truncR (a / D2), by unfold fmod; ring, (fmod_bounds a D2 D2_pos).2.2.2.2⟩

theorem fmod_self (a : ℝ) (h : |a| < D2) : fmod a D2 = a := by
  have hp := D2_pos
  have hb := abs_lt.1 h
  have : truncR (a / D2) = 0 := by
    unfold truncR
    split_ifs with h0
    · rw [Int.floor_eq_zero_iff]
      exact ⟨h0, by rw [div_lt_one hp]; exact hb.2⟩
    · rw [Int.ceil_eq_zero_iff]
      exact ⟨by rw [lt_div_iff₀ hp]; linarith, by linarith⟩
  unfold fmod
  rw [this]; simp

/-- The stored 2π is congruent to the true one within the error of so many turns. -/
theorem true_turns (k : ℤ) (a s : ℝ) (hk : |(k : ℝ)| * D2 ≤ |a| + s) : |(a - k * D2) - (a - k * (2 * π))| ≤ 4e-17 * (|a| + s) := by
  obtain ⟨p1, p2⟩ := D2_pi
  have hb := D2_b
  have e : (a - k * D2) - (a - k * (2 * π)) = k * (2 * π - D2) := by ring
  rw [e, abs_mul, abs_of_pos p1]
  have h1 : |(k : ℝ)| * (2 * π - D2) ≤ |(k : ℝ)| * 2.45e-16 := mul_le_mul_of_nonneg_left p2.le (abs_nonneg _)
  have h2 : |(k : ℝ)| * 6.28 ≤ |(k : ℝ)| * D2 := mul_le_mul_of_nonneg_left hb.1.le (abs_nonneg _)
  norm_num at *
  linarith [abs_nonneg (k : ℝ)]

/-- **C99** (palDrange): for every double-precision angle the result of palDrange is a double-precision number within ±π, exactly congruent to the angle modulo the stored value of 2π, and congruent to it modulo
the true 2π within 4e-17 (|angle| + 4); angles in range are not changed. -/
theorem C99_drange {fl : ℝ → ℝ} (R : Rounding fl) (a : ℝ) (ha : IsDouble fl a) (hab : |a| ≤ 2 ^ 1000) :
    let r := flDrange fl a
    |r| ≤ flPalPI fl ∧ flPalPI fl < π ∧ IsDouble fl r ∧ (∃ k : ℤ, r = a - k * flPal2PI fl) ∧
      (∃ k : ℤ, |r - (a - k * (2 * π))| ≤ 4e-17 * (|a| + 4)) ∧ (|a| ≤ flPalPI fl → r = a) := by
  intro r
  have hD := flPal2PI_eq R
  have hP := flPalPI_eq R
  have hp := D2_pos
  have hb := D2_b
  obtain ⟨b1, b2, b3, b4, -⟩ := fmod_bounds a D2 hp
  obtain ⟨k, hk, hk2⟩ := fmod_congr a
  have pi1 := D2_pi
  rw [hP, hD]
  have main : |r| ≤ D2 / 2 ∧ (∃ k : ℤ, r = a - k * D2 ∧ |(k : ℝ)| * D2 ≤ |a| + 4) ∧ fl r = r := by
    show |flDrange fl a| ≤ D2 / 2 ∧ (∃ k : ℤ, flDrange fl a = a - k * D2 ∧ _) ∧ fl (flDrange fl a) = flDrange fl a
    unfold flDrange
    dsimp only
    rw [hD, hP]
    have bb := abs_lt.1 b1
    have kk : ∀ j : ℤ, |(j : ℝ) - k| ≤ 1 → |a - j * D2| ≤ D2 / 2 → |(j : ℝ)| * D2 ≤ |a| + 4 := by
      intro j _ hj
      have e : |(j : ℝ)| * D2 = |a - (a - j * D2)| := by rw [absmul hp]; congr 1; ring
      rw [e]
      have := abs_sub a (a - j * D2)
      linarith
    split_ifs with c1 c2
    · have e1 : fmod a D2 - D2 = a - ((k + 1 : ℤ) : ℝ) * D2 := by rw [hk]; push_cast; ring
      have m1 : |fmod a D2 - D2| ≤ |fmod a D2| := by
        rw [abs_of_neg (by linarith), abs_of_pos (by linarith)]; linarith
      have m2 : |fmod a D2 - D2| ≤ D2 / 2 := by rw [abs_of_neg (by linarith)]; linarith
      have d := double_congr R a (fmod a D2 - D2) (k + 1) ha hab e1 (m1.trans b2) (by linarith)
      rw [d]
      exact ⟨m2, ⟨k + 1, e1, kk _ (by push_cast; norm_num) (by rw [← e1]; exact m2)⟩, d⟩
    · have e1 : fmod a D2 + D2 = a - ((k - 1 : ℤ) : ℝ) * D2 := by rw [hk]; push_cast; ring
      have m1 : |fmod a D2 + D2| ≤ |fmod a D2| := by
        rw [abs_of_pos (by linarith), abs_of_neg (by linarith)]; linarith
      have m2 : |fmod a D2 + D2| ≤ D2 / 2 := by rw [abs_of_pos (by linarith)]; linarith
      have d := double_congr R a (fmod a D2 + D2) (k - 1) ha hab e1 (m1.trans b2) (by linarith)
      rw [d]
      exact ⟨m2, ⟨k - 1, e1, kk _ (by push_cast; norm_num) (by rw [← e1]; exact m2)⟩, d⟩
    · have m2 : |fmod a D2| ≤ D2 / 2 := abs_le.2 ⟨by linarith, by linarith⟩
      exact ⟨m2, ⟨k, hk, by linarith⟩, double_congr R a _ k ha hab hk b2 (by linarith)⟩
  obtain ⟨m1, ⟨j, m2, m3⟩, m4⟩ := main
  refine ⟨m1, by linarith [pi1.1], m4, ⟨j, m2⟩, ⟨j, ?_⟩, ?_⟩
  · rw [m2]; exact true_turns j a 4 m3
  · intro h
    have e := fmod_self a (by linarith)
    show flDrange fl a = a
    unfold flDrange
    dsimp only
    rw [hD, hP, e]
    have := abs_le.1 h
    rw [if_neg (by linarith), if_neg (by linarith)]

/-- A thousand radians, in IEEE 754 arithmetic. -/
example : |flDrange ieee 1000| < π ∧ ∃ k : ℤ, |flDrange ieee 1000 - (1000 - k * (2 * π))| ≤ 5e-14 := by
  have h := C99_drange ieee_rounding 1000 (by have := ieee_rounding.int 1000 (by norm_num); unfold IsDouble; exact_mod_cast this) (big_le (by norm_num))
  obtain ⟨k, hk⟩ := h.2.2.2.2.1
  exact ⟨h.1.trans_lt h.2.1, k, hk.trans (by norm_num)⟩

/-- **C99** (palDranrm): for every double-precision angle the result of palDranrm is a double-precision number from 0 to the stored value of 2π, inclusive, which is less than the true 2π;
it is exactly congruent to an angle that is not negative, and congruent modulo the true 2π within 4e-17 (|angle| + 7) + 7e-16 to any angle; angles in range are not changed. -/
theorem C99_dranrm {fl : ℝ → ℝ} (R : Rounding fl) (a : ℝ) (ha : IsDouble fl a) (hab : |a| ≤ 2 ^ 1000) :
    let r := flDranrm fl a
    0 ≤ r ∧ r ≤ flD2PI fl ∧ flD2PI fl < 2 * π ∧ IsDouble fl r ∧ (0 ≤ a → ∃ k : ℤ, r = a - k * flD2PI fl) ∧
      (∃ k : ℤ, |r - (a - k * (2 * π))| ≤ 4e-17 * (|a| + 7) + 7e-16) ∧ (0 ≤ a → a < flD2PI fl → r = a) := by
  intro r
  have hD := flD2PI_eq R
  have hp := D2_pos
  have hb := D2_b
  obtain ⟨b1, b2, b3, b4, -⟩ := fmod_bounds a D2 hp
  obtain ⟨k, hk, hk2⟩ := fmod_congr a
  have pi1 := D2_pi
  have bb := abs_lt.1 b1
  have hrdef : r = if fmod a D2 < 0 then fl (fmod a D2 + D2) else fmod a D2 := by
    show flDranrm fl a = _
    unfold flDranrm flAnp
    dsimp only
    rw [hD]
  rw [hD]
  have dd : fl D2 = D2 := by
    have := R.keep 884279719003555 (-47) (by norm_num) (by norm_num) (by refine le_trans ?_ (le_trans (le_abs_self _) (big_le (x := 10 ^ 30) (by norm_num))); norm_num)
    have e : D2 = ((884279719003555 : ℤ) : ℝ) * 2 ^ (-47 : ℤ) := by unfold D2; norm_num
    rw [e]; exact this
  by_cases c : fmod a D2 < 0
  · rw [if_pos c] at hrdef
    have q0 : 0 ≤ fmod a D2 + D2 := by linarith
    have qb : |fmod a D2 + D2| ≤ 10 ^ 30 := by rw [abs_of_nonneg q0]; norm_num; linarith
    have an : ¬ 0 ≤ a := fun h => absurd (b3 h) (not_le.2 c)
    have e := R.err qb
    rw [abs_of_nonneg q0] at e
    have z : (1 : ℝ) / 10 ^ 200 ≤ 1e-20 := by norm_num
    generalize (1 : ℝ) / 10 ^ 200 = z' at *
    refine ⟨?_, ?_, by linarith [pi1.1], ?_, fun h => absurd h an, ⟨k - 1, ?_⟩, fun h => absurd h an⟩
    · rw [hrdef]; exact R.nonneg qb q0
    · rw [hrdef]
      have hDb : |D2| ≤ 10 ^ 30 := by rw [abs_of_pos hp]; norm_num; linarith
      have := R.le qb hDb (by linarith)
      rwa [dd] at this
    · rw [hrdef]
      obtain ⟨m, e, h1, h2, h3⟩ := R.rep _ (big_le qb)
      have h4 := R.le qb (by rw [abs_of_pos hp]; norm_num; linarith : |D2| ≤ 10 ^ 30) (by linarith)
      have h5 := R.nonneg qb q0
      show fl (fl (fmod a D2 + D2)) = fl (fmod a D2 + D2)
      rw [dd] at h4
      have h6 : |fl (fmod a D2 + D2)| ≤ 2 ^ 1000 := big_le (by rw [abs_of_nonneg h5]; norm_num; linarith)
      rw [h3] at h6 ⊢
      exact R.keep m e h1 h2 (by rw [absmul (by positivity)]; exact h6)
    · have t := true_turns (k - 1) a 7 (by
        push_cast
        have := abs_sub (k : ℝ) 1
        rw [abs_one] at this
        nlinarith)
      have e3 : a - ((k - 1 : ℤ) : ℝ) * D2 = fmod a D2 + D2 := by rw [hk]; push_cast; ring
      rw [e3] at t
      rw [hrdef]
      have := abs_sub_le (fl (fmod a D2 + D2)) (fmod a D2 + D2) (a - ((k - 1 : ℤ) : ℝ) * (2 * π))
      have h9 : (1.1103e-16 : ℝ) * (fmod a D2 + D2) ≤ 1.1103e-16 * 6.29 := mul_le_mul_of_nonneg_left (by linarith) (by norm_num)
      have h10 : (1.1103e-16 : ℝ) * 6.29 + 1e-20 ≤ 7e-16 := by norm_num
      linarith
  · rw [if_neg c] at hrdef
    have c := not_lt.1 c
    refine ⟨by rw [hrdef]; exact c, by rw [hrdef]; linarith, by linarith [pi1.1], ?_, fun _ => ⟨k, by rw [hrdef, hk]⟩, ⟨k, ?_⟩, ?_⟩
    · rw [hrdef]; exact double_congr R a _ k ha hab hk b2 b1.le
    · rw [hrdef, hk]
      have := true_turns k a 7 (by linarith)
      have : (0 : ℝ) ≤ 7e-16 := by norm_num
      linarith
    · intro h1 h2
      rw [hrdef]; exact fmod_self a (by rw [abs_of_nonneg h1]; exact h2)

/-- Minus a thousand radians, in IEEE 754 arithmetic. -/
example : 0 ≤ flDranrm ieee (-1000) ∧ flDranrm ieee (-1000) < 2 * π ∧ ∃ k : ℤ, |flDranrm ieee (-1000) - (-1000 - k * (2 * π))| ≤ 5e-14 := by
  have h := C99_dranrm ieee_rounding (-1000) (by have := ieee_rounding.int (-1000) (by norm_num); unfold IsDouble; push_cast at this; exact this) (big_le (by norm_num))
  obtain ⟨k, hk⟩ := h.2.2.2.2.2.1
  refine ⟨h.1, h.2.1.trans_lt h.2.2.1, k, hk.trans ?_⟩
  norm_num

/-- **C99** (the end of the range): the result of palDranrm can be the stored 2π itself, for tiny negative angles; it is then not in the half-open range in double precision, and normalising it again gives 0. -/
theorem C99_dranrm_end {fl : ℝ → ℝ} (R : Rounding fl) : flDranrm fl (-(1 / 2 ^ 60)) = flD2PI fl ∧ flDranrm fl (flDranrm fl (-(1 / 2 ^ 60))) = 0 := by
  have hD := flD2PI_eq R
  have hp := D2_pos
  have hb := D2_b
  have h1 : flDranrm fl (-(1 / 2 ^ 60)) = D2 := by
    unfold flDranrm flAnp
    dsimp only
    rw [hD, fmod_self _ (by rw [abs_neg, abs_of_pos (by positivity)]; norm_num; linarith), if_pos (by norm_num)]
    rw [R.eq_best _ 7074237752028440 (-50) (by rw [abs_of_pos (by norm_num; linarith)]; norm_num; linarith) (by norm_num) (by norm_num) (by norm_num)
      (by unfold D2; rw [abs_lt]; constructor <;> norm_num)]
    unfold D2; norm_num
  rw [h1]
  refine ⟨hD.symm, ?_⟩
  unfold flDranrm flAnp
  dsimp only
  rw [hD]
  have : fmod D2 D2 = 0 := by
    unfold fmod truncR
    rw [div_self hp.ne', if_pos (by norm_num)]; simp
  rw [this]; simp

/-- Rounding to single precision of numbers next to 2π. -/
theorem single_next_2pi (x : ℝ) (g1 : (13176795 - 1 / 2) / 2 ^ 21 < x) (g2 : x < (13176795 + 1 / 2) / 2 ^ 21) : ieeeSingle x = 13176795 / 2 ^ 21 := by
  have logs : ∀ x : ℝ, 4 ≤ x → x < 8 → max (Int.log 2 |x|) (-126) - 23 = -21 := by
    intro x h1 h2
    rw [abs_of_pos (by linarith)]
    have l1 : 2 ≤ Int.log 2 x := by
      rw [← Int.zpow_le_iff_le_log (by norm_num) (by linarith)]; norm_num; exact h1
    have l2 : Int.log 2 x < 3 := by
      rw [← Int.lt_zpow_iff_log_lt (by norm_num) (by linarith)]; norm_num; exact h2
    have : Int.log 2 x = 2 := by omega
    rw [this]; norm_num
  have near : ∀ y : ℝ, (13176795 - 1 / 2 : ℝ) < y → y < 13176795 + 1 / 2 → rne y = 13176795 := by
    intro y h1 h2
    have h := rne_best y 13176795
    have h3 := abs_lt.2 (show -(1 / 2 : ℝ) < ((13176795 : ℤ) : ℝ) - y ∧ ((13176795 : ℤ) : ℝ) - y < 1 / 2 by push_cast; constructor <;> linarith)
    have h4 := abs_le.1 (h.trans h3.le)
    have h5 := abs_lt.1 (h.trans_lt h3)
    have h6 : (rne y : ℝ) < 13176795 + 1 := by linarith
    have h7 : (13176795 - 1 : ℝ) < rne y := by linarith
    have h8 : rne y < 13176795 + 1 := by exact_mod_cast h6
    have h9 : (13176795 - 1 : ℤ) < rne y := by exact_mod_cast h7
    omega
  have single : ∀ x : ℝ, (13176795 - 1 / 2) / 2 ^ 21 < x → x < (13176795 + 1 / 2) / 2 ^ 21 → ieeeSingle x = 13176795 / 2 ^ 21 := by
    intro x h1 h2
    unfold ieeeSingle
    rw [logs x (by norm_num at h1; linarith) (by norm_num at h2; linarith)]
    have e : x / (2 : ℝ) ^ (-21 : ℤ) = x * 2 ^ 21 := by norm_num; ring
    rw [e, near _ (by rw [div_lt_iff₀ (by positivity)] at h1; linarith) (by rw [lt_div_iff₀ (by positivity)] at h2; linarith)]
    norm_num
  exact single x g1 g2

/-- 2π in single precision. -/
theorem single_2pi : ieeeSingle (flPal2PI ieee) = 13176795 / 2 ^ 21 := by
  rw [flPal2PI_eq ieee_rounding]
  exact single_next_2pi D2 (by unfold D2; norm_num) (by unfold D2; norm_num)

/-- **C99** (single precision): palRanorm returns an angle above 2π for some negative angles, e.g. -2^-40. -/
theorem C99_single_refuted : flRanorm (-(1 / 2 ^ 40)) = 13176795 / 2 ^ 21 ∧ 2 * π < flRanorm (-(1 / 2 ^ 40)) := by
  have hD := flPal2PI_eq ieee_rounding
  have single := single_next_2pi
  have hF := single_2pi
  have e1 : fmod (-(1 / 2 ^ 40)) (13176795 / 2 ^ 21) = -(1 / 2 ^ 40) := by
    have : truncR (-(1 / 2 ^ 40) / (13176795 / 2 ^ 21)) = 0 := by
      unfold truncR
      rw [if_neg (by norm_num), Int.ceil_eq_zero_iff]
      constructor <;> norm_num
    unfold fmod; rw [this]; simp
  have hv : flRanorm (-(1 / 2 ^ 40)) = 13176795 / 2 ^ 21 := by
    unfold flRanorm
    dsimp only
    rw [hF, e1, if_pos (by norm_num), hD]
    have h := ieee_rounding.err (x := -(1 / 2 ^ 40) + D2) (by have := D2_b; rw [abs_of_pos (by norm_num; linarith)]; norm_num; linarith)
    have hb := D2_b
    rw [abs_of_pos (show 0 < -(1 / 2 ^ 40) + D2 by norm_num; linarith)] at h
    have z : (1 : ℝ) / 10 ^ 200 ≤ 1e-12 := by norm_num
    generalize (1 : ℝ) / 10 ^ 200 = z' at *
    have h' := abs_le.1 h
    generalize ieee (-(1 / 2 ^ 40) + D2) = y at *
    refine single y ?_ ?_
    · have : (13176795 - 1 / 2) / 2 ^ 21 + 2e-12 + 7e-16 + 1 / 2 ^ 40 < D2 := by unfold D2; norm_num
      norm_num at *
      linarith
    · have : D2 + 2e-12 + 7e-16 < (13176795 + 1 / 2) / 2 ^ 21 := by unfold D2; norm_num
      norm_num at *
      linarith
  refine ⟨hv, ?_⟩
  rw [hv]
  have := pi_lt_d20
  norm_num at *
  linarith

/-- Rounding to single precision of a number between 0 and 8. -/
theorem single_err (x : ℝ) (h0 : 0 ≤ x) (h8 : x < 8) : |ieeeSingle x - x| ≤ 1 / 2 ^ 22 ∧ 0 ≤ ieeeSingle x := by
  unfold ieeeSingle
  obtain ⟨k, hk⟩ : ∃ k : ℤ, k = max (Int.log 2 |x|) (-126) - 23 := ⟨_, rfl⟩
  rw [← hk]
  have hk2 : k ≤ -21 := by
    rcases eq_or_lt_of_le h0 with h | h
    · rw [hk, ← h, abs_zero, Int.log_zero_right]; norm_num
    · rw [abs_of_pos h] at hk
      have l2 : Int.log 2 x < 3 := by
        rw [← Int.lt_zpow_iff_log_lt (by norm_num) h]; norm_num; exact h8
      omega
  have p : (0 : ℝ) < 2 ^ k := by positivity
  have pk : (2 : ℝ) ^ k ≤ 2 ^ (-21 : ℤ) := zpow_le_zpow_right₀ (by norm_num) hk2
  have r := rne_err (x / 2 ^ k)
  have r0 : (0 : ℤ) ≤ rne (x / 2 ^ k) := (Int.floor_nonneg.2 (by positivity)).trans (rne_bounds _).1
  have r0' : (0 : ℝ) ≤ rne (x / 2 ^ k) := by exact_mod_cast r0
  refine ⟨?_, mul_nonneg r0' p.le⟩
  have e : (rne (x / 2 ^ k) : ℝ) * 2 ^ k - x = ((rne (x / 2 ^ k) : ℝ) - x / 2 ^ k) * 2 ^ k := by field_simp
  rw [e, abs_mul, abs_of_pos p]
  have := mul_le_mul r pk p.le (by norm_num)
  norm_num at this ⊢
  linarith

/-- **C99** (single precision): for every `float` argument palRanorm returns an angle between 0 and 13176795/2^21 (2π rounded to single precision, 1.75e-7 above 2π), which differs from the argument by a whole number of turns, to
2.5e-7 plus 2.8e-8 times the argument. -/
theorem C99_single (angle : ℝ) (hs : ∃ m e : ℤ, |m| ≤ 2 ^ 24 ∧ angle = m * 2 ^ e) :
    0 ≤ flRanorm angle ∧ flRanorm angle ≤ 13176795 / 2 ^ 21 ∧ ∃ k : ℤ, |flRanorm angle - (angle + k * (2 * π))| ≤ 2.5e-7 + 2.8e-8 * |angle| := by
  have hD := flPal2PI_eq ieee_rounding
  have hb : 6.28318530717958 < D2 ∧ D2 < 6.283185307179587 := by unfold D2; norm_num
  have b1 := pi_gt_d20
  have b2 := pi_lt_d20
  obtain ⟨f1, f2, f3, f4, f5⟩ := fmod_bounds angle (13176795 / 2 ^ 21) (by positivity)
  have ex : fmod angle (13176795 / 2 ^ 21) = angle - 13176795 / 2 ^ 21 * truncR (angle / (13176795 / 2 ^ 21)) := rfl
  obtain ⟨n, hn⟩ : ∃ n, n = truncR (angle / (13176795 / 2 ^ 21)) := ⟨_, rfl⟩
  rw [← hn] at f5 ex
  have turn : |(n : ℝ) * (13176795 / 2 ^ 21 - 2 * π)| ≤ 2.8e-8 * |angle| := by
    rw [abs_mul]
    have : |13176795 / 2 ^ 21 - 2 * π| ≤ 2.79e-8 * (13176795 / 2 ^ 21) := by rw [abs_le]; constructor <;> norm_num at * <;> linarith
    have h1 := mul_le_mul_of_nonneg_left this (abs_nonneg (n : ℝ))
    have a0 := abs_nonneg angle
    calc |(n : ℝ)| * |13176795 / 2 ^ 21 - 2 * π| ≤ |(n : ℝ)| * (2.79e-8 * (13176795 / 2 ^ 21)) := h1
      _ = 2.79e-8 * (|(n : ℝ)| * (13176795 / 2 ^ 21)) := by ring
      _ ≤ 2.79e-8 * |angle| := mul_le_mul_of_nonneg_left f5 (by norm_num)
      _ ≤ 2.8e-8 * |angle| := mul_le_mul_of_nonneg_right (by norm_num) a0
  unfold flRanorm
  dsimp only
  rw [single_2pi, hD]
  split_ifs with hneg
  · have low : -(13176795 / 2 ^ 21) + 1 / 2 ^ 21 ≤ fmod angle (13176795 / 2 ^ 21) := by
      obtain ⟨m, e, hm, ha⟩ := hs
      rcases le_or_gt (-21) e with he | he
      · obtain ⟨q, hq⟩ : ∃ q : ℕ, e = -21 + q := ⟨(e + 21).toNat, by omega⟩
        have e1 : fmod angle (13176795 / 2 ^ 21) = ((m * 2 ^ q - 13176795 * n : ℤ) : ℝ) / 2 ^ 21 := by
          rw [ex, ha, hq, zpow_add₀ (by norm_num)]
          push_cast
          norm_num
          ring
        have e2 := (abs_lt.1 f1).1
        rw [e1] at e2 ⊢
        have e3 : (-13176795 : ℝ) < ((m * 2 ^ q - 13176795 * n : ℤ) : ℝ) := by
          rw [← neg_div, div_lt_div_iff_of_pos_right (by positivity)] at e2
          exact e2
        have e4 : -13176795 < m * 2 ^ q - 13176795 * n := by exact_mod_cast e3
        have e5 : -13176795 + 1 ≤ m * 2 ^ q - 13176795 * n := e4
        have e6 : (-13176795 + 1 : ℝ) ≤ ((m * 2 ^ q - 13176795 * n : ℤ) : ℝ) := by exact_mod_cast e5
        rw [← neg_div, ← add_div]
        exact div_le_div_of_nonneg_right e6 (by positivity)
      · have hsz : |angle| ≤ 4 := by
          rw [ha, abs_mul, abs_of_pos (by positivity : (0 : ℝ) < 2 ^ e)]
          have h1 : |(m : ℝ)| ≤ 2 ^ 24 := by exact_mod_cast hm
          have h2 : (2 : ℝ) ^ e ≤ 2 ^ (-22 : ℤ) := zpow_le_zpow_right₀ (by norm_num) (by omega)
          have := mul_le_mul h1 h2 (by positivity) (by positivity)
          norm_num at this ⊢
          linarith
        have := (abs_le.1 (f2.trans hsz)).1
        norm_num at *
        linarith
    obtain ⟨y, hy⟩ : ∃ y, y = fmod angle (13176795 / 2 ^ 21) + D2 := ⟨_, rfl⟩
    have y0 : 1e-7 ≤ y := by
      rw [hy]
      norm_num at *
      linarith
    have y1 : y < D2 := by rw [hy]; linarith
    rw [← hy]
    have hr := ieee_rounding.err (x := y) (by rw [abs_of_pos (by norm_num at *; linarith)]; norm_num at *; linarith)
    rw [abs_of_pos (show 0 < y by norm_num at *; linarith)] at hr
    have z : (1 : ℝ) / 10 ^ 200 ≤ 1e-17 := by norm_num
    have hr' : |ieee y - y| ≤ 1e-15 := by
      generalize (1 : ℝ) / 10 ^ 200 = z' at *
      norm_num at *
      linarith
    clear hr z
    have w0 : 0 ≤ ieee y := ieee_nonneg (by norm_num at *; linarith)
    have w1 := abs_le.1 hr'
    generalize ieee y = w at *
    have w8 : w < 8 := by norm_num at *; linarith
    obtain ⟨s1, s2⟩ := single_err w w0 w8
    refine ⟨s2, ?_, 1 - n, ?_⟩
    · rcases lt_or_ge w 5 with h5 | h5
      · have := (abs_le.1 s1).2
        norm_num at *
        linarith
      · rcases lt_or_ge ((13176795 - 1 / 2) / 2 ^ 21) w with h6 | h6
        · have h7 : w < (13176795 + 1 / 2) / 2 ^ 21 := by norm_num at *; linarith
          rw [single_next_2pi w h6 h7]
        · have := (abs_le.1 s1).2
          norm_num at *
          linarith
    · have e : ieeeSingle w - (angle + ((1 - n : ℤ) : ℝ) * (2 * π)) = (ieeeSingle w - w) + (w - y) + (D2 - 2 * π) - n * (13176795 / 2 ^ 21 - 2 * π) := by
        rw [hy, ex]; push_cast; ring
      rw [e]
      have d : |D2 - 2 * π| ≤ 1e-15 := by unfold D2; rw [abs_le]; constructor <;> norm_num at * <;> linarith
      have t1 := abs_sub ((ieeeSingle w - w) + (w - y) + (D2 - 2 * π)) (n * (13176795 / 2 ^ 21 - 2 * π))
      have t2 := abs_add_le ((ieeeSingle w - w) + (w - y)) (D2 - 2 * π)
      have t3 := abs_add_le (ieeeSingle w - w) (w - y)
      norm_num at *
      linarith
  · refine ⟨not_lt.1 hneg, (le_abs_self _).trans f1.le, -n, ?_⟩
    have e : fmod angle (13176795 / 2 ^ 21) - (angle + ((-n : ℤ) : ℝ) * (2 * π)) = -(n * (13176795 / 2 ^ 21 - 2 * π)) := by
      rw [ex]; push_cast; ring
    rw [e, abs_neg]
    norm_num at *
    linarith

example : ∃ m e : ℤ, |m| ≤ 2 ^ 24 ∧ (-1000.5 : ℝ) = m * 2 ^ e := ⟨-2001, -1, by norm_num, by norm_num⟩

end Pal.Props
