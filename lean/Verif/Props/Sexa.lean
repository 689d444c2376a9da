import Verif.Lemmas.Sexa
import Mathlib.Analysis.Real.Pi.Bounds

/-!
# Sexagesimal conversions: properties C89 and C90
-/

namespace Pal.Props
open Real Pal Pal.Spec

/-! ## C89: days and angles into hours (degrees), minutes, seconds and fraction -/

/-- **C89** (days): with between -9 and 9 places and no more than two thousand million hours, palDd2tf gives the sign of the interval and well-formed fields
showing its size rounded to the last place. -/
theorem C89_days (ndp : ℤ) (days : ℝ) (h9 : ndp ≤ 9) (h9' : -9 ≤ ndp) (hd : 24 * |days| ≤ 2000000000) :
    ∃ v, palDd2tf ndp days = some v ∧ (0 ≤ days → v.sign = '+') ∧ (days < 0 → v.sign = '-') ∧ ShowsRounded ndp v (86400 * |days|) := by
  obtain ⟨v, h1, h2, h3⟩ := eraD2tf_shows ndp days h9 h9' hd
  exact ⟨v, h1, fun h => by rw [h2, if_pos h], fun h => by rw [h2, if_neg (by linarith)], h3⟩

example : ∃ v, palDd2tf 3 (-987654321 / 1000000000) = some v ∧ v.sign = '-' ∧ ShowsRounded 3 v (86400 * |-987654321 / 1000000000|) := by
  obtain ⟨v, h1, _, h2, h3⟩ := C89_days 3 (-987654321 / 1000000000) (by norm_num) (by norm_num) (by rw [abs_of_neg (by norm_num)]; norm_num)
  exact ⟨v, h1, h2 (by norm_num), h3⟩

/-- **C89** (time): palDr2tf shows an angle in radians as time, 24 hours to the circle. -/
theorem C89_time (ndp : ℤ) (angle : ℝ) (h9 : ndp ≤ 9) (h9' : -9 ≤ ndp) (hd : |angle| ≤ 1000000) :
    ∃ v, palDr2tf ndp angle = some v ∧ (0 ≤ angle → v.sign = '+') ∧ (angle < 0 → v.sign = '-') ∧
      ShowsRounded ndp v (86400 * (|angle| / (2 * π))) := by
  have hpi := pi_gt_three
  have ha : |angle / (2 * π)| = |angle| / (2 * π) := by rw [abs_div, abs_of_pos (by positivity : 0 < 2 * π)]
  have hb : |angle| / (2 * π) ≤ |angle| := by rw [div_le_iff₀ (by positivity)]; nlinarith [abs_nonneg angle]
  obtain ⟨v, h1, h2, h3, h4⟩ := C89_days ndp (angle / (2 * π)) h9 h9' (by rw [ha]; linarith)
  rw [ha] at h4
  exact ⟨v, h1, fun h => h2 (by positivity), fun h => h3 (div_neg_of_neg_of_pos h (by positivity)), h4⟩

example : ∃ v, palDr2tf 4 (-3.01234) = some v ∧ v.sign = '-' := by
  obtain ⟨v, h1, _, h2, _⟩ := C89_time 4 (-3.01234) (by norm_num) (by norm_num) (by rw [abs_of_neg (by norm_num)]; norm_num)
  exact ⟨v, h1, h2 (by norm_num)⟩

/-- **C89** (degrees): palDr2af shows an angle in radians in degrees, 360 to the circle. -/
theorem C89_degrees (ndp : ℤ) (angle : ℝ) (h9 : ndp ≤ 9) (h9' : -9 ≤ ndp) (hd : |angle| ≤ 1000000) :
    ∃ v, palDr2af ndp angle = some v ∧ (0 ≤ angle → v.sign = '+') ∧ (angle < 0 → v.sign = '-') ∧
      ShowsRounded ndp v (1296000 * (|angle| / (2 * π))) := by
  have hpi := pi_gt_three
  have hf : 0 < 15 / (2 * π) := by positivity
  have ha : |angle * (15 / (2 * π))| = 15 * (|angle| / (2 * π)) := by rw [abs_mul, abs_of_pos hf]; ring
  have hb : |angle| / (2 * π) ≤ |angle| := by rw [div_le_iff₀ (by positivity)]; nlinarith [abs_nonneg angle]
  obtain ⟨v, h1, h2, h3, h4⟩ := C89_days ndp (angle * (15 / (2 * π))) h9 h9' (by rw [ha]; linarith)
  rw [ha] at h4
  exact ⟨v, h1, fun h => h2 (by positivity), fun h => h3 (mul_neg_of_neg_of_pos h hf), by convert h4 using 1; ring⟩

example : ∃ v, palDr2af 4 2.345 = some v ∧ v.sign = '+' := by
  obtain ⟨v, h1, h2, _⟩ := C89_degrees 4 2.345 (by norm_num) (by norm_num) (by rw [abs_of_pos (by norm_num)]; norm_num)
  exact ⟨v, h1, h2 (by norm_num)⟩

/-- **C89** (the specification leaves no choice): at most one set of fields with a given sign shows a given time. -/
theorem C89_unique (ndp : ℤ) (t : ℝ) (v w : Hmsf) (hsign : v.sign = w.sign) (hv : ShowsRounded ndp v t) (hw : ShowsRounded ndp w t) : v = w :=
  shows_unique ndp t v w hsign hv hw

/-- **C89** (overflow): with ten places or more, or minus ten or fewer, the computation overflows a C int, whatever the interval. -/
theorem C89_overflow_places (ndp : ℤ) (days : ℝ) (h : 9 < ndp ∨ ndp < -9) : palDd2tf ndp days = none := by
  unfold palDd2tf eraD2tf
  dsimp only
  rcases h with h | h
  · rw [if_neg (by omega), if_pos]
    have : (10 : ℤ) ^ 10 ≤ 10 ^ ndp.toNat := pow_le_pow_right₀ (by norm_num) (by omega)
    unfold intMax
    omega
  · rw [if_pos]
    refine ⟨by omega, ?_⟩
    have hm : ∀ k : ℕ, (3600000000 : ℤ) ≤ d2tfUnit (10 + k) := by
      intro k
      induction k with
      | zero => decide
      | succ k ih =>
        have : d2tfUnit (10 + (k + 1)) = d2tfUnit (10 + k) * 10 := by
          show d2tfUnit (10 + k) * (if 10 + k + 1 = 2 ∨ 10 + k + 1 = 4 then 6 else 10) = _
          rw [if_neg (by omega)]
        omega
    obtain ⟨k, hk⟩ : ∃ k, (-ndp).toNat = 10 + k := ⟨(-ndp).toNat - 10, by omega⟩
    rw [hk]
    have := hm k
    unfold intMax
    omega

/-- **C89** (overflow): and so it does for an interval of more hours than an int holds. -/
theorem C89_overflow_hours (ndp : ℤ) (days : ℝ) (h0 : 0 ≤ ndp) (h9 : ndp ≤ 9) (hd : 2147483648 ≤ 24 * |days|) : palDd2tf ndp days = none := by
  unfold palDd2tf
  rw [eraD2tf_eq ndp days h9 (by omega) (erfaNint ((10 : ℝ) ^ ndp.toNat * (86400 * |days|))) (if_neg (by omega)).symm, if_pos]
  have hpos : (0 : ℝ) < 10 ^ ndp.toNat := by positivity
  have hb : (10 : ℝ) ^ ndp.toNat * 60 * 60 * 2147483648 ≤ 10 ^ ndp.toNat * (86400 * |days|) := by nlinarith
  have hc : (10 : ℤ) ^ ndp.toNat * 60 * 60 * 2147483648 ≤ erfaNint ((10 : ℝ) ^ ndp.toNat * (86400 * |days|)) := by
    unfold erfaNint
    rw [Int.le_floor]
    push_cast
    linarith
  have : (2147483648 : ℤ) ≤ erfaNint ((10 : ℝ) ^ ndp.toNat * (86400 * |days|)) / ((10 : ℤ) ^ ndp.toNat * 60 * 60) := by
    apply Int.le_ediv_of_mul_le (by positivity)
    linarith
  unfold intMax
  omega

example : palDd2tf 10 0 = none ∧ palDd2tf 0 1000000000 = none :=
  ⟨C89_overflow_places 10 0 (by norm_num), C89_overflow_hours 0 1000000000 (by norm_num) (by norm_num) (by rw [abs_of_pos (by norm_num)]; norm_num)⟩

/-- **C89** (a full turn): an interval of less than a day shows at most 24 hours; it shows 24:00:00 exactly when it is within half of the last place of a day, so
the hour field is not confined to 0-23. -/
theorem C89_full_day (ndp : ℤ) (days : ℝ) (h9 : ndp ≤ 9) (h4 : -4 ≤ ndp) (hd : |days| < 1) :
    ∃ v, palDd2tf ndp days = some v ∧ v.h ≤ 24 ∧ (v.h = 24 ↔ 86400 * (1 - |days|) ≤ lastPlace ndp / 2) ∧
      (v.h = 24 → v.m = 0 ∧ v.s = 0 ∧ v.f = 0) := by
  obtain ⟨v, h1, -, -, ⟨h0, hm, hs, hf⟩, ⟨k, hk⟩, h3, h4'⟩ := C89_days ndp days h9 (by omega) (by linarith)
  have hp := lastPlace_pos ndp
  obtain ⟨K, hK⟩ : ∃ K : ℤ, (86400 : ℝ) = K * lastPlace ndp := by
    unfold lastPlace
    by_cases hn : 0 ≤ ndp
    · refine ⟨86400 * 10 ^ ndp.toNat, ?_⟩
      rw [if_pos hn]
      push_cast
      field_simp
    · have : ndp = -1 ∨ ndp = -2 ∨ ndp = -3 ∨ ndp = -4 := by omega
      rcases this with rfl | rfl | rfl | rfl
      · exact ⟨8640, by norm_num⟩
      · exact ⟨1440, by norm_num⟩
      · exact ⟨144, by norm_num⟩
      · exact ⟨24, by norm_num⟩
  have hfR : (0 : ℝ) ≤ v.f / 10 ^ ndp.toNat := by
    have : (0 : ℝ) ≤ v.f := by exact_mod_cast hf.1
    positivity
  have hfR1 : (v.f : ℝ) / 10 ^ ndp.toNat < 1 := by
    rw [div_lt_one (by positivity)]
    exact_mod_cast hf.2
  have hmR : (0 : ℝ) ≤ v.m := by exact_mod_cast hm.1
  have hsR : (0 : ℝ) ≤ v.s := by exact_mod_cast hs.1
  have hmR1 : (v.m : ℝ) ≤ 59 := by exact_mod_cast (show v.m ≤ 59 by omega)
  have hsR1 : (v.s : ℝ) ≤ 59 := by exact_mod_cast (show v.s ≤ 59 by omega)
  -- it cannot show more than a day
  have hle : shownSeconds ndp v ≤ 86400 := by
    have : (k : ℝ) < K + 1 := by
      have : (k : ℝ) * lastPlace ndp < (K + 1) * lastPlace ndp := by rw [hk] at h3; linarith
      exact lt_of_mul_lt_mul_right this hp.le
    have : k ≤ K := by
      have : k < K + 1 := by exact_mod_cast this
      omega
    have : (k : ℝ) ≤ K := by exact_mod_cast this
    rw [hk, hK]
    exact mul_le_mul_of_nonneg_right this hp.le
  have hun : shownSeconds ndp v = 3600 * v.h + 60 * v.m + v.s + v.f / 10 ^ ndp.toNat := rfl
  have h24 : v.h ≤ 24 := by
    have : (v.h : ℝ) < 25 := by linarith
    have : v.h < 25 := by exact_mod_cast this
    omega
  have hrest : v.h = 24 → v.m = 0 ∧ v.s = 0 ∧ v.f = 0 := by
    intro h
    rw [h] at hun
    push_cast at hun
    have e1 : (v.m : ℝ) = 0 := by linarith
    have e2 : (v.s : ℝ) = 0 := by linarith
    have e3 : (v.f : ℝ) / 10 ^ ndp.toNat = 0 := by linarith
    have hne : (10 : ℝ) ^ ndp.toNat ≠ 0 := by positivity
    rw [div_eq_zero_iff] at e3
    exact ⟨by exact_mod_cast e1, by exact_mod_cast e2, by exact_mod_cast e3.resolve_right hne⟩
  refine ⟨v, h1, h24, ⟨?_, ?_⟩, hrest⟩
  · intro h
    obtain ⟨a, b, c⟩ := hrest h
    rw [h, a, b, c] at hun
    norm_num at hun
    linarith
  · intro h
    by_contra hne
    have h23 : v.h ≤ 23 := by omega
    have h23R : (v.h : ℝ) ≤ 23 := by exact_mod_cast h23
    have hlt : shownSeconds ndp v < 86400 := by linarith
    have hkK : (k : ℝ) + 1 ≤ K := by
      have : (k : ℝ) * lastPlace ndp < K * lastPlace ndp := by rw [← hk, ← hK]; exact hlt
      have : (k : ℝ) < K := lt_of_mul_lt_mul_right this hp.le
      have : k < K := by exact_mod_cast this
      exact_mod_cast (show k + 1 ≤ K by omega)
    have : ((k : ℝ) + 1) * lastPlace ndp ≤ 86400 := by rw [hK]; exact mul_le_mul_of_nonneg_right hkK hp.le
    linarith

example : ∃ v, palDd2tf 0 0.999999 = some v ∧ v.h = 24 ∧ v.m = 0 ∧ v.s = 0 := by
  obtain ⟨v, h1, -, h2, h3⟩ := C89_full_day 0 0.999999 (by norm_num) (by norm_num) (by rw [abs_of_pos (by norm_num)]; norm_num)
  have h := h2.2 (by rw [abs_of_pos (by norm_num)]; unfold lastPlace; norm_num)
  exact ⟨v, h1, h, (h3 h).1, (h3 h).2.1⟩

/-! ## C90: and back -/

/-- **C90** (values): for every status the angle is that of the absolute values of the fields. -/
theorem C90_values (d m : ℤ) (s : ℝ) :
    (palDtf2d d m s).1 * 86400 = 3600 * |(d : ℝ)| + 60 * |(m : ℝ)| + |s| ∧
    (palDtf2r d m s).1 * (86400 / (2 * π)) = 3600 * |(d : ℝ)| + 60 * |(m : ℝ)| + |s| ∧
    (palDaf2r d m s).1 * (1296000 / (2 * π)) = 3600 * |(d : ℝ)| + 60 * |(m : ℝ)| + |s| := by
  have hpi := pi_pos.ne'
  unfold palDtf2d palDtf2r palDaf2r ds2r das2r
  dsimp only
  push_cast
  refine ⟨by ring, ?_, ?_⟩ <;> field_simp <;> ring

/-- **C90** (status): 0 exactly for fields in range; 1, 2 or 3 for the first field out of range. -/
theorem C90_status (d m : ℤ) (s : ℝ) :
    let ok2 := 0 ≤ m ∧ m ≤ 59
    let ok3 := 0 ≤ s ∧ s < 60
    (∀ st top, (st = (palDtf2d d m s).2 ∧ top = 23) ∨ (st = (palDtf2r d m s).2 ∧ top = 23) ∨ (st = (palDaf2r d m s).2 ∧ top = (359 : ℤ)) →
      (st = 1 ↔ ¬ (0 ≤ d ∧ d ≤ top)) ∧ (st = 2 ↔ (0 ≤ d ∧ d ≤ top) ∧ ¬ ok2) ∧ (st = 3 ↔ (0 ≤ d ∧ d ≤ top) ∧ ok2 ∧ ¬ ok3) ∧
      (st = 0 ↔ (0 ≤ d ∧ d ≤ top) ∧ ok2 ∧ ok3)) := by
  have key : ∀ top : ℤ, (sexaStatus top d m s = 1 ↔ ¬ (0 ≤ d ∧ d ≤ top)) ∧ (sexaStatus top d m s = 2 ↔ (0 ≤ d ∧ d ≤ top) ∧ ¬ (0 ≤ m ∧ m ≤ 59)) ∧
      (sexaStatus top d m s = 3 ↔ (0 ≤ d ∧ d ≤ top) ∧ (0 ≤ m ∧ m ≤ 59) ∧ ¬ (0 ≤ s ∧ s < 60)) ∧
      (sexaStatus top d m s = 0 ↔ (0 ≤ d ∧ d ≤ top) ∧ (0 ≤ m ∧ m ≤ 59) ∧ (0 ≤ s ∧ s < 60)) := by
    intro top
    unfold sexaStatus
    by_cases a : d < 0 ∨ d > top
    · rw [if_pos a]
      have : ¬ (0 ≤ d ∧ d ≤ top) := by omega
      simp [this]
    · have a' : 0 ≤ d ∧ d ≤ top := by omega
      rw [if_neg a]
      by_cases b : m < 0 ∨ m > 59
      · rw [if_pos b]
        have : ¬ (0 ≤ m ∧ m ≤ 59) := by omega
        simp [this, a']
      · have b' : 0 ≤ m ∧ m ≤ 59 := by omega
        rw [if_neg b]
        by_cases c : s < 0 ∨ s ≥ 60
        · rw [if_pos c]
          have : ¬ (0 ≤ s ∧ s < 60) := by
            rintro ⟨x, y⟩; rcases c with c | c <;> linarith
          simp only [a', b', this]
          norm_num
        · have c' : 0 ≤ s ∧ s < 60 := by
            rw [not_or, not_lt, ge_iff_le, not_le] at c
            exact c
          rw [if_neg c]
          simp only [a', b', c']
          norm_num
  intro ok2 ok3 st top h
  rcases h with ⟨rfl, rfl⟩ | ⟨rfl, rfl⟩ | ⟨rfl, rfl⟩
  · exact key 23
  · exact key 23
  · exact key 359

example : (palDtf2d 24 0 0).2 = 1 ∧ (palDaf2r 24 0 60).2 = 3 :=
  ⟨((C90_status 24 0 0) _ 23 (.inl ⟨rfl, rfl⟩)).1.2 (by norm_num), ((C90_status 24 0 60) _ 359 (.inr (.inr ⟨rfl, rfl⟩))).2.2.1.2 (by norm_num)⟩

/-- **C90** (a negative field is not a negative angle): the sign of every field is dropped, and reported only by the status. -/
theorem C90_sign_dropped (d m : ℤ) (s : ℝ) : (palDtf2d (-d) (-m) (-s)).1 = (palDtf2d d m s).1 ∧
    (palDtf2r (-d) (-m) (-s)).1 = (palDtf2r d m s).1 ∧ (palDaf2r (-d) (-m) (-s)).1 = (palDaf2r d m s).1 ∧
    0 ≤ (palDtf2d d m s).1 ∧ 0 ≤ (palDtf2r d m s).1 ∧ 0 ≤ (palDaf2r d m s).1 := by
  have hpi := pi_pos
  unfold palDtf2d palDtf2r palDaf2r ds2r das2r
  simp only [abs_neg]
  refine ⟨trivial, trivial, trivial, ?_, ?_, ?_⟩ <;> push_cast <;> positivity

theorem shown_of_fields (ndp : ℤ) (v : Hmsf) (h0 : 0 ≤ ndp) (hw : WellFormed ndp v) : ShowsRounded ndp v (shownSeconds ndp v) := by
  have hp := lastPlace_pos ndp
  refine ⟨hw, ⟨v.h * 3600 * 10 ^ ndp.toNat + v.m * 60 * 10 ^ ndp.toNat + v.s * 10 ^ ndp.toNat + v.f, ?_⟩, by linarith, by linarith⟩
  unfold shownSeconds lastPlace
  rw [if_pos h0]
  push_cast
  field_simp

theorem seconds_field (ndp : ℤ) (v : Hmsf) (hw : WellFormed ndp v) :
    0 ≤ (v.s : ℝ) + v.f / 10 ^ ndp.toNat ∧ (v.s : ℝ) + v.f / 10 ^ ndp.toNat < 60 ∧
      3600 * |(v.h : ℝ)| + 60 * |(v.m : ℝ)| + |(v.s : ℝ) + v.f / 10 ^ ndp.toNat| = shownSeconds ndp v := by
  obtain ⟨hh, hm, hs, hf⟩ := hw
  have hpos : (0 : ℝ) < 10 ^ ndp.toNat := by positivity
  have hfR : (0 : ℝ) ≤ v.f / 10 ^ ndp.toNat := by
    have : (0 : ℝ) ≤ v.f := by exact_mod_cast hf.1
    positivity
  have hfR1 : (v.f : ℝ) / 10 ^ ndp.toNat < 1 := by
    rw [div_lt_one hpos]
    exact_mod_cast hf.2
  have hsR : (0 : ℝ) ≤ v.s := by exact_mod_cast hs.1
  have hsR1 : (v.s : ℝ) ≤ 59 := by exact_mod_cast (show v.s ≤ 59 by omega)
  have hmR : (0 : ℝ) ≤ v.m := by exact_mod_cast hm.1
  have hhR : (0 : ℝ) ≤ v.h := by exact_mod_cast hh
  refine ⟨by linarith, by linarith, ?_⟩
  rw [abs_of_nonneg hhR, abs_of_nonneg hmR, abs_of_nonneg (by linarith)]
  unfold shownSeconds
  ring

/-- **C90** (round trip, fields): fields in range come back unchanged, through days, through radians as time, and through radians as degrees. -/
theorem C90_fields_back (ndp : ℤ) (v : Hmsf) (h0 : 0 ≤ ndp) (h9 : ndp ≤ 9) (hw : WellFormed ndp v) (hs : v.sign = '+') :
    (v.h ≤ 23 → (palDtf2d v.h v.m (v.s + v.f / 10 ^ ndp.toNat)).2 = 0 ∧
      palDd2tf ndp (palDtf2d v.h v.m (v.s + v.f / 10 ^ ndp.toNat)).1 = some v) ∧
    (v.h ≤ 23 → (palDtf2r v.h v.m (v.s + v.f / 10 ^ ndp.toNat)).2 = 0 ∧
      palDr2tf ndp (palDtf2r v.h v.m (v.s + v.f / 10 ^ ndp.toNat)).1 = some v) ∧
    (v.h ≤ 359 → (palDaf2r v.h v.m (v.s + v.f / 10 ^ ndp.toNat)).2 = 0 ∧
      palDr2af ndp (palDaf2r v.h v.m (v.s + v.f / 10 ^ ndp.toNat)).1 = some v) := by
  obtain ⟨s1, s2, s3⟩ := seconds_field ndp v hw
  have hsh := shown_of_fields ndp v h0 hw
  obtain ⟨hh, hm, hs', hf⟩ := id hw
  have hhR : (0 : ℝ) ≤ v.h := by exact_mod_cast hh
  have hmR : (v.m : ℝ) ≤ 59 := by exact_mod_cast (show v.m ≤ 59 by omega)
  have hbound : shownSeconds ndp v < 3600 * (v.h + 1) := by
    rw [← s3, abs_of_nonneg hhR, abs_of_nonneg s1, abs_of_nonneg (by exact_mod_cast hm.1 : (0 : ℝ) ≤ v.m)]
    linarith
  have hnn : 0 ≤ shownSeconds ndp v := by rw [← s3]; positivity
  obtain ⟨v1, v2, v3⟩ := C90_values v.h v.m ((v.s : ℝ) + v.f / 10 ^ ndp.toNat)
  obtain ⟨-, -, -, p1, p2, p3⟩ := C90_sign_dropped v.h v.m ((v.s : ℝ) + v.f / 10 ^ ndp.toNat)
  have hst := C90_status v.h v.m ((v.s : ℝ) + v.f / 10 ^ ndp.toNat)
  dsimp only at hst
  rw [s3] at v1 v2 v3
  have hpi := pi_gt_three
  have hpi4 := pi_lt_four
  refine ⟨fun h => ⟨?_, ?_⟩, fun h => ⟨?_, ?_⟩, fun h => ⟨?_, ?_⟩⟩
  · exact ((hst _ 23 (.inl ⟨rfl, rfl⟩)).2.2.2).2 ⟨⟨hh, h⟩, ⟨hm.1, by omega⟩, s1, s2⟩
  · have hR : (v.h : ℝ) ≤ 23 := by exact_mod_cast h
    generalize (palDtf2d v.h v.m ((v.s : ℝ) + v.f / 10 ^ ndp.toNat)).1 = d at *
    have hd : d < 1 := by linarith
    obtain ⟨w, w1, w2, -, w4⟩ := C89_days ndp d h9 (by omega) (by rw [abs_of_nonneg p1]; linarith)
    rw [abs_of_nonneg p1, mul_comm, v1] at w4
    rw [w1, C89_unique ndp _ w v ((w2 p1).trans hs.symm) w4 hsh]
  · exact ((hst _ 23 (.inr (.inl ⟨rfl, rfl⟩))).2.2.2).2 ⟨⟨hh, h⟩, ⟨hm.1, by omega⟩, s1, s2⟩
  · have hR : (v.h : ℝ) ≤ 23 := by exact_mod_cast h
    generalize (palDtf2r v.h v.m ((v.s : ℝ) + v.f / 10 ^ ndp.toNat)).1 = d at *
    have he : 86400 * (d / (2 * π)) = shownSeconds ndp v := by rw [← v2]; ring
    have hd : d < 8 := by
      have : d / (2 * π) < 1 := by linarith
      rw [div_lt_one (by positivity)] at this
      linarith
    obtain ⟨w, w1, w2, -, w4⟩ := C89_time ndp d h9 (by omega) (by rw [abs_of_nonneg p2]; linarith)
    rw [abs_of_nonneg p2, he] at w4
    rw [w1, C89_unique ndp _ w v ((w2 p2).trans hs.symm) w4 hsh]
  · exact ((hst _ 359 (.inr (.inr ⟨rfl, rfl⟩))).2.2.2).2 ⟨⟨hh, h⟩, ⟨hm.1, by omega⟩, s1, s2⟩
  · have hR : (v.h : ℝ) ≤ 359 := by exact_mod_cast h
    generalize (palDaf2r v.h v.m ((v.s : ℝ) + v.f / 10 ^ ndp.toNat)).1 = d at *
    have he : 1296000 * (d / (2 * π)) = shownSeconds ndp v := by rw [← v3]; ring
    have hd : d < 8 := by
      have : d / (2 * π) < 1 := by linarith
      rw [div_lt_one (by positivity)] at this
      linarith
    obtain ⟨w, w1, w2, -, w4⟩ := C89_degrees ndp d h9 (by omega) (by rw [abs_of_nonneg p3]; linarith)
    rw [abs_of_nonneg p3, he] at w4
    rw [w1, C89_unique ndp _ w v ((w2 p3).trans hs.symm) w4 hsh]

example : palDd2tf 2 (palDtf2d 23 59 (59 + 99 / 100)).1 = some ⟨'+', 23, 59, 59, 99⟩ := by
  have h := ((C90_fields_back 2 ⟨'+', 23, 59, 59, 99⟩ (by norm_num) (by norm_num)
    ⟨by norm_num, by norm_num, by norm_num, by norm_num, by decide⟩ rfl).1 (by norm_num)).2
  rw [show Int.toNat 2 = 2 from rfl] at h
  norm_num at h ⊢
  exact h

/-- **C90** (round trip, interval): the fields shown for an interval give it back to within half of the last place. -/
theorem C90_days_back (ndp : ℤ) (days : ℝ) (h9 : ndp ≤ 9) (h9' : -9 ≤ ndp) (hd : 24 * |days| ≤ 2000000000) :
    ∃ v, palDd2tf ndp days = some v ∧ |(palDtf2d v.h v.m (v.s + v.f / 10 ^ ndp.toNat)).1 - (|days|)| ≤ lastPlace ndp / 2 / 86400 := by
  obtain ⟨v, h1, -, -, hw, -, h3, h4⟩ := C89_days ndp days h9 h9' hd
  refine ⟨v, h1, ?_⟩
  have v1 := (C90_values v.h v.m ((v.s : ℝ) + v.f / 10 ^ ndp.toNat)).1
  rw [(seconds_field ndp v hw).2.2] at v1
  rw [abs_le]
  constructor <;> linarith

end Pal.Props
