import Verif.Model.Calendar
import Verif.Spec.Calendar
import Mathlib.Tactic.IntervalCases
import Mathlib.Tactic.Linarith

namespace Pal
open Spec

/-- Year counted from March and its month number. -/
theorem mjdOf_ediv (y m d : ℤ) (hy : -4799 ≤ y) (h1 : 1 ≤ m) (h2 : m ≤ 12) :
    eraMjdOf y m d = (1461 * ((if m ≤ 2 then y - 1 else y) + 4800)) / 4 +
      (367 * (if m ≤ 2 then m + 10 else m - 2)) / 12 -
      (3 * (((if m ≤ 2 then y - 1 else y) + 4900) / 100)) / 4 + d - 2432076 := by
  unfold eraMjdOf
  have e1 : (m - 14).tdiv 12 = if m ≤ 2 then -1 else 0 := by interval_cases m <;> decide
  dsimp only
  rw [e1]
  by_cases h : m ≤ 2
  · simp only [if_pos h]
    rw [Int.tdiv_eq_ediv_of_nonneg (by omega), Int.tdiv_eq_ediv_of_nonneg (by omega),
      Int.tdiv_eq_ediv_of_nonneg (a := y + -1 + 4900) (by omega), Int.tdiv_eq_ediv_of_nonneg (by omega)]
    rw [show y + -1 = y - 1 by ring, show m - 2 - 12 * -1 = m + 10 by ring]
  · simp only [if_neg h]
    rw [Int.tdiv_eq_ediv_of_nonneg (by omega), Int.tdiv_eq_ediv_of_nonneg (by omega),
      Int.tdiv_eq_ediv_of_nonneg (a := y + 0 + 4900) (by omega), Int.tdiv_eq_ediv_of_nonneg (by omega)]
    rw [show y + 0 = y by ring, show m - 2 - 12 * 0 = m - 2 by ring]

theorem eraLy_eq (y m : ℤ) : mtab m + eraLy y m = daysIn y m := by
  have hl : (y.tmod 4 = 0 ∧ (y.tmod 100 ≠ 0 ∨ y.tmod 400 = 0)) ↔ LeapYear y := by
    unfold LeapYear
    rw [← Int.dvd_iff_tmod_eq_zero, ne_eq, ← Int.dvd_iff_tmod_eq_zero, ← Int.dvd_iff_tmod_eq_zero]
    omega
  unfold mtab eraLy daysIn
  by_cases h2 : m = 2
  · subst h2
    simp only [hl, true_and]
    by_cases h : LeapYear y <;> simp [h]
  · simp [h2]

/-- The shape of a Julian day number: century, year of century and day of the March-based year. -/
theorem jdnCal_ediv (l0 : ℤ) (h : 0 ≤ l0) (n i e k : ℤ)
    (hn : n = 4 * l0 / 146097) (hi : i = 4000 * (l0 - (146097 * n + 3) / 4 + 1) / 1461001)
    (he : e = l0 - (146097 * n + 3) / 4 - 1461 * i / 4)
    (hk : k = 80 * (e + 31) / 2447) :
    eraJdnCal (l0 - 68569) =
      (100 * (n - 49) + i + k / 11, k + 2 - 12 * (k / 11), e + 31 - 2447 * k / 80) ∧
      0 ≤ n ∧ 0 ≤ i ∧ i ≤ 99 ∧ 0 ≤ e ∧ e ≤ 365 ∧
      (e = 365 → i % 4 = 3 ∧ (i = 99 → n % 4 = 0)) ∧
      l0 = 36525 * n - 3 * n / 4 + 1461 * i / 4 + e := by
  have n0 : 0 ≤ n := by omega
  have l1 : 0 ≤ l0 - (146097 * n + 3) / 4 ∧ l0 - (146097 * n + 3) / 4 ≤ 36524 := by omega
  generalize hL : l0 - (146097 * n + 3) / 4 = L at *
  have i0 : 0 ≤ i ∧ i ≤ 99 := by omega
  have e0 : 0 ≤ e ∧ e ≤ 365 := by omega
  have el : e = 365 → i % 4 = 3 ∧ (i = 99 → n % 4 = 0) := by
    intro h365
    have hL2 : L = 1461 * i / 4 + 365 := by omega
    constructor
    · have hi2 : i = 4000 * (1461 * i / 4 + 365 + 1) / 1461001 := by rw [← hL2]; exact hi
      obtain ⟨a, b⟩ := i0
      clear * - hi2 a b
      interval_cases i <;> revert hi2 <;> decide
    · intro h99
      have h4 : 146097 * n = 4 * ((146097 * n + 3) / 4) := by omega
      clear * - h4
      omega
  have k0 : 0 ≤ k := by omega
  refine ⟨?_, n0, i0.1, i0.2, e0.1, e0.2, el, by omega⟩
  unfold eraJdnCal
  dsimp only
  rw [show l0 - 68569 + 68569 = l0 by ring]
  rw [Int.tdiv_eq_ediv_of_nonneg (a := 4 * l0) (by omega), ← hn,
    Int.tdiv_eq_ediv_of_nonneg (a := 146097 * n + 3) (by omega), hL,
    Int.tdiv_eq_ediv_of_nonneg (a := 4000 * (L + 1)) (by omega), ← hi,
    Int.tdiv_eq_ediv_of_nonneg (a := 1461 * i) (by omega), ← he,
    Int.tdiv_eq_ediv_of_nonneg (a := 80 * (e + 31)) (by omega), ← hk,
    Int.tdiv_eq_ediv_of_nonneg (a := 2447 * k) (by omega),
    Int.tdiv_eq_ediv_of_nonneg (a := k) (by omega)]

theorem valid_bounds (t : Date) (h : t.Valid) : t.d ≤ 31 ∧ (t.m = 2 → t.d ≤ 29 ∧ (t.d = 29 → LeapYear t.y)) := by
  have := h.dn
  unfold daysIn at this
  split_ifs at this with h1 h2 h3
  · omega
  · exact ⟨by omega, fun _ => ⟨by omega, fun _ => h3⟩⟩
  · exact ⟨by omega, fun _ => ⟨by omega, fun h => by omega⟩⟩
  · exact ⟨by omega, fun h => absurd h h2⟩

/-- Round trip on day numbers. -/
theorem jdnCal_mjdOf (t : Date) (hv : t.Valid) (hy : -4799 ≤ t.y) :
    eraJdnCal (eraMjdOf t.y t.m t.d + 2400001) = (t.y, t.m, t.d) := by
  obtain ⟨y, m, d⟩ := t
  obtain ⟨hm1, hm2, hd1, hdn⟩ := hv
  dsimp only at *
  rw [mjdOf_ediv y m d hy hm1 hm2]
  obtain ⟨Y, hY⟩ : ∃ Y, (if m ≤ 2 then y - 1 else y) = Y := ⟨_, rfl⟩
  obtain ⟨M, hM⟩ : ∃ M, (if m ≤ 2 then m + 10 else m - 2) = M := ⟨_, rfl⟩
  rw [hY, hM]
  obtain ⟨n, hn⟩ : ∃ n, n = (Y + 4900) / 100 := ⟨_, rfl⟩
  obtain ⟨i, hi⟩ : ∃ i, i = (Y + 4900) % 100 := ⟨_, rfl⟩
  obtain ⟨e, he⟩ : ∃ e, e = 367 * M / 12 + d - 31 := ⟨_, rfl⟩
  have hMr : 1 ≤ M ∧ M ≤ 12 := by split_ifs at hM <;> omega
  have hn0 : 0 ≤ n := by split_ifs at hY <;> omega
  have hYn : Y + 4900 = 100 * n + i := by omega
  have hir : 0 ≤ i ∧ i ≤ 99 := by omega
  have her : 0 ≤ e ∧ e ≤ 365 ∧ (e = 365 → i % 4 = 3 ∧ (i = 99 → n % 4 = 0)) := by
    have hf : m = 2 → d = 29 → i % 4 = 3 ∧ (i = 99 → n % 4 = 0) := by
      intro h2 h29
      have hl := ((valid_bounds ⟨y, m, d⟩ ⟨hm1, hm2, hd1, hdn⟩).2 h2).2 h29
      unfold LeapYear at hl
      dsimp only at hl
      rw [if_pos (by omega)] at hY
      constructor
      · omega
      · intro h99
        subst hY
        omega
    have hcl : e = 365 → m = 2 ∧ d = 29 := by
      obtain ⟨h31, hfeb⟩ := valid_bounds ⟨y, m, d⟩ ⟨hm1, hm2, hd1, hdn⟩
      dsimp only at h31 hfeb
      clear hf hYn hir hi hn hY
      interval_cases m <;> simp at hM <;> subst hM <;> simp at he hfeb <;> omega
    refine ⟨by omega, ?_, fun h => hf (hcl h).1 (hcl h).2⟩
    obtain ⟨h31, hfeb⟩ := valid_bounds ⟨y, m, d⟩ ⟨hm1, hm2, hd1, hdn⟩
    dsimp only at h31 hfeb
    clear hf hYn hir hi hn hY hcl
    interval_cases m <;> simp at hM <;> subst hM <;> simp at he hfeb <;> omega
  have hmonth : m = (80 * (e + 31) / 2447) + 2 - 12 * ((80 * (e + 31) / 2447) / 11) ∧
      d = e + 31 - 2447 * (80 * (e + 31) / 2447) / 80 ∧
      (80 * (e + 31) / 2447) / 11 = if m ≤ 2 then 1 else 0 := by
    have hd' := hdn
    obtain ⟨h31, hfeb⟩ := valid_bounds ⟨y, m, d⟩ ⟨hm1, hm2, hd1, hdn⟩
    dsimp only at h31 hfeb
    clear hYn hir hi hn hY her hn0 hy hdn
    have hk : 80 * (e + 31) / 2447 = M := by
      interval_cases m <;> simp at hM <;> subst hM <;> simp [daysIn] at he hfeb hd' <;> omega
    rw [hk]
    clear hk hd' hfeb
    interval_cases m <;> simp at hM <;> subst hM <;> simp at he ⊢ <;> omega
  obtain ⟨l0, hl0⟩ : ∃ l0, l0 = 36525 * n - 3 * n / 4 + 1461 * i / 4 + e := ⟨_, rfl⟩
  have hJ : 1461 * (Y + 4800) / 4 + 367 * M / 12 - 3 * ((Y + 4900) / 100) / 4 + d - 2432076 + 2400001 = l0 - 68569 := by
    rw [← hn]
    omega
  have hl0n : 0 ≤ l0 := by omega
  have hn' : n = 4 * l0 / 146097 := by
    obtain ⟨h0, h1, h2⟩ := her
    have hj : 1461 * i / 4 ≤ 36159 := by omega
    clear hJ hmonth hn hi hYn hY hM he hd1 hdn hm1 hm2 hMr hy
    by_cases h365 : e = 365
    · obtain ⟨h3, h4⟩ := h2 h365
      by_cases h99 : i = 99
      · have := h4 h99
        omega
      · omega
    · omega
  have hL : l0 - (146097 * n + 3) / 4 = 1461 * i / 4 + e := by omega
  have hi' : i = 4000 * (l0 - (146097 * n + 3) / 4 + 1) / 1461001 := by
    rw [hL]
    obtain ⟨h0, h1, h2⟩ := her
    have h2' : e = 365 → i % 4 = 3 := fun h => (h2 h).1
    obtain ⟨h3, h4⟩ := hir
    clear * - h0 h1 h2' h3 h4
    interval_cases i <;> omega
  rw [hJ]
  have := (jdnCal_ediv l0 hl0n n i e (80 * (e + 31) / 2447) hn' hi' (by omega) rfl).1
  rw [this]
  obtain ⟨hA, hB, hC⟩ := hmonth
  have hyy : 100 * (n - 49) + i + 80 * (e + 31) / 2447 / 11 = y := by
    rw [hC]
    split_ifs at hY ⊢ <;> omega
  rw [hyy, ← hA, ← hB]


theorem next_valid (t : Date) (hv : t.Valid) : t.next.Valid := by
  obtain ⟨y, m, d⟩ := t
  obtain ⟨hm1, hm2, hd1, hdn⟩ := hv
  dsimp only at *
  unfold Date.next
  dsimp only
  have h28 : ∀ y m : ℤ, 1 ≤ daysIn y m := by
    intro y m; unfold daysIn; split_ifs <;> omega
  split_ifs with h1 h2
  · exact ⟨hm1, hm2, by dsimp only; omega, by dsimp only; omega⟩
  · exact ⟨by dsimp only; omega, by dsimp only; omega, le_refl _, h28 _ _⟩
  · exact ⟨le_refl _, by dsimp only; omega, le_refl _, h28 _ _⟩

theorem next_year (t : Date) : t.y ≤ t.next.y := by
  unfold Date.next; split_ifs <;> dsimp only <;> omega

theorem year_shift (y : ℤ) :
    1461 * (y + 4800) / 4 = 1461 * (y - 1 + 4800) / 4 + (if 4 ∣ y then 366 else 365) := by
  obtain ⟨q, r, hr, h0, h1⟩ : ∃ q r, y = 4 * q + r ∧ 0 ≤ r ∧ r < 4 := ⟨y / 4, y % 4, by omega, by omega, by omega⟩
  subst hr
  interval_cases r
  · rw [if_pos (by omega)]; omega
  · rw [if_neg (by omega)]; omega
  · rw [if_neg (by omega)]; omega
  · rw [if_neg (by omega)]; omega

theorem mjdOf_next (t : Date) (hv : t.Valid) (hy : -4799 ≤ t.y) :
    eraMjdOf t.next.y t.next.m t.next.d = eraMjdOf t.y t.m t.d + 1 := by
  have hv' := next_valid t hv
  have hy' := le_trans hy (next_year t)
  rw [mjdOf_ediv _ _ _ hy hv.m1 hv.m12, mjdOf_ediv _ _ _ hy' hv'.m1 hv'.m12]
  clear hv' hy'
  obtain ⟨y, m, d⟩ := t
  obtain ⟨hm1, hm2, hd1, hdn⟩ := hv
  dsimp only at *
  unfold Date.next
  dsimp only
  by_cases h1 : d < daysIn y m
  · rw [if_pos h1]; dsimp only; omega
  · rw [if_neg h1]
    have hd : d = daysIn y m := by omega
    by_cases h2 : m < 12
    · rw [if_pos h2]
      dsimp only
      subst hd
      clear h1 hd1 hdn
      by_cases hf : m = 2
      · subst hf
        simp only [daysIn, LeapYear]
        norm_num
        split_ifs with hl
        · rcases hl with ⟨ha, hb⟩ | hc
          · omega
          · omega
        · have hl' : (¬ 4 ∣ y ∨ 100 ∣ y) ∧ ¬ 400 ∣ y := by omega
          obtain ⟨ha, hb⟩ := hl'
          rcases ha with ha | ha
          · have e1 : (y - 1 + 4900) / 100 = (y + 4900) / 100 := by clear hb; omega
            have e2 : 1461 * (y + 4800) / 4 = 1461 * (y - 1 + 4800) / 4 + 365 := by rw [year_shift, if_neg ha]
            rw [e1, e2]; omega
          · have e1 : (y - 1 + 4900) / 100 = (y + 4900) / 100 - 1 := by clear hb; omega
            have e2 : 1461 * (y + 4800) / 4 = 1461 * (y - 1 + 4800) / 4 + 366 := by rw [year_shift, if_pos (by omega)]
            have e3 : ((y + 4900) / 100) % 4 ≠ 1 := by clear e1 e2; omega
            rw [e1, e2]
            have e4 : 3 * ((y + 4900) / 100) / 4 = 3 * ((y + 4900) / 100 - 1) / 4 + 1 := by
              clear e1 e2 ha hb hl
              generalize (y + 4900) / 100 = q at *
              obtain ⟨a, r, hr, h0, h1⟩ : ∃ a r, q = 4 * a + r ∧ 0 ≤ r ∧ r < 4 := ⟨q / 4, q % 4, by omega, by omega, by omega⟩
              subst hr
              interval_cases r <;> omega
            rw [e4]
            omega
      · unfold daysIn
        have hm2' : m ≤ 11 := by omega
        interval_cases m <;> simp at hf ⊢ <;> omega
    · rw [if_neg h2]
      have : m = 12 := by omega
      subst this
      simp [daysIn] at hd
      subst hd
      norm_num
      ring_nf

theorem jdnCal_valid (jd : ℤ) (h : -68569 ≤ jd) :
    Date.Valid ⟨(eraJdnCal jd).1, (eraJdnCal jd).2.1, (eraJdnCal jd).2.2⟩ ∧
    (-4799 ≤ (eraJdnCal jd).1 → eraMjdOf (eraJdnCal jd).1 (eraJdnCal jd).2.1 (eraJdnCal jd).2.2 = jd - 2400001) := by
  obtain ⟨l0, hl0⟩ : ∃ l0, l0 = jd + 68569 := ⟨_, rfl⟩
  have hjd : jd = l0 - 68569 := by omega
  rw [hjd]
  obtain ⟨n, hn⟩ : ∃ n, n = 4 * l0 / 146097 := ⟨_, rfl⟩
  obtain ⟨i, hi⟩ : ∃ i, i = 4000 * (l0 - (146097 * n + 3) / 4 + 1) / 1461001 := ⟨_, rfl⟩
  obtain ⟨e, he⟩ : ∃ e, e = l0 - (146097 * n + 3) / 4 - 1461 * i / 4 := ⟨_, rfl⟩
  obtain ⟨k, hk⟩ : ∃ k, k = 80 * (e + 31) / 2447 := ⟨_, rfl⟩
  obtain ⟨h1, h2, h3, h4, h5, h6, h7, h8⟩ := jdnCal_ediv l0 (by omega) n i e k hn hi he hk
  rw [h1]
  dsimp only
  clear h1 hn hi he hjd hl0 h
  have hk1 : 1 ≤ k ∧ k ≤ 12 := by omega
  have hv : Date.Valid ⟨100 * (n - 49) + i + k / 11, k + 2 - 12 * (k / 11), e + 31 - 2447 * k / 80⟩ := by
    obtain ⟨ka, kb⟩ := hk1
    refine ⟨?_, ?_, ?_, ?_⟩ <;> dsimp only
    · omega
    · omega
    · clear h7 h8; interval_cases k <;> omega
    · by_cases h12 : k = 12
      · subst h12
        simp only [daysIn, LeapYear]
        norm_num
        split_ifs with hl
        · omega
        · have hl' : (¬ 4 ∣ (100 * (n - 49) + i + 1) ∨ 100 ∣ (100 * (n - 49) + i + 1)) ∧ ¬ 400 ∣ (100 * (n - 49) + i + 1) := by omega
          have : e ≠ 365 := by
            intro h365
            obtain ⟨ha, hb⟩ := h7 h365
            by_cases h99 : i = 99
            · have := hb h99; omega
            · omega
          omega
      · unfold daysIn
        interval_cases k <;> simp at h12 ⊢ <;> omega
  refine ⟨hv, fun hy => ?_⟩
  rw [mjdOf_ediv _ _ _ hy hv.m1 hv.m12]
  clear hv hy h7
  obtain ⟨ka, kb⟩ := hk1
  have e0 : (if k + 2 - 12 * (k / 11) ≤ 2 then 100 * (n - 49) + i + k / 11 - 1 else 100 * (n - 49) + i + k / 11) = 100 * (n - 49) + i := by
    split_ifs <;> omega
  have e1 : (if k + 2 - 12 * (k / 11) ≤ 2 then k + 2 - 12 * (k / 11) + 10 else k + 2 - 12 * (k / 11) - 2) = k := by
    split_ifs <;> omega
  have e2 : (100 * (n - 49) + i + 4900) / 100 = n := by clear h8 hk e0; omega
  have e3 : 1461 * (100 * (n - 49) + i + 4800) / 4 = 36525 * n - 36525 + 1461 * i / 4 := by clear h8 hk e0 e2; omega
  have e4 : 367 * k / 12 = 2447 * k / 80 := by clear h8 hk e0 e1 e2 e3; interval_cases k <;> rfl
  rw [e0, e1, e2, e3, e4]
  omega

end Pal
