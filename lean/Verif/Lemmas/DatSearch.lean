import Verif.Model.Dat
import Verif.Spec.Dat
import Verif.Lemmas.Calendar
import Mathlib.Tactic.Linarith
import Mathlib.Tactic.NormNum

namespace Pal
open Spec

/-- MJD of the first day of month number `k` (12·year + month − 1). -/
def firstOf (k : ℤ) : ℤ := eraMjdOf (k / 12) (k % 12 + 1) 1

theorem daysIn_pos (y m : ℤ) : 28 ≤ daysIn y m := by
  unfold daysIn
  split_ifs <;> omega

theorem mjdOf_day (y m d : ℤ) : eraMjdOf y m d = eraMjdOf y m 1 + (d - 1) := by
  unfold eraMjdOf; ring

theorem firstOf_next (k : ℤ) (hk : 12 * -4799 ≤ k) :
    firstOf (k + 1) = firstOf k + daysIn (k / 12) (k % 12 + 1) := by
  have hd := daysIn_pos (k / 12) (k % 12 + 1)
  have hv : Date.Valid ⟨k / 12, k % 12 + 1, daysIn (k / 12) (k % 12 + 1)⟩ :=
    ⟨by dsimp only; omega, by dsimp only; omega, by dsimp only; omega, le_refl _⟩
  have h := mjdOf_next _ hv (by dsimp only; omega)
  unfold Date.next at h
  dsimp only at h
  rw [if_neg (lt_irrefl _), mjdOf_day (k / 12)] at h
  unfold firstOf
  by_cases hm : k % 12 + 1 < 12
  · rw [if_pos hm] at h
    dsimp only at h
    rw [show (k + 1) / 12 = k / 12 by omega, show (k + 1) % 12 = k % 12 + 1 by omega, h]
    ring
  · rw [if_neg hm] at h
    dsimp only at h
    rw [show (k + 1) / 12 = k / 12 + 1 by omega, show (k + 1) % 12 + 1 = 1 by omega, h]
    ring

theorem firstOf_mono (k : ℤ) (hk : 12 * -4799 ≤ k) (n : ℕ) : firstOf k ≤ firstOf (k + n) := by
  induction n with
  | zero => simp
  | succ n ih =>
    have h := firstOf_next (k + n) (by omega)
    have hd := daysIn_pos ((k + n) / 12) ((k + n) % 12 + 1)
    push_cast
    rw [← add_assoc, h]
    omega

/-- A date is in or after a month exactly if its day number is at least that of the month's first day. -/
theorem month_le_iff (t : Date) (hv : t.Valid) (hy : -4799 ≤ t.y) (Y M : ℤ) (hM : 1 ≤ M ∧ M ≤ 12) (hY : -4799 ≤ Y) :
    12 * t.y + t.m ≥ 12 * Y + M ↔ eraMjdOf Y M 1 ≤ eraMjdOf t.y t.m t.d := by
  have e : ∀ y m : ℤ, 1 ≤ m ∧ m ≤ 12 → eraMjdOf y m 1 = firstOf (12 * y + m - 1) := by
    intro y m h
    unfold firstOf
    rw [show (12 * y + m - 1) / 12 = y by omega, show (12 * y + m - 1) % 12 + 1 = m by omega]
  have h1 := hv.m1
  have h12 := hv.m12
  have hd1 := hv.d1
  have hdn := hv.dn
  rw [mjdOf_day t.y, e Y M hM, e t.y t.m ⟨h1, h12⟩]
  constructor
  · intro h
    obtain ⟨n, hn⟩ := Int.eq_ofNat_of_zero_le (show 0 ≤ (12 * t.y + t.m - 1) - (12 * Y + M - 1) by omega)
    have h3 := firstOf_mono (12 * Y + M - 1) (by omega) n
    rw [show 12 * Y + M - 1 + n = 12 * t.y + t.m - 1 by omega] at h3
    omega
  · intro h
    by_contra hc
    obtain ⟨n, hn⟩ := Int.eq_ofNat_of_zero_le (show 0 ≤ (12 * Y + M - 1) - (12 * t.y + t.m) by omega)
    have h3 := firstOf_mono (12 * t.y + t.m) (by omega) n
    rw [show 12 * t.y + t.m + n = 12 * Y + M - 1 by omega] at h3
    have h4 := firstOf_next (12 * t.y + t.m - 1) (by omega)
    rw [show 12 * t.y + t.m - 1 + 1 = 12 * t.y + t.m by omega,
      show (12 * t.y + t.m - 1) / 12 = t.y by omega, show (12 * t.y + t.m - 1) % 12 + 1 = t.m by omega] at h4
    omega

/-- From 1858 November 17 on the calendar year is positive. -/
theorem jdnCal_year (jd : ℤ) (h : 2400001 ≤ jd) : 0 ≤ (eraJdnCal jd).1 := by
  obtain ⟨l0, hl0⟩ : ∃ l0, l0 = jd + 68569 := ⟨_, rfl⟩
  have hjd : jd = l0 - 68569 := by omega
  rw [hjd]
  obtain ⟨n, hn⟩ : ∃ n, n = 4 * l0 / 146097 := ⟨_, rfl⟩
  obtain ⟨i, hi⟩ : ∃ i, i = 4000 * (l0 - (146097 * n + 3) / 4 + 1) / 1461001 := ⟨_, rfl⟩
  obtain ⟨e, he⟩ : ∃ e, e = l0 - (146097 * n + 3) / 4 - 1461 * i / 4 := ⟨_, rfl⟩
  obtain ⟨k, hk⟩ : ∃ k, k = 80 * (e + 31) / 2447 := ⟨_, rfl⟩
  obtain ⟨h1, h2, h3, h4, h5, h6, h7, h8⟩ := jdnCal_ediv l0 (by omega) n i e k hn hi he hk
  rw [h1]
  dsimp only
  omega

/-- **gen** The search of ERFA's table in terms of the day number. -/
theorem dat_search (t : Date) (hv : t.Valid) (hy : -4799 ≤ t.y) (j : ℤ) (hj : eraMjdOf t.y t.m t.d = j) :
    eraDatSearch (12 * t.y + t.m) eraDatChanges.length =
      if 57754 ≤ j then some 41 else
      if 57204 ≤ j then some 40 else
      if 56109 ≤ j then some 39 else
      if 54832 ≤ j then some 38 else
      if 53736 ≤ j then some 37 else
      if 51179 ≤ j then some 36 else
      if 50630 ≤ j then some 35 else
      if 50083 ≤ j then some 34 else
      if 49534 ≤ j then some 33 else
      if 49169 ≤ j then some 32 else
      if 48804 ≤ j then some 31 else
      if 48257 ≤ j then some 30 else
      if 47892 ≤ j then some 29 else
      if 47161 ≤ j then some 28 else
      if 46247 ≤ j then some 27 else
      if 45516 ≤ j then some 26 else
      if 45151 ≤ j then some 25 else
      if 44786 ≤ j then some 24 else
      if 44239 ≤ j then some 23 else
      if 43874 ≤ j then some 22 else
      if 43509 ≤ j then some 21 else
      if 43144 ≤ j then some 20 else
      if 42778 ≤ j then some 19 else
      if 42413 ≤ j then some 18 else
      if 42048 ≤ j then some 17 else
      if 41683 ≤ j then some 16 else
      if 41499 ≤ j then some 15 else
      if 41317 ≤ j then some 14 else
      if 39887 ≤ j then some 13 else
      if 39126 ≤ j then some 12 else
      if 39004 ≤ j then some 11 else
      if 38942 ≤ j then some 10 else
      if 38820 ≤ j then some 9 else
      if 38761 ≤ j then some 8 else
      if 38639 ≤ j then some 7 else
      if 38486 ≤ j then some 6 else
      if 38395 ≤ j then some 5 else
      if 38334 ≤ j then some 4 else
      if 37665 ≤ j then some 3 else
      if 37512 ≤ j then some 2 else
      if 37300 ≤ j then some 1 else
      if 36934 ≤ j then some 0 else
      none := by
  have key : ∀ Y M N : ℤ, 1 ≤ M ∧ M ≤ 12 → -4799 ≤ Y → eraMjdOf Y M 1 = N → ((12 * t.y + t.m ≥ 12 * Y + M) = (N ≤ j)) := by
    intro Y M N hM hY hN
    rw [← hN, ← hj]
    exact propext (month_le_iff t hv hy Y M hM hY)
  have step : ∀ (i : ℕ) (Y M N : ℤ) (v : ℚ), eraDatChanges.getD i (0, 0, 0) = (Y, M, v) → 1 ≤ M ∧ M ≤ 12 → -4799 ≤ Y → eraMjdOf Y M 1 = N →
      eraDatSearch (12 * t.y + t.m) (i + 1) = if N ≤ j then some i else eraDatSearch (12 * t.y + t.m) i := by
    intro i Y M N v hc hM hY hN
    rw [eraDatSearch]
    simp only [hc]
    simp only [key Y M N hM hY hN]
  rw [show eraDatChanges.length = 42 from rfl]
  rw [step 41 2017 1 57754 37 rfl (by decide) (by decide) (by decide +kernel)]
  rw [step 40 2015 7 57204 36 rfl (by decide) (by decide) (by decide +kernel)]
  rw [step 39 2012 7 56109 35 rfl (by decide) (by decide) (by decide +kernel)]
  rw [step 38 2009 1 54832 34 rfl (by decide) (by decide) (by decide +kernel)]
  rw [step 37 2006 1 53736 33 rfl (by decide) (by decide) (by decide +kernel)]
  rw [step 36 1999 1 51179 32 rfl (by decide) (by decide) (by decide +kernel)]
  rw [step 35 1997 7 50630 31 rfl (by decide) (by decide) (by decide +kernel)]
  rw [step 34 1996 1 50083 30 rfl (by decide) (by decide) (by decide +kernel)]
  rw [step 33 1994 7 49534 29 rfl (by decide) (by decide) (by decide +kernel)]
  rw [step 32 1993 7 49169 28 rfl (by decide) (by decide) (by decide +kernel)]
  rw [step 31 1992 7 48804 27 rfl (by decide) (by decide) (by decide +kernel)]
  rw [step 30 1991 1 48257 26 rfl (by decide) (by decide) (by decide +kernel)]
  rw [step 29 1990 1 47892 25 rfl (by decide) (by decide) (by decide +kernel)]
  rw [step 28 1988 1 47161 24 rfl (by decide) (by decide) (by decide +kernel)]
  rw [step 27 1985 7 46247 23 rfl (by decide) (by decide) (by decide +kernel)]
  rw [step 26 1983 7 45516 22 rfl (by decide) (by decide) (by decide +kernel)]
  rw [step 25 1982 7 45151 21 rfl (by decide) (by decide) (by decide +kernel)]
  rw [step 24 1981 7 44786 20 rfl (by decide) (by decide) (by decide +kernel)]
  rw [step 23 1980 1 44239 19 rfl (by decide) (by decide) (by decide +kernel)]
  rw [step 22 1979 1 43874 18 rfl (by decide) (by decide) (by decide +kernel)]
  rw [step 21 1978 1 43509 17 rfl (by decide) (by decide) (by decide +kernel)]
  rw [step 20 1977 1 43144 16 rfl (by decide) (by decide) (by decide +kernel)]
  rw [step 19 1976 1 42778 15 rfl (by decide) (by decide) (by decide +kernel)]
  rw [step 18 1975 1 42413 14 rfl (by decide) (by decide) (by decide +kernel)]
  rw [step 17 1974 1 42048 13 rfl (by decide) (by decide) (by decide +kernel)]
  rw [step 16 1973 1 41683 12 rfl (by decide) (by decide) (by decide +kernel)]
  rw [step 15 1972 7 41499 11 rfl (by decide) (by decide) (by decide +kernel)]
  rw [step 14 1972 1 41317 10 rfl (by decide) (by decide) (by decide +kernel)]
  rw [step 13 1968 2 39887 4.2131700 rfl (by decide) (by decide) (by decide +kernel)]
  rw [step 12 1966 1 39126 4.3131700 rfl (by decide) (by decide) (by decide +kernel)]
  rw [step 11 1965 9 39004 3.8401300 rfl (by decide) (by decide) (by decide +kernel)]
  rw [step 10 1965 7 38942 3.7401300 rfl (by decide) (by decide) (by decide +kernel)]
  rw [step 9 1965 3 38820 3.6401300 rfl (by decide) (by decide) (by decide +kernel)]
  rw [step 8 1965 1 38761 3.5401300 rfl (by decide) (by decide) (by decide +kernel)]
  rw [step 7 1964 9 38639 3.4401300 rfl (by decide) (by decide) (by decide +kernel)]
  rw [step 6 1964 4 38486 3.3401300 rfl (by decide) (by decide) (by decide +kernel)]
  rw [step 5 1964 1 38395 3.2401300 rfl (by decide) (by decide) (by decide +kernel)]
  rw [step 4 1963 11 38334 1.9458580 rfl (by decide) (by decide) (by decide +kernel)]
  rw [step 3 1962 1 37665 1.8458580 rfl (by decide) (by decide) (by decide +kernel)]
  rw [step 2 1961 8 37512 1.3728180 rfl (by decide) (by decide) (by decide +kernel)]
  rw [step 1 1961 1 37300 1.4228180 rfl (by decide) (by decide) (by decide +kernel)]
  rw [step 0 1960 1 36934 1.4178180 rfl (by decide) (by decide) (by decide +kernel)]
  rw [eraDatSearch]

end Pal
