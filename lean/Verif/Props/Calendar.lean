import Verif.Lemmas.Calendar
import Mathlib.Tactic.NormNum
import Mathlib.Tactic.FieldSimp
import Mathlib.Order.Monotone.Basic

/-!
# Properties C12–C18: calendar, epochs, time scales
-/

namespace Pal.Props
open Pal Pal.Spec

theorem cldj_valid (t : Date) (hv : t.Valid) (hy : -4799 ≤ t.y) (old : ℚ) :
    palCldj t.y t.m t.d old = (0, (eraMjdOf t.y t.m t.d : ℚ)) := by
  unfold palCldj eraCal2jd
  rw [if_neg (by omega), if_neg (by have := hv.m1; have := hv.m12; omega), eraLy_eq,
    if_neg (by have := hv.d1; have := hv.dn; omega)]

/-- **C12** (step) For every valid Gregorian date from year -4799 on palCldj succeeds, and the MJD of the next calendar day is larger by
exactly 1. -/
theorem C12_cldj_next_day (t : Date) (hv : t.Valid) (hy : -4799 ≤ t.y) (old old' : ℚ) :
    ∃ mjd : ℚ, palCldj t.y t.m t.d old = (0, mjd) ∧ palCldj t.next.y t.next.m t.next.d old' = (0, mjd + 1) := by
  refine ⟨_, cldj_valid t hv hy old, ?_⟩
  rw [cldj_valid _ (next_valid t hv) (le_trans hy (next_year t)), mjdOf_next t hv hy]
  push_cast; rfl

theorem iter_valid (t : Date) (hv : t.Valid) (hy : -4799 ≤ t.y) (n : ℕ) :
    (Date.next^[n] t).Valid ∧ -4799 ≤ (Date.next^[n] t).y ∧
    eraMjdOf (Date.next^[n] t).y (Date.next^[n] t).m (Date.next^[n] t).d = eraMjdOf t.y t.m t.d + n := by
  induction n with
  | zero => simpa using ⟨hv, hy⟩
  | succ n ih =>
    obtain ⟨h1, h2, h3⟩ := ih
    rw [Function.iterate_succ_apply']
    refine ⟨next_valid _ h1, le_trans h2 (next_year _), ?_⟩
    rw [mjdOf_next _ h1 h2, h3]; push_cast; ring

theorem mjdOf_inj (t u : Date) (ht : t.Valid) (hu : u.Valid) (hty : -4799 ≤ t.y) (huy : -4799 ≤ u.y)
    (h : eraMjdOf t.y t.m t.d = eraMjdOf u.y u.m u.d) : t = u := by
  have h1 := jdnCal_mjdOf t ht hty
  have h2 := jdnCal_mjdOf u hu huy
  rw [h, h2] at h1
  obtain ⟨a, b, c⟩ := t
  obtain ⟨a', b', c'⟩ := u
  simp only [Prod.mk.injEq] at h1
  simp [h1]

theorem origin_valid : mjdOrigin.Valid := ⟨by decide, by decide, by decide, by decide⟩

/-- **C12** (day count) The MJD delivered by palCldj for a valid date is the whole number of calendar days counted from 1858
November 17: stepping that many days from the origin arrives at the date (or from the date at the origin). -/
theorem C12_cldj_day_count (t : Date) (hv : t.Valid) (hy : -4799 ≤ t.y) (old : ℚ) :
    ∃ n : ℕ, (palCldj t.y t.m t.d old = (0, (n : ℚ)) ∧ Date.next^[n] mjdOrigin = t) ∨
      (palCldj t.y t.m t.d old = (0, -(n : ℚ)) ∧ Date.next^[n] t = mjdOrigin) := by
  rw [cldj_valid t hv hy]
  have ho : eraMjdOf mjdOrigin.y mjdOrigin.m mjdOrigin.d = 0 := by decide
  rcases Int.eq_nat_or_neg (eraMjdOf t.y t.m t.d) with ⟨n, hn | hn⟩
  · refine ⟨n, Or.inl ⟨by rw [hn]; push_cast; rfl, ?_⟩⟩
    obtain ⟨h1, h2, h3⟩ := iter_valid mjdOrigin origin_valid (by decide) n
    exact mjdOf_inj _ _ h1 hv h2 hy (by rw [h3, ho, hn]; simp)
  · refine ⟨n, Or.inr ⟨by rw [hn]; push_cast; rfl, ?_⟩⟩
    obtain ⟨h1, h2, h3⟩ := iter_valid t hv hy n
    exact mjdOf_inj _ _ h1 origin_valid h2 (by decide) (by rw [h3, ho, hn]; simp)

/-- **C12** (errors) An early year is reported -1 and an illegal month -2, with the MJD unchanged; an illegal day is
reported -3 and the MJD is that of the first of the month plus the days, valid or not. -/
theorem C12_cldj_errors (y m d : ℤ) (old : ℚ) :
    (y < -4799 → palCldj y m d old = (-1, old)) ∧
    (-4799 ≤ y → ¬ (1 ≤ m ∧ m ≤ 12) → palCldj y m d old = (-2, old)) ∧
    (-4799 ≤ y → 1 ≤ m → m ≤ 12 → ¬ (1 ≤ d ∧ d ≤ daysIn y m) →
      palCldj y m d old = (-3, (palCldj y m 1 old).2 + (d - 1))) := by
  refine ⟨fun h => ?_, fun h h2 => ?_, fun h h1 h2 h3 => ?_⟩
  · unfold palCldj eraCal2jd; rw [if_pos h]
  · unfold palCldj eraCal2jd; rw [if_neg (by omega), if_pos (by omega)]
  · unfold palCldj eraCal2jd
    have e1 : ¬ y < -4799 := by omega
    have e2 : ¬ (m < 1 ∨ 12 < m) := by omega
    simp only [if_neg e1, if_neg e2]
    rw [eraLy_eq, if_pos (by omega)]
    congr 1
    unfold eraMjdOf
    push_cast
    ring_nf

example : Date.Valid ⟨2000, 2, 29⟩ ∧ (palCldj 2000 2 29 7 = (0, 51603)) ∧ Date.next ⟨2000, 2, 29⟩ = ⟨2000, 3, 1⟩ :=
  ⟨⟨by decide, by decide, by decide, by decide⟩, by decide, by decide⟩
example : palCldj 1900 2 29 7 = (-3, 15079) ∧ palCldj 1900 3 1 7 = (0, 15079) := by decide

/-- **C13** (inverse) palDjcl returns for the MJD delivered by palCldj the same date, with status 0 and fraction 0 (up to the largest JD palDjcl
accepts), and for that MJD plus any part of a day the same date with that fraction. -/
theorem C13_djcl_cldj (t : Date) (hv : t.Valid) (hy : -4799 ≤ t.y) (old : ℚ) (oldc : CalDate) (f : ℚ)
    (hf : 0 ≤ f ∧ f < 1) :
    ∃ mjd : ℚ, palCldj t.y t.m t.d old = (0, mjd) ∧
      (mjd + f ≤ 997599999.5 → palDjcl (mjd + f) oldc = (0, ⟨t.y, t.m, t.d, f⟩)) := by
  refine ⟨_, cldj_valid t hv hy old, fun hmax => ?_⟩
  have hlow : -2431739 ≤ eraMjdOf t.y t.m t.d := by
    rw [mjdOf_ediv _ _ _ hy hv.m1 hv.m12]
    have := hv.m1; have := hv.m12; have := hv.d1
    split_ifs <;> omega
  have hlow' : (-2431739 : ℚ) ≤ (eraMjdOf t.y t.m t.d : ℚ) := by exact_mod_cast hlow
  unfold palDjcl eraJd2cal MJD0
  dsimp only
  rw [if_neg]
  · have hfl : ⌊(2400000.5 : ℚ) + (↑(eraMjdOf t.y t.m t.d) + f) + 1 / 2⌋ = eraMjdOf t.y t.m t.d + 2400001 := by
      rw [Int.floor_eq_iff]
      push_cast
      constructor <;> linarith
    rw [hfl, jdnCal_mjdOf t hv hy]
    simp only [Prod.mk.injEq, CalDate.mk.injEq, true_and]
    push_cast
    ring
  · push Not
    constructor <;> linarith

/-- **C13** (validity) Whenever palDjcl reports success (status 0) the date is a valid calendar date, the fraction lies in [0,1), and from year
-4799 on palCldj of the date plus the fraction is the given MJD; otherwise the status is -1 and the outputs are unchanged. -/
theorem C13_djcl_valid (djm : ℚ) (old : CalDate) :
    ∃ j c, palDjcl djm old = (j, c) ∧
      ((j = 0 ∧ Date.Valid ⟨c.iy, c.im, c.id⟩ ∧ 0 ≤ c.fd ∧ c.fd < 1 ∧
          (-4799 ≤ c.iy → ∀ x, ∃ m, palCldj c.iy c.im c.id x = (0, m) ∧ m + c.fd = djm)) ∨
       (j = -1 ∧ c = old ∧ (djm < -2468570 ∨ 997599999.5 < djm))) := by
  unfold palDjcl eraJd2cal MJD0
  dsimp only
  by_cases h : (2400000.5 : ℚ) + djm < -68569.5 ∨ 1000000000 < (2400000.5 : ℚ) + djm
  · rw [if_pos h]
    exact ⟨_, _, rfl, Or.inr ⟨rfl, rfl, by rcases h with h | h <;> [left; right] <;> linarith⟩⟩
  · rw [if_neg h]
    refine ⟨_, _, rfl, Or.inl ⟨rfl, ?_⟩⟩
    push Not at h
    dsimp only
    set J := ⌊(2400000.5 : ℚ) + djm + 1 / 2⌋ with hJ
    have h1 := Int.floor_le ((2400000.5 : ℚ) + djm + 1 / 2)
    have h2 := Int.lt_floor_add_one ((2400000.5 : ℚ) + djm + 1 / 2)
    rw [← hJ] at h1 h2
    have h0 : -68569 ≤ J := by
      rw [hJ, Int.le_floor]; push_cast; linarith
    obtain ⟨hv, hm⟩ := jdnCal_valid J h0
    refine ⟨hv, by linarith, by linarith, fun hy x => ⟨_, cldj_valid _ hv hy x, ?_⟩⟩
    dsimp only
    rw [hm hy]
    push_cast
    ring

example : palDjcl 51603.25 ⟨0, 0, 0, 0⟩ = (0, ⟨2000, 2, 29, 1 / 4⟩) := by decide +kernel

/-- **C14** palCaldj reads years 0 to 49 as 2000 to 2049, 50 to 99 as 1950 to 1999 and agrees with palCldj on all others. -/
theorem C14_caldj_century (y m d : ℤ) (old : ℚ) :
    (0 ≤ y → y ≤ 49 → palCaldj y m d old = palCldj (2000 + y) m d old) ∧
    (50 ≤ y → y ≤ 99 → palCaldj y m d old = palCldj (1900 + y) m d old) ∧
    (y < 0 ∨ 99 < y → palCaldj y m d old = palCldj y m d old) := by
  refine ⟨fun h1 h2 => ?_, fun h1 h2 => ?_, fun h => ?_⟩ <;> unfold palCaldj palCldj <;> dsimp only
  · rw [if_pos ⟨h1, h2⟩, add_comm]
  · rw [if_neg (by omega), if_pos ⟨h1, h2⟩, add_comm]
  · rw [if_neg (by omega), if_neg (by omega), add_zero]

example : palCaldj 49 12 31 0 = (0, 69806) ∧ palCaldj 50 1 1 0 = (0, 33282) ∧ palCaldj 100 1 1 0 = (0, -642416) := by decide

/-- **C15** (refuted) palDjcal does not carry into the next day: for every number of decimals from 0 to 9 and every whole MJD there is a time on that
day for which the fraction field is 10**ndp, i.e. a full day. -/
theorem C15_djcal_no_carry (ndp : ℕ) (hn : ndp ≤ 9) (t : Date) (hv : t.Valid) (hy : -4799 ≤ t.y) (hy2 : t.y ≤ 1000000)
    (old : ℤ × ℤ × ℤ × ℤ) :
    ∃ djm, palDjcal ndp djm old = some (0, (t.y, t.m, t.d, 10 ^ ndp)) := by
  have hp : (0 : ℚ) < 10 ^ ndp := by positivity
  have hp1 : (1 : ℚ) ≤ 10 ^ ndp := one_le_pow₀ (by norm_num)
  have hf : (0 : ℚ) ≤ 1 - 1 / (2 * 10 ^ ndp) ∧ 1 - 1 / (2 * 10 ^ ndp) < (1 : ℚ) := by
    constructor
    · have : 1 / (2 * 10 ^ ndp) ≤ (1 : ℚ) := by rw [div_le_one (by positivity)]; linarith
      linarith
    · have : 0 < 1 / (2 * (10 : ℚ) ^ ndp) := by positivity
      linarith
  obtain ⟨mjd, h1, h2⟩ := C13_djcl_cldj t hv hy 0 ⟨old.1, old.2.1, old.2.2.1, 0⟩ _ hf
  have hmax : eraMjdOf t.y t.m t.d ≤ 700000000 := by
    rw [mjdOf_ediv _ _ _ hy hv.m1 hv.m12]
    have := (valid_bounds t hv).1
    have := hv.m1; have := hv.m12
    split_ifs <;> omega
  have hm : mjd ≤ 700000000 := by
    have := cldj_valid t hv hy 0
    rw [h1] at this
    simp only [Prod.mk.injEq, true_and] at this
    rw [this]; exact_mod_cast hmax
  have h3 := h2 (by linarith [hf.2])
  refine ⟨mjd + (1 - 1 / (2 * 10 ^ ndp)), ?_⟩
  unfold palDjcal
  unfold palDjcl at h3
  dsimp only
  rw [h3]
  dsimp only
  have hd : dnint ((1 - 1 / (2 * 10 ^ ndp)) * (10 : ℚ) ^ (ndp : ℤ)) = 10 ^ ndp := by
    rw [zpow_natCast]
    have e : (1 - 1 / (2 * (10 : ℚ) ^ ndp)) * 10 ^ ndp = 10 ^ ndp - 1 / 2 := by field_simp
    rw [e]
    unfold dnint
    rw [if_neg (by linarith)]
    rw [show (10 : ℚ) ^ ndp - 1 / 2 + 1 / 2 = ((10 ^ ndp : ℤ) : ℚ) by push_cast; ring, Int.floor_intCast]
  rw [hd, if_neg]
  have hle : (10 : ℤ) ^ ndp ≤ 10 ^ 9 := pow_le_pow_right₀ (by norm_num) hn
  have hpos : (0 : ℤ) < 10 ^ ndp := by positivity
  push Not
  constructor <;> linarith

/-- **C15** (partial: without the carry) On success the date is valid, the fraction field lies in [0,10**ndp], and date and fraction denote an
instant within half a unit of the last place of the given MJD; the field reaches 10**ndp only in the last half unit of the day. -/
theorem C15_djcal_nearest_partial (ndp : ℕ) (djm : ℚ) (old : ℤ × ℤ × ℤ × ℤ) (j y m d n : ℤ)
    (h : palDjcal ndp djm old = some (j, (y, m, d, n))) :
    (j = 0 ∧ Date.Valid ⟨y, m, d⟩ ∧ 0 ≤ n ∧ n ≤ 10 ^ ndp ∧
      (-4799 ≤ y → ∀ x, ∃ mjd, palCldj y m d x = (0, mjd) ∧ |mjd + n / 10 ^ ndp - djm| ≤ 1 / (2 * 10 ^ ndp) ∧
        (n = 10 ^ ndp → mjd + 1 - 1 / (2 * 10 ^ ndp) ≤ djm))) ∨
    (j = -1 ∧ (y, m, d, n) = (old.1, old.2.1, old.2.2.1, 0)) := by
  unfold palDjcal at h
  dsimp only at h
  split_ifs at h with hr
  simp only [Option.some.injEq, Prod.mk.injEq] at h
  obtain ⟨e1, e2, e3, e4, e5⟩ := h
  obtain ⟨j', c, hc, hh⟩ := C13_djcl_valid djm ⟨old.1, old.2.1, old.2.2.1, 0⟩
  unfold palDjcl at hc
  rw [hc] at e1 e2 e3 e4 e5
  dsimp only at e1 e2 e3 e4 e5
  subst e1 e2 e3 e4
  have hp : (0 : ℚ) < 10 ^ ndp := by positivity
  rcases hh with ⟨h0, h1, h2, h3, h4⟩ | ⟨h0, h1, -⟩
  · left
    rw [zpow_natCast] at e5
    have hx : 0 ≤ c.fd * 10 ^ ndp := by positivity
    unfold dnint at e5
    rw [if_neg (by linarith)] at e5
    have hfl := Int.floor_le (c.fd * 10 ^ ndp + 1 / 2)
    have hfu := Int.lt_floor_add_one (c.fd * 10 ^ ndp + 1 / 2)
    rw [e5] at hfl hfu
    refine ⟨h0, h1, ?_, ?_, fun hy x => ?_⟩
    · rw [← e5]; exact Int.floor_nonneg.2 (by linarith)
    · have h6 : (n : ℚ) < 10 ^ ndp + 1 := by nlinarith
      have : n < 10 ^ ndp + 1 := by exact_mod_cast h6
      omega
    · obtain ⟨mm, hm1, hm2⟩ := h4 hy x
      refine ⟨mm, hm1, ?_, ?_⟩
      · rw [← hm2, show mm + (n : ℚ) / 10 ^ ndp - (mm + c.fd) = (n - c.fd * 10 ^ ndp) / 10 ^ ndp by field_simp; ring,
          abs_div, abs_of_pos hp, div_le_div_iff₀ hp (by positivity)]
        have : |(n : ℚ) - c.fd * 10 ^ ndp| ≤ 1 / 2 := abs_le.2 ⟨by linarith, by linarith⟩
        nlinarith
      · intro hn
        rw [hn] at hfl
        push_cast at hfl
        rw [← hm2]
        have : 1 - 1 / (2 * 10 ^ ndp) ≤ c.fd := by
          rw [sub_le_iff_le_add, ← sub_le_iff_le_add', le_div_iff₀ (by positivity)]
          nlinarith
        linarith
  · right
    subst h1
    refine ⟨h0, ?_⟩
    have : n = 0 := by
      rw [← e5]; simp only [zero_mul]; decide +kernel
    rw [this]

/-- **C15** (when the result is defined) For a date in range, the rounded fraction overflows the int, which is undefined behaviour, exactly when fraction·10**ndp
reaches 2^31 - 1/2; in particular never for ndp ≤ 9. -/
theorem C15_djcal_defined (ndp : ℕ) (djm : ℚ) (old : ℤ × ℤ × ℤ × ℤ) (h1 : -2468570 ≤ djm) (h2 : djm ≤ 997599999) :
    (palDjcal ndp djm old = none ↔ 2 ^ 31 - 1 / 2 ≤ Int.fract djm * 10 ^ ndp) ∧ (ndp ≤ 9 → palDjcal ndp djm old ≠ none) := by
  have hf0 := Int.fract_nonneg djm
  have hf1 := Int.fract_lt_one djm
  have key : palDjcal ndp djm old = none ↔ (2 : ℚ) ^ 31 - 1 / 2 ≤ Int.fract djm * 10 ^ ndp := by
    unfold palDjcal eraJd2cal MJD0
    dsimp only
    rw [if_neg (show ¬((2400000.5 : ℚ) + djm < -68569.5 ∨ 1000000000 < (2400000.5 : ℚ) + djm) by norm_num; constructor <;> linarith)]
    dsimp only
    have e : (2400000.5 : ℚ) + djm + 1 / 2 - ⌊(2400000.5 : ℚ) + djm + 1 / 2⌋ = Int.fract djm := by
      have : (2400000.5 : ℚ) + djm + 1 / 2 = djm + (2400001 : ℤ) := by norm_num; ring
      rw [this, Int.self_sub_floor, Int.fract_add_intCast]
    rw [e, zpow_natCast]
    have hx : 0 ≤ Int.fract djm * 10 ^ ndp := by positivity
    have hdn : dnint (Int.fract djm * 10 ^ ndp) = ⌊Int.fract djm * 10 ^ ndp + 1 / 2⌋ := by
      unfold dnint
      rw [if_neg (by linarith)]
    rw [hdn]
    have hnn : 0 ≤ ⌊Int.fract djm * 10 ^ ndp + 1 / 2⌋ := Int.floor_nonneg.2 (by linarith)
    have hiff : 2147483647 < ⌊Int.fract djm * 10 ^ ndp + 1 / 2⌋ ↔ (2 : ℚ) ^ 31 - 1 / 2 ≤ Int.fract djm * 10 ^ ndp := by
      rw [show (2147483647 : ℤ) < ⌊Int.fract djm * 10 ^ ndp + 1 / 2⌋ ↔ (2147483648 : ℤ) ≤ ⌊Int.fract djm * 10 ^ ndp + 1 / 2⌋ from by omega, Int.le_floor]
      norm_num
      constructor <;> intro h <;> linarith
    split_ifs with hc
    · simp only [true_iff]
      rcases hc with hc | hc
      · omega
      · exact hiff.1 hc
    · simp only [false_iff]
      intro hq
      exact hc (Or.inr (hiff.2 hq))
  refine ⟨key, fun hn h => ?_⟩
  have h3 := key.1 h
  have h4 : (10 : ℚ) ^ ndp ≤ 10 ^ 9 := pow_le_pow_right₀ (by norm_num) hn
  have h5 : Int.fract djm * 10 ^ ndp ≤ 1 * 10 ^ 9 := mul_le_mul hf1.le h4 (by positivity) (by norm_num)
  norm_num at h3 h5
  linarith

example : palDjcal 10 0.2147483647 (0, 0, 0, 0) = some (0, (1858, 11, 17, 2147483647)) := by decide +kernel
example : palDjcal 10 0.2147483648 (0, 0, 0, 0) = none := by decide +kernel
example : palDjcal 2 0.999 (0, 0, 0, 0) = some (0, (1858, 11, 17, 100)) := by decide +kernel
example : palDjcal 4 50123.9999 (0, 0, 0, 0) = some (0, (1996, 2, 10, 9999)) := by decide +kernel

/-- **C16** (inverse and increasing) Conversions between MJD and Julian or Besselian epoch are mutually inverse and strictly increasing; J2000 is MJD 51544.5
and B1900 is MJD 15019.81352. -/
theorem C16_epochs_inverse :
    (∀ e, palEpj (palEpj2d e) = e) ∧ (∀ d, palEpj2d (palEpj d) = d) ∧
    (∀ e, palEpb (palEpb2d e) = e) ∧ (∀ d, palEpb2d (palEpb d) = d) ∧
    StrictMono palEpj ∧ StrictMono palEpb ∧ StrictMono palEpj2d ∧ StrictMono palEpb2d ∧
    palEpj2d 2000 = 51544.5 ∧ palEpb2d 1900 = 15019.81352 := by
  refine ⟨fun e => ?_, fun d => ?_, fun e => ?_, fun d => ?_, fun a b h => ?_, fun a b h => ?_, fun a b h => ?_, fun a b h => ?_, ?_, ?_⟩ <;>
    simp only [palEpj, palEpj2d, palEpb, palEpb2d, eraEpj, eraEpj2jd, eraEpb, eraEpb2jd, MJD0]
  · ring
  · ring
  · ring
  · ring
  · rw [add_lt_add_iff_left]; apply div_lt_div_of_pos_right _ (by norm_num); linarith
  · rw [add_lt_add_iff_left]; apply div_lt_div_of_pos_right _ (by norm_num); linarith
  all_goals linarith

/-- **C16** (palEpco) palEpco ignores letter case; equal systems give the epoch back; 'B' to 'J' and 'J' to 'B' denote the same instant and undo each other. -/
theorem C16_epco (e : ℚ) :
    (∀ k0 k, palEpco (toLowerC k0) (toLowerC k) e = palEpco (toUpperC k0) (toUpperC k) e) ∧
    (∀ k, palEpco k k e = e) ∧
    palEpb2d (palEpco 'B' 'J' e) = palEpj2d e ∧ palEpj2d (palEpco 'J' 'B' e) = palEpb2d e ∧
    palEpco 'B' 'J' (palEpco 'J' 'B' e) = e ∧ palEpco 'J' 'B' (palEpco 'B' 'J' e) = e := by
  have hu : ∀ k, toUpperC (toLowerC k) = toUpperC (toUpperC k) := by
    intro k
    unfold toLowerC toUpperC
    by_cases h1 : 'A'.toNat ≤ k.toNat ∧ k.toNat ≤ 'Z'.toNat
    · have hk : k = Char.ofNat k.toNat := (Char.ofNat_toNat k).symm
      rw [hk]
      obtain ⟨h2, h3⟩ := h1
      have h2' : 65 ≤ k.toNat := h2
      have h3' : k.toNat ≤ 90 := h3
      generalize k.toNat = n at *
      interval_cases n <;> decide
    · rw [if_neg h1]
      by_cases h1 : 'a'.toNat ≤ k.toNat ∧ k.toNat ≤ 'z'.toNat
      · have hk : k = Char.ofNat k.toNat := (Char.ofNat_toNat k).symm
        rw [hk]
        obtain ⟨h2, h3⟩ := h1
        have h2' : 97 ≤ k.toNat := h2
        have h3' : k.toNat ≤ 122 := h3
        generalize k.toNat = n at *
        interval_cases n <;> decide
      · simp only [if_neg h1]
  refine ⟨fun k0 k => ?_, fun k => ?_, ?_, ?_, ?_, ?_⟩
  · unfold palEpco
    simp only [hu]
  · simp [palEpco]
  all_goals
    simp [palEpco, toUpperC, palEpb2d, palEpj2d, eraEpj, eraEpj2jd, eraEpb, eraEpb2jd]
    try ring

example : palEpco 'b' 'J' 2000 ≠ palEpco 'j' 'B' 2000 ∧ palEpco 'b' 'J' 2000 = palEpco 'B' 'j' 2000 := by decide +kernel

/-- **C17** (selection) palDt uses the three documented parabolas (in centuries t from 1800), one per epoch range. -/
theorem C17_dt_models (t : ℚ) :
    (1708.185161980887 ≤ 1800 + 100 * t → palDt (1800 + 100 * t) = 5.156 + 13.3066 * (t - 0.19) ^ 2) ∧
    (979.0258204760233 ≤ 1800 + 100 * t → 1800 + 100 * t < 1708.185161980887 → palDt (1800 + 100 * t) = 25.5 * t ^ 2) ∧
    (1800 + 100 * t < 979.0258204760233 → palDt (1800 + 100 * t) = 1360 + 320 * t + 44.3 * t ^ 2) := by
  have e : (1800 + 100 * t - 1800) / 100 = t := by ring
  refine ⟨fun h => ?_, fun h h' => ?_, fun h => ?_⟩ <;> unfold palDt <;> dsimp only <;> rw [e]
  · rw [if_pos h]; ring
  · rw [if_neg (by linarith), if_pos h]; ring
  · rw [if_neg (by linarith), if_neg (by linarith)]; ring

/-- **C17** (continuity) palDt is uniformly continuous across the break points to within 10⁻⁹ s: for epochs on either side of a break point and
within δ years of it the values differ by at most 10⁻⁹ + 10 δ (δ at most one year). -/
theorem C17_dt_continuous (b x y δ : ℚ) (hb : b = 1708.185161980887 ∨ b = 979.0258204760233)
    (hx : x < b) (hx' : b - δ ≤ x) (hy : b ≤ y) (hy' : y ≤ b + δ) (hd : δ ≤ 1) :
    |palDt y - palDt x| ≤ 1 / 1000000000 + 10 * δ := by
  unfold palDt
  dsimp only
  rcases hb with rfl | rfl
  · rw [if_pos hy, if_neg (by linarith), if_pos (by linarith), abs_le]
    constructor <;> nlinarith
  · rw [if_neg (by linarith), if_pos hy, if_neg (by linarith), if_neg (by linarith), abs_le]
    constructor <;> nlinarith

/-- **C17** (minimum) palDt never falls below 5.156 s, the value at epoch 1819, where alone it is attained. -/
theorem C17_dt_min (epoch : ℚ) : 5.156 ≤ palDt epoch ∧ (palDt epoch = 5.156 ↔ epoch = 1819) := by
  unfold palDt
  dsimp only
  split_ifs with h1 h2
  · refine ⟨by nlinarith [sq_nonneg (epoch - 1819)], fun h => ?_, fun h => by subst h; norm_num⟩
    have : (epoch - 1819) ^ 2 = 0 := by nlinarith
    have := pow_eq_zero_iff (two_ne_zero) |>.1 this
    linarith
  · push Not at h1
    have : (5.156 : ℚ) < 25.5 * ((epoch - 1800) / 100) * ((epoch - 1800) / 100) := by nlinarith
    exact ⟨this.le, fun h => absurd h this.ne', fun h => by subst h; norm_num at h1⟩
  · push Not at h1 h2
    have : (5.156 : ℚ) < 1360 + (320 + 44.3 * ((epoch - 1800) / 100)) * ((epoch - 1800) / 100) := by
      nlinarith [sq_nonneg ((epoch - 1800) / 100 + 3.61)]
    exact ⟨this.le, fun h => absurd h this.ne', fun h => by subst h; norm_num at h1⟩

example : palDt 1998.5 = 5.156 + 13.3066 * 1.795 ^ 2 ∧ palDt 1000 = 1632 := by decide +kernel

/-- **C18** palDat is the leap-second table at the calendar date of the MJD and palDtt exceeds it by exactly 32.184 s; both are defined exactly for dates the
calendar conversion accepts. -/
theorem C18_dtt (eraDat : ℤ → ℤ → ℤ → ℚ → ℚ) (t : Date) (hv : t.Valid) (hy : -4799 ≤ t.y) (f : ℚ) (hf : 0 ≤ f ∧ f < 1) :
    ∃ mjd : ℚ, palCldj t.y t.m t.d 0 = (0, mjd) ∧ (mjd + f ≤ 997599999.5 →
      palDat eraDat (mjd + f) = some (eraDat t.y t.m t.d f) ∧
      palDtt eraDat (mjd + f) = some (eraDat t.y t.m t.d f + 32.184)) := by
  obtain ⟨mjd, h1, h2⟩ := C13_djcl_cldj t hv hy 0 ⟨0, 0, 0, 0⟩ f hf
  refine ⟨mjd, h1, fun h => ?_⟩
  have h3 := h2 h
  unfold palDjcl at h3
  have : palDat eraDat (mjd + f) = some (eraDat t.y t.m t.d f) := by
    unfold palDat
    dsimp only
    rw [h3]
    simp
  refine ⟨this, ?_⟩
  unfold palDtt
  rw [this, Option.map_some, add_comm]

theorem C18_dtt_dat (eraDat : ℤ → ℤ → ℤ → ℚ → ℚ) (utc : ℚ) :
    (∀ d, palDat eraDat utc = some d → palDtt eraDat utc = some (d + 32.184)) ∧
    (palDat eraDat utc = none ↔ utc < -2468570 ∨ 997599999.5 < utc) := by
  constructor
  · intro d h; unfold palDtt; rw [h, Option.map_some, add_comm]
  · unfold palDat eraJd2cal MJD0
    dsimp only
    by_cases h : (2400000.5 : ℚ) + utc < -68569.5 ∨ 1000000000 < (2400000.5 : ℚ) + utc
    · rw [if_pos h, if_neg (by decide)]
      simp only [true_iff]
      rcases h with h | h <;> [left; right] <;> linarith
    · rw [if_neg h, if_pos rfl]
      push Not at h
      simp only [reduceCtorEq, false_iff, not_or, not_lt]
      constructor <;> linarith

example : palDtt (fun y _ _ _ => if y < 2017 then 36 else 37) 57754.5 = some 69.184 := by decide +kernel

end Pal.Props
