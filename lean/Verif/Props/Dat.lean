import Verif.Lemmas.DatTable

/-!
# TAI-UTC: `palDat` and `palDtt` with ERFA's leap-second table
-/

namespace Pal.Props
open Pal Spec

/-- The value outside 1960 onwards is zero however far back the date is. -/
theorem eraDat_before (y m d : ℤ) (f : ℚ) (hy : y < 1960) : eraDat y m d f = 0 := by
  unfold eraDat
  dsimp only
  split_ifs <;> rfl

/-- **C105** For every date palDat accepts, its result is TAI-UTC as published: zero before 1960, the linear laws up to 1972, then ten seconds
plus the leap seconds so far; palDtt adds 32.184 s. -/
theorem C105_dat (x : ℚ) (h1 : -2468570 ≤ x) (h2 : x ≤ 997599999.5) :
    palDatErfa x = some (taiUtc x) ∧ palDttErfa x = some (taiUtc x + 32.184) := by
  have main : palDatErfa x = some (taiUtc x) := by
    obtain ⟨j, c, hjc, h⟩ := C13_djcl_valid x ⟨0, 0, 0, 0⟩
    rcases h with ⟨hj, hv, hf0, hf1, hm⟩ | ⟨_, _, h | h⟩
    · unfold palDjcl at hjc
      unfold palDatErfa palDat
      rw [hjc]
      dsimp only
      rw [if_pos hj]
      congr 1
      by_cases hy : -4799 ≤ c.iy
      · obtain ⟨m, hm1, hm2⟩ := hm hy 0
        have hc := cldj_valid _ hv hy 0
        dsimp only at hc
        rw [hc] at hm1
        have he : ((eraMjdOf c.iy c.im c.id : ℤ) : ℚ) = m := (Prod.mk.inj hm1).2
        rw [eraDat_taiUtc ⟨c.iy, c.im, c.id⟩ hv hy c.fd ⟨hf0, hf1⟩]
        dsimp only
        rw [he, hm2]
      · rw [eraDat_before _ _ _ _ (by omega)]
        have hx : x < 36934 := by
          by_contra hc
          push Not at hc
          unfold eraJd2cal MJD0 at hjc
          dsimp only at hjc
          rw [if_neg (by rintro (h | h) <;> linarith)] at hjc
          have hc2 := (Prod.mk.inj hjc).2
          have : c.iy = (eraJdnCal ⌊(2400000.5 : ℚ) + x + 1 / 2⌋).1 := by rw [← hc2]
          have h3 := jdnCal_year ⌊(2400000.5 : ℚ) + x + 1 / 2⌋ (by rw [Int.le_floor]; push_cast; linarith)
          omega
        unfold taiUtc
        rw [if_pos hx]
    · linarith
    · linarith
  refine ⟨main, ?_⟩
  exact (C18_dtt_dat eraDat x).1 _ main

example : palDatErfa 57753.9 = some 36 ∧ palDatErfa 57754 = some 37 ∧ palDttErfa 60000 = some 69.184 ∧
    palDatErfa 37512.5 = some (1.372818 + 212.5 * 0.001296) := by decide +kernel

theorem filter_split (l : List ℚ) (x y : ℚ) (hxy : x ≤ y) :
    (l.filter (fun a => a ≤ y)).length = (l.filter (fun a => a ≤ x)).length + (l.filter (fun a => x < a ∧ a ≤ y)).length := by
  induction l with
  | nil => rfl
  | cons a l ih =>
    by_cases h1 : a ≤ x
    · simp [h1, le_trans h1 hxy, not_lt.mpr h1] at ih ⊢
      omega
    · by_cases h2 : a ≤ y
      · simp [h1, h2, not_le.mp h1] at ih ⊢
        omega
      · simp [h1, h2] at ih ⊢
        omega

theorem taiUtc_1972 (x : ℚ) (hx : 41317 ≤ x) : taiUtc x = 10 + ((leapSeconds.filter (fun l => l ≤ x)).length : ℚ) := by
  unfold taiUtc
  iterate 15 rw [if_neg (by linarith)]

/-- **C105** From 1972 on TAI-UTC is a whole number of seconds from 10 to 37, and between two dates it grows by the number of leap
seconds between them. -/
theorem C105_dat_leap (x y : ℚ) (h1 : 41317 ≤ x) (hxy : x ≤ y) (h2 : y ≤ 997599999.5) :
    ∃ n k : ℕ, palDatErfa x = some (n : ℚ) ∧ palDatErfa y = some ((n + k : ℕ) : ℚ) ∧ 10 ≤ n ∧ n + k ≤ 37 ∧
      k = (leapSeconds.filter (fun l => x < l ∧ l ≤ y)).length := by
  refine ⟨10 + (leapSeconds.filter (fun l => l ≤ x)).length, (leapSeconds.filter (fun l => x < l ∧ l ≤ y)).length, ?_, ?_, by omega, ?_, rfl⟩
  · rw [(C105_dat x (by linarith) (by linarith)).1, taiUtc_1972 x h1]
    push_cast; rfl
  · rw [(C105_dat y (by linarith) (by linarith)).1, taiUtc_1972 y (by linarith), filter_split _ x y hxy]
    push_cast
    rw [add_assoc]
  · have h3 := filter_split leapSeconds x y hxy
    have h4 := List.length_filter_le (fun a => decide (a ≤ y)) leapSeconds
    have h5 : leapSeconds.length = 27 := rfl
    omega

/-- **C105** From 1968 February 1 on, TAI (the UTC date plus palDat's seconds) strictly increases with UTC; before that the two steps back of 1961 and 1968
make it decrease. -/
theorem C105_tai_increasing (x y : ℚ) (h1 : 39887 ≤ x) (hxy : x < y) (h2 : y ≤ 997599999.5) :
    ∃ a b : ℚ, palDatErfa x = some a ∧ palDatErfa y = some b ∧ a ≤ b ∧ x + a / 86400 < y + b / 86400 := by
  refine ⟨taiUtc x, taiUtc y, (C105_dat x (by linarith) (by linarith)).1, (C105_dat y (by linarith) (by linarith)).1, ?_⟩
  have key : taiUtc x ≤ taiUtc y := by
    have pre : ∀ z : ℚ, 39887 ≤ z → z < 41317 → taiUtc z = 4.21317 + (z - 39126) * 0.002592 := by
      intro z h h'
      unfold taiUtc
      iterate 14 rw [if_neg (by linarith)]
      rw [if_pos h']
    rcases lt_or_ge x 41317 with hx | hx
    · rw [pre x h1 hx]
      rcases lt_or_ge y 41317 with hy | hy
      · rw [pre y (by linarith) hy]
        linarith
      · rw [taiUtc_1972 y hy]
        have : (0 : ℚ) ≤ ((leapSeconds.filter (fun l => l ≤ y)).length : ℚ) := Nat.cast_nonneg _
        linarith
    · rw [taiUtc_1972 x hx, taiUtc_1972 y (by linarith), filter_split _ x y hxy.le]
      push_cast
      have : (0 : ℚ) ≤ ((leapSeconds.filter (fun l => x < l ∧ l ≤ y)).length : ℚ) := Nat.cast_nonneg _
      simp only [Bool.decide_and] at this ⊢
      linarith
  exact ⟨key, by linarith⟩

theorem C105_tai_decreasing_1968 :
    ∃ x y a b : ℚ, x < y ∧ palDatErfa x = some a ∧ palDatErfa y = some b ∧ y + b / 86400 < x + a / 86400 := by
  refine ⟨39886.9999995, 39887, taiUtc 39886.9999995, taiUtc 39887, by norm_num, ?_⟩
  decide +kernel

example : palDatErfa 41317 = some 10 ∧ (leapSeconds.filter (fun l => (41317 : ℚ) < l ∧ l ≤ 44000)).length = 8 ∧
    palDatErfa 44000 = some 18 := by decide +kernel

end Pal.Props
