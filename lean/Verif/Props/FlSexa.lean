import Verif.Lemmas.FlSexa

/-!
# Sexagesimal conversions in double precision: property C98

`fl` is any rounding to nearest with the precision of IEEE 754 binary64 (`Rounding`); `guard` tells recent from older versions of ERFA's rounding to an integer.
-/

namespace Pal.Props
open Pal Pal.Spec

/-- The size of the machine's number of units, rounded to an integer. -/
theorem flUnits_near {fl : ℝ → ℝ} (R : Rounding fl) (guard : Bool) (r A : ℝ) (hr : 1 ≤ r) (hr9 : r ≤ 10 ^ 9) (hA : 0 ≤ A) (hN : A * r ≤ 4e15) :
    0 ≤ flNint fl guard (fl (r * fl A)) ∧ |(flNint fl guard (fl (r * fl A)) : ℝ) - A * r| ≤ 1 / 2 + 3.4e-16 * (A * r) + 1e-15 := by
  have hA2 : A ≤ 4e15 := by nlinarith
  have e1 := R.err (x := A) (by rw [abs_of_nonneg hA]; exact hA2.trans (by norm_num))
  have p1 := R.nonneg (x := A) (by rw [abs_of_nonneg hA]; exact hA2.trans (by norm_num)) hA
  rw [abs_of_nonneg hA] at e1
  have z0 : (0 : ℝ) ≤ 1 / 10 ^ 200 := by norm_num
  have z1 : (1 : ℝ) / 10 ^ 200 ≤ 1 / 10 ^ 30 := by norm_num
  generalize (1 : ℝ) / 10 ^ 200 = z at *
  generalize fl A = a at *
  have b1 := abs_le.1 e1
  have q0 : 0 ≤ r * a := mul_nonneg (by linarith) p1
  have q1 : |r * a - A * r| ≤ 1.1103e-16 * (A * r) + 1e-20 := by
    have : r * a - A * r = r * (a - A) := by ring
    rw [this, abs_mul, abs_of_nonneg (by linarith : 0 ≤ r)]
    have h1 : r * |a - A| ≤ r * (1.1103e-16 * A + z) := mul_le_mul_of_nonneg_left e1 (by linarith)
    have h2 : r * z ≤ 10 ^ 9 * (1 / 10 ^ 30) := mul_le_mul hr9 z1 z0 (by norm_num)
    have h3 : (10 : ℝ) ^ 9 * (1 / 10 ^ 30) ≤ 1e-20 := by norm_num
    linarith
  have c1 := abs_le.1 q1
  have u1 : r * a ≤ 4.1e15 := by linarith
  have e2 := R.err (x := r * a) (by rw [abs_of_nonneg q0]; exact u1.trans (by norm_num))
  have p2 := R.nonneg (x := r * a) (by rw [abs_of_nonneg q0]; exact u1.trans (by norm_num)) q0
  rw [abs_of_nonneg q0] at e2
  have z3 : (1 : ℝ) / 10 ^ 200 ≤ 1 / 10 ^ 30 := by norm_num
  generalize (1 : ℝ) / 10 ^ 200 = z' at *
  have b2 := abs_le.1 e2
  generalize fl (r * a) = x at *
  have z4 : (1 : ℝ) / 10 ^ 30 ≤ 1e-20 := by norm_num
  have d1 : x ≤ A * r + 2.2207e-16 * (A * r) + 3e-20 := by linarith
  have d2 : A * r - 2.2207e-16 * (A * r) - 3e-20 ≤ x := by linarith
  have rA : 0 ≤ A * r := mul_nonneg hA (by linarith)
  unfold flNint
  split_ifs with hg
  · refine ⟨le_refl _, ?_⟩
    push_cast
    rw [abs_le]
    constructor <;> linarith [hg.2]
  · have p3 : 0 ≤ x + 1 / 2 := by linarith
    have e3 := R.err (x := x + 1 / 2) (by rw [abs_of_nonneg p3]; have : x + 1 / 2 ≤ 4.2e15 := by linarith
                                          exact this.trans (by norm_num))
    have p4 := R.nonneg (x := x + 1 / 2) (by rw [abs_of_nonneg p3]; have : x + 1 / 2 ≤ 4.2e15 := by linarith
                                             exact this.trans (by norm_num)) p3
    rw [abs_of_nonneg p3] at e3
    have z6 : (1 : ℝ) / 10 ^ 200 ≤ 1 / 10 ^ 30 := by norm_num
    generalize (1 : ℝ) / 10 ^ 200 = z'' at *
    have b3 := abs_le.1 e3
    generalize fl (x + 1 / 2) = y at *
    refine ⟨Int.floor_nonneg.2 p4, ?_⟩
    have f1 := Int.floor_le y
    have f2 := Int.lt_floor_add_one y
    rw [abs_le]
    constructor <;> linarith

/-- **C98** (what is shown): with up to nine places and a moderate interval, what palDd2tf writes in double precision is well formed, has the sign of the interval, and differs from it by at most half of
the last place plus three roundings. -/
theorem C98_shows {fl : ℝ → ℝ} (R : Rounding fl) (guard : Bool) (ndp : ℕ) (h9 : ndp ≤ 9) (days : ℝ) (hd : 24 * |days| ≤ 2000000000) (hN : 86400 * |days| * 10 ^ ndp ≤ 4e15) :
    let v := flDd2tf fl guard ndp days
    WellFormed ndp v ∧ v.h ≤ 2147483647 ∧ (v.sign = '+' ↔ 0 ≤ days) ∧ (v.sign = '-' ↔ days < 0) ∧
      |shownSeconds ndp v - 86400 * (|days|)| ≤ (1 / 2 + 1e-15) * lastPlace ndp + 3.4e-16 * (86400 * |days|) := by
  intro v
  have hR : (0 : ℝ) < 10 ^ ndp := by positivity
  have hR1 : (1 : ℝ) ≤ 10 ^ ndp := one_le_pow₀ (by norm_num)
  have hR9 : (10 : ℝ) ^ ndp ≤ 10 ^ 9 := pow_le_pow_right₀ (by norm_num) h9
  have hA : 0 ≤ 86400 * |days| := by positivity
  obtain ⟨n0, n1⟩ := flUnits_near R guard (10 ^ ndp) (86400 * |days|) hR1 hR9 hA hN
  obtain ⟨N, hNe⟩ : ∃ N, N = flNint fl guard (fl (10 ^ ndp * fl (86400 * |days|))) := ⟨_, rfl⟩
  rw [← hNe] at n0 n1
  have b := abs_le.1 n1
  have hNu : N ≤ 4 * 10 ^ 15 + 10 := by
    have : (N : ℝ) ≤ 4 * 10 ^ 15 + 10 := by norm_num at *; linarith
    exact_mod_cast this
  obtain ⟨a1, a2, a3, a4, a5⟩ := flD2tf_units R guard ndp h9 days N (by push_cast; exact hNe.symm) n0 hNu
  obtain ⟨s1, s2, s3, s4, s5, s6, s7, s8⟩ := units_split (10 ^ ndp) N (by positivity) n0
  rw [← a2] at s1 s8
  rw [← a3] at s2 s3 s8
  rw [← a4] at s4 s5 s8
  rw [← a5] at s6 s7 s8
  change v.sign = _ at a1
  change v.h = _ at a2
  change 0 ≤ v.h at s1
  change 0 ≤ v.m at s2
  change v.m < 60 at s3
  change 0 ≤ v.s at s4
  change v.s < 60 at s5
  change 0 ≤ v.f at s6
  change v.f < _ at s7
  change ((v.h * 60 + v.m) * 60 + v.s) * 10 ^ ndp + v.f = N at s8
  have hsh : shownSeconds ndp v * 10 ^ ndp = N := by
    rw [← s8]; unfold shownSeconds; rw [Int.toNat_natCast]; push_cast; field_simp; ring
  have hl : lastPlace ndp * 10 ^ ndp = 1 := by
    unfold lastPlace; rw [if_pos (by omega), Int.toNat_natCast]; field_simp
  refine ⟨⟨s1, ⟨s2, s3⟩, ⟨s4, s5⟩, ⟨s6, by rw [Int.toNat_natCast]; exact s7⟩⟩, ?_, ?_, ?_, ?_⟩
  · by_contra hc
    have hc : 2147483648 ≤ v.h := by omega
    have h1 : (2147483648 : ℝ) ≤ v.h := by exact_mod_cast hc
    have h2 : (v.h : ℝ) * 3600 * 10 ^ ndp ≤ N := by
      have : v.h * 3600 * 10 ^ ndp ≤ N := by
        rw [← s8]
        have k : 0 ≤ (v.m * 60 + v.s) * 10 ^ ndp := mul_nonneg (by omega) (by positivity)
        have : ((v.h * 60 + v.m) * 60 + v.s) * 10 ^ ndp = v.h * 3600 * 10 ^ ndp + (v.m * 60 + v.s) * 10 ^ ndp := by ring
        omega
      exact_mod_cast this
    have h3 : (2147483648 : ℝ) * 3600 * 10 ^ ndp ≤ v.h * 3600 * 10 ^ ndp := by
      exact mul_le_mul_of_nonneg_right (by linarith) hR.le
    have h4 : 86400 * |days| * 10 ^ ndp ≤ 2000000000 * 3600 * 10 ^ ndp := mul_le_mul_of_nonneg_right (by linarith) hR.le
    linarith
  · rw [a1]; split_ifs with h
    · simp [h]
    · simp; linarith
  · rw [a1]; split_ifs with h
    · simp; linarith
    · simp; linarith
  · have h1 : |shownSeconds ndp v - 86400 * (|days|)| * 10 ^ ndp = |(N : ℝ) - 86400 * |days| * 10 ^ ndp| := by
      rw [← hsh, ← sub_mul, abs_mul, abs_of_pos hR]
    have h2 : ((1 / 2 + 1e-15) * lastPlace ndp + 3.4e-16 * (86400 * |days|)) * 10 ^ ndp = 1 / 2 + 3.4e-16 * (86400 * |days| * 10 ^ ndp) + 1e-15 := by
      calc _ = (1 / 2 + 1e-15) * (lastPlace ndp * 10 ^ ndp) + 3.4e-16 * (86400 * |days| * 10 ^ ndp) := by ring
        _ = _ := by rw [hl]; ring
    refine le_of_mul_le_mul_right ?_ hR
    rw [h1, h2]
    exact n1

/-- With IEEE 754 rounding, 0.987654321 of a day to nine places. -/
example : WellFormed (9 : ℕ) (flDd2tf ieee true 9 (-0.987654321)) ∧ (flDd2tf ieee true 9 (-0.987654321)).sign = '-' := by
  have := C98_shows ieee_rounding true 9 (le_refl _) (-0.987654321) (by rw [abs_of_neg (by norm_num)]; norm_num) (by rw [abs_of_neg (by norm_num)]; norm_num)
  exact ⟨this.1, this.2.2.2.1.2 (by norm_num)⟩

/-- The three fields of zero. -/
theorem flZero_back {fl : ℝ → ℝ} (R : Rounding fl) (guard : Bool) (ndp : ℕ) (h9 : ndp ≤ 9) (v : Hmsf) (hs : v.sign = '+') (z : v.h = 0 ∧ v.m = 0 ∧ v.s = 0 ∧ v.f = 0) :
    flD2tf fl guard ndp 0 = v := by
  have h0 : flNint fl guard (fl (((10 ^ ndp : ℤ) : ℝ) * fl (86400 * |(0 : ℝ)|))) = 0 := by
    rw [abs_zero, mul_zero, R.zero, mul_zero, R.zero]
    exact flNint_near R guard 0 0 (le_refl _) (by norm_num) (by norm_num)
  obtain ⟨a1, a2, a3, a4, a5⟩ := flD2tf_units R guard ndp h9 0 0 h0 (le_refl _) (by norm_num)
  rw [if_pos (le_refl _)] at a1
  generalize flD2tf fl guard ndp 0 = w at *
  cases v; cases w
  simp only [Hmsf.mk.injEq]
  simp at a1 a2 a3 a4 a5 z hs
  exact ⟨a1.trans hs.symm, a2.trans z.1.symm, a3.trans z.2.1.symm, a4.trans z.2.2.1.symm, a5.trans z.2.2.2.symm⟩

/-- **C98** (round trip): fields written down and typed in again (the seconds with their decimals read as the nearest double) come back unchanged, in double precision: for days and time of day with up to nine places,
for degrees with up to eight. -/
theorem C98_roundtrip {fl : ℝ → ℝ} (R : Rounding fl) (guard : Bool) (ndp : ℕ) (v : Hmsf) (hw : WellFormed ndp v) (hs : v.sign = '+') :
    let sec := fl (v.s + v.f / 10 ^ ndp)
    (ndp ≤ 9 → v.h ≤ 23 → flDd2tf fl guard ndp (flDtf2d fl v.h v.m sec) = v) ∧
    (ndp ≤ 9 → v.h ≤ 23 → flDr2tf fl guard ndp (flDtf2r fl v.h v.m sec) = v) ∧
    (ndp ≤ 8 → v.h ≤ 359 → flDr2af fl guard ndp (flDaf2r fl v.h v.m sec) = v) := by
  intro sec
  have hw' := hw
  obtain ⟨h0, hm, hs', hf⟩ := hw'
  rw [Int.toNat_natCast] at hf
  have hR : (0 : ℝ) < 10 ^ ndp := by positivity
  have hR1 : (1 : ℝ) ≤ 10 ^ ndp := one_le_pow₀ (by norm_num)
  have hfr : (0 : ℝ) ≤ v.f := by exact_mod_cast hf.1
  have hsr : (0 : ℝ) ≤ v.s := by exact_mod_cast hs'.1
  have hhr : (0 : ℝ) ≤ v.h := by exact_mod_cast h0
  have hmr : (0 : ℝ) ≤ v.m := by exact_mod_cast hm.1
  have hm60 : (v.m : ℝ) ≤ 59 := by exact_mod_cast (show v.m ≤ 59 by omega)
  have hx2 : (v.s : ℝ) + v.f / 10 ^ ndp ≤ 60 := by
    have h1 : (v.s : ℝ) ≤ 59 := by exact_mod_cast (show v.s ≤ 59 by omega)
    have h2 : (v.f : ℝ) / 10 ^ ndp ≤ 1 := by rw [div_le_one hR]; exact_mod_cast hf.2.le
    linarith
  by_cases z : v.h = 0 ∧ v.m = 0 ∧ v.s = 0 ∧ v.f = 0
  · have hsec : sec = 0 := by
      show fl (v.s + v.f / 10 ^ ndp) = 0
      rw [z.2.2.1, z.2.2.2]; simp [R.zero]
    have hS : flSeconds fl v.h v.m sec = 0 := by
      unfold flSeconds; rw [hsec, z.1, z.2.1]; simp [R.zero]
    refine ⟨fun h9 _ => ?_, fun h9 _ => ?_, fun h9 _ => ?_⟩
    · unfold flDd2tf flDtf2d; rw [hS, zero_div, R.zero]; exact flZero_back R guard ndp h9 v hs z
    · unfold flDr2tf flDtf2r; rw [hS, zero_mul, R.zero, zero_div, R.zero]; exact flZero_back R guard ndp h9 v hs z
    · unfold flDr2af flDaf2r; rw [hS, zero_mul, R.zero, zero_mul, R.zero]; exact flZero_back R guard ndp (by omega) v hs z
  have hN : 0 < ((v.h * 60 + v.m) * 60 + v.s) * 10 ^ ndp + v.f := by
    by_cases y : v.h = 0 ∧ v.m = 0 ∧ v.s = 0
    · obtain ⟨y1, y2, y3⟩ := y
      rw [y1, y2, y3]; omega
    · have h1 : 1 ≤ (v.h * 60 + v.m) * 60 + v.s := by omega
      have : 1 * 1 ≤ ((v.h * 60 + v.m) * 60 + v.s) * (10 : ℤ) ^ ndp := mul_le_mul h1 (one_le_pow₀ (by norm_num)) (by norm_num) (by omega)
      omega
  obtain ⟨T, hT⟩ : ∃ T, T = shownSeconds ndp v := ⟨_, rfl⟩
  have hTe : T = 3600 * v.h + 60 * v.m + (v.s + v.f / 10 ^ ndp) := by rw [hT]; unfold shownSeconds; rw [Int.toNat_natCast]; ring
  have hTN : T * 10 ^ ndp = ((((v.h * 60 + v.m) * 60 + v.s) * 10 ^ ndp + v.f : ℤ) : ℝ) := by
    rw [hTe]; push_cast; field_simp; ring
  have hTp : 0 < T := by
    have : 0 < T * 10 ^ ndp := by rw [hTN]; exact_mod_cast hN
    exact pos_of_mul_pos_left this hR.le
  have key : ndp ≤ 9 → v.h ≤ 359 → |flSeconds fl v.h v.m sec - T| ≤ 2.221e-16 * T ∧ 1 / 10 ^ 9 ≤ T := by
    intro h9 hh
    have hR9 : (10 : ℝ) ^ ndp ≤ 10 ^ 9 := pow_le_pow_right₀ (by norm_num) h9
    constructor
    · have := flSeconds_near R v.h v.m (v.s + v.f / 10 ^ ndp) ⟨h0, hh⟩ hm ?_ hx2 (by rw [← hTe]; exact hTp)
      · rwa [← hTe] at this
      · rcases eq_or_lt_of_le hf.1 with h | h
        · rcases eq_or_lt_of_le hs'.1 with h' | h'
          · left; rw [← h, ← h']; simp
          · right
            have : (1 : ℝ) ≤ v.s := by exact_mod_cast h'
            have : (0 : ℝ) ≤ v.f / 10 ^ ndp := by positivity
            have : (1 : ℝ) / 10 ^ 9 ≤ 1 := by norm_num
            linarith
        · right
          have h1 : (1 : ℝ) ≤ v.f := by exact_mod_cast h
          have : (1 : ℝ) / 10 ^ 9 ≤ v.f / 10 ^ ndp := by
            rw [div_le_div_iff₀ (by norm_num) hR]
            nlinarith
          linarith
    · have h1 : 1 ≤ T * 10 ^ ndp := by
        rw [hTN]; exact_mod_cast hN
      rw [div_le_iff₀ (by norm_num)]
      have : T * 10 ^ ndp ≤ T * 10 ^ 9 := mul_le_mul_of_nonneg_left hR9 hTp.le
      linarith
  have hT23 : v.h ≤ 23 → T ≤ 86400 := by
    intro h
    have : (v.h : ℝ) ≤ 23 := by exact_mod_cast h
    rw [hTe]; linarith
  have hT359 : v.h ≤ 359 → T ≤ 1296000 := by
    intro h
    have : (v.h : ℝ) ≤ 359 := by exact_mod_cast h
    rw [hTe]; linarith
  have hp1 : ndp ≤ 9 → v.h ≤ 23 → T * 10 ^ ndp ≤ 1.3e14 := by
    intro h9 h
    have := mul_le_mul (hT23 h) (pow_le_pow_right₀ (by norm_num : (1 : ℝ) ≤ 10) h9) hR.le (by norm_num)
    exact this.trans (by norm_num)
  have hp2 : ndp ≤ 8 → v.h ≤ 359 → T * 10 ^ ndp ≤ 1.3e14 := by
    intro h9 h
    have := mul_le_mul (hT359 h) (pow_le_pow_right₀ (by norm_num : (1 : ℝ) ≤ 10) h9) hR.le (by norm_num)
    exact this.trans (by norm_num)
  refine ⟨fun h9 hh => ?_, fun h9 hh => ?_, fun h8 hh => ?_⟩
  · obtain ⟨k1, k2⟩ := key h9 (by omega)
    have s := R.step' (c := 1 / 86400) 3.3316e-16 hTp (by norm_num) k1 (by norm_num) (by
      have : (1 / 86400) * (1 / 10 ^ 9) ≤ 1 / 86400 * T := mul_le_mul_of_nonneg_left k2 (by norm_num)
      exact le_trans (by norm_num) this) (by have := hT23 hh; norm_num; linarith) (by norm_num)
    refine flD2tf_back R guard ndp h9 v hw hs _ 1 (by norm_num) (hT ▸ hTp) (hT ▸ hp1 h9 hh) ?_
    rw [← hT]
    unfold flDtf2d
    have e1 : flSeconds fl v.h v.m sec / 86400 = 1 / 86400 * flSeconds fl v.h v.m sec := by ring
    have e2 : 1 * T / 86400 = 1 / 86400 * T := by ring
    rw [e1, e2]
    exact s.trans (mul_le_mul_of_nonneg_right (by norm_num) (by positivity))
  · obtain ⟨k1, k2⟩ := key h9 (by omega)
    have tu := hT23 hh
    have κ := fl_factor_time R
    obtain ⟨c, cp⟩ := R.const 7.272205216643039903848712e-5 (by norm_num) (by norm_num)
    obtain ⟨d, dp⟩ := R.const 6.283185307179586476925287 (by norm_num) (by norm_num)
    have hc := abs_le.1 c
    have hd := abs_le.1 d
    change 0 < flDS2R fl at cp
    change 0 < flD2PI fl at dp
    change -_ ≤ flDS2R fl - _ ∧ flDS2R fl - _ ≤ _ at hc
    change -_ ≤ flD2PI fl - _ ∧ flD2PI fl - _ ≤ _ at hd
    have c1 : 7e-5 ≤ flDS2R fl := by norm_num at hc ⊢; linarith
    have c2 : flDS2R fl ≤ 1 := by norm_num at hc ⊢; linarith
    have d1 : flD2PI fl ≤ 10 := by norm_num at hd ⊢; linarith
    have d2 : 1 ≤ flD2PI fl := by norm_num at hd ⊢; linarith
    have l1 : (1e-14 : ℝ) ≤ flDS2R fl * T := by
      have := mul_le_mul c1 k2 (by norm_num) cp.le
      exact le_trans (by norm_num) this
    have u1 : flDS2R fl * T ≤ 86400 := by
      have := mul_le_mul c2 tu hTp.le (by norm_num)
      exact this.trans (by norm_num)
    have s1 := R.step' (c := flDS2R fl) 3.3316e-16 hTp cp k1 (by norm_num) (le_trans (by norm_num) l1) (u1.trans (by norm_num)) (by norm_num)
    have l2 : (1e-15 : ℝ) ≤ 1 / flD2PI fl * (flDS2R fl * T) := by
      have : (1 / 10 : ℝ) ≤ 1 / flD2PI fl := one_div_le_one_div_of_le dp d1
      have := mul_le_mul this l1 (by norm_num) (by positivity)
      exact le_trans (by norm_num) this
    have u2 : 1 / flD2PI fl * (flDS2R fl * T) ≤ 86400 := by
      have : 1 / flD2PI fl ≤ 1 := by rw [div_le_one dp]; exact d2
      have := mul_le_mul this u1 (by positivity) (by norm_num)
      exact this.trans (by norm_num)
    have s2 := R.step' (c := 1 / flD2PI fl) 4.4422e-16 (mul_pos cp hTp) (by positivity) s1 (by norm_num) (le_trans (by norm_num) l2) (u2.trans (by norm_num)) (by norm_num)
    refine flD2tf_back R guard ndp h9 v hw hs _ _ κ (hT ▸ hTp) (hT ▸ hp1 h9 hh) ?_
    rw [← hT]
    unfold flDtf2r
    rw [mul_comm (flSeconds fl v.h v.m sec)]
    have e1 : fl (flDS2R fl * flSeconds fl v.h v.m sec) / flD2PI fl = 1 / flD2PI fl * fl (flDS2R fl * flSeconds fl v.h v.m sec) := by ring
    have e2 : 86400 * (flDS2R fl / flD2PI fl) * T / 86400 = 1 / flD2PI fl * (flDS2R fl * T) := by ring
    rw [e1, e2]
    exact s2.trans (mul_le_mul_of_nonneg_right (by norm_num) (by positivity))
  · obtain ⟨k1, k2⟩ := key (by omega) hh
    have tu := hT359 hh
    have κ := fl_factor_arc R
    obtain ⟨c, cp⟩ := R.const 4.848136811095359935899141e-6 (by norm_num) (by norm_num)
    obtain ⟨d, dp⟩ := R.const 6.283185307179586476925287 (by norm_num) (by norm_num)
    have hc := abs_le.1 c
    have hd := abs_le.1 d
    change 0 < flDAS2R fl at cp
    change 0 < flD2PI fl at dp
    change -_ ≤ flDAS2R fl - _ ∧ flDAS2R fl - _ ≤ _ at hc
    change -_ ≤ flD2PI fl - _ ∧ flD2PI fl - _ ≤ _ at hd
    have c1 : 4e-6 ≤ flDAS2R fl := by norm_num at hc ⊢; linarith
    have c2 : flDAS2R fl ≤ 1 := by norm_num at hc ⊢; linarith
    have d1 : flD2PI fl ≤ 10 := by norm_num at hd ⊢; linarith
    have d2 : 5 ≤ flD2PI fl := by norm_num at hd ⊢; linarith
    have g1 : (15 / 10 : ℝ) ≤ 15 / flD2PI fl := div_le_div_of_nonneg_left (by norm_num) dp d1
    have g2 : 15 / flD2PI fl ≤ 3 := by rw [div_le_iff₀ dp]; linarith
    obtain ⟨f, fp⟩ := R.const (15 / flD2PI fl) (le_trans (by norm_num) g1) (g2.trans (by norm_num))
    have hf := abs_le.1 f
    have f1 : 1 ≤ fl (15 / flD2PI fl) := by
      have : 1.1104e-16 * (15 / flD2PI fl) ≤ 1 / 10 := by linarith
      linarith
    have f2 : fl (15 / flD2PI fl) ≤ 4 := by
      have : 1.1104e-16 * (15 / flD2PI fl) ≤ 1 / 10 := by linarith
      linarith
    have l1 : (1e-15 : ℝ) ≤ flDAS2R fl * T := by
      have := mul_le_mul c1 k2 (by norm_num) cp.le
      exact le_trans (by norm_num) this
    have u1 : flDAS2R fl * T ≤ 1296000 := by
      have := mul_le_mul c2 tu hTp.le (by norm_num)
      exact this.trans (by norm_num)
    have s1 := R.step' (c := flDAS2R fl) 3.3316e-16 hTp cp k1 (by norm_num) (le_trans (by norm_num) l1) (u1.trans (by norm_num)) (by norm_num)
    have l2 : (1e-15 : ℝ) ≤ fl (15 / flD2PI fl) * (flDAS2R fl * T) := by
      have := mul_le_mul f1 l1 (by norm_num) (by positivity)
      exact le_trans (by norm_num) this
    have u2 : fl (15 / flD2PI fl) * (flDAS2R fl * T) ≤ 10 ^ 10 := by
      have := mul_le_mul f2 u1 (by positivity) (by norm_num)
      exact this.trans (by norm_num)
    have s2 := R.step' (c := fl (15 / flD2PI fl)) 4.4422e-16 (mul_pos cp hTp) fp s1 (by norm_num) (le_trans (by norm_num) l2) (u2.trans (by norm_num)) (by norm_num)
    refine flD2tf_back R guard ndp (by omega) v hw hs _ _ κ (hT ▸ hTp) (hT ▸ hp2 h8 hh) ?_
    rw [← hT]
    unfold flDaf2r
    rw [mul_comm (flSeconds fl v.h v.m sec), mul_comm _ (fl (15 / flD2PI fl))]
    have e2 : 86400 * (flDAS2R fl * fl (15 / flD2PI fl)) * T / 86400 = fl (15 / flD2PI fl) * (flDAS2R fl * T) := by ring
    rw [e2]
    exact s2.trans (mul_le_mul_of_nonneg_right (by norm_num) (by positivity))

/-- With IEEE 754 rounding, 359 59 59.99999999 degrees and 23 59 59.999999999 hours. -/
example : flDr2af ieee true 8 (flDaf2r ieee 359 59 (ieee ((59 : ℤ) + (99999999 : ℤ) / 10 ^ 8))) = ⟨'+', 359, 59, 59, 99999999⟩ ∧
    flDr2tf ieee false 9 (flDtf2r ieee 23 59 (ieee ((59 : ℤ) + (999999999 : ℤ) / 10 ^ 9))) = ⟨'+', 23, 59, 59, 999999999⟩ :=
  ⟨(C98_roundtrip ieee_rounding true 8 ⟨'+', 359, 59, 59, 99999999⟩ ⟨by norm_num, by norm_num, by norm_num, by norm_num, by rw [Int.toNat_natCast]; norm_num⟩ rfl).2.2 (le_refl _) (by norm_num),
   (C98_roundtrip ieee_rounding false 9 ⟨'+', 23, 59, 59, 999999999⟩ ⟨by norm_num, by norm_num, by norm_num, by norm_num, by rw [Int.toNat_natCast]; norm_num⟩ rfl).2.1 (le_refl _) (by norm_num)⟩

end Pal.Props
