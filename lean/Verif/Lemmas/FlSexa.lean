import Verif.Model.FlSexa
import Verif.Lemmas.Flt
import Verif.Props.Sexa

/-! # Helper lemmas for sexagesimal conversion in double precision -/

namespace Pal
open Spec

theorem Rounding.rel {fl : ℝ → ℝ} (R : Rounding fl) {x : ℝ} (h0 : 1 / 10 ^ 100 ≤ |x|) (hx : |x| ≤ 10 ^ 30) : |fl x - x| ≤ 1.1104e-16 * |x| := by
  refine (R.err hx).trans ?_
  have : (1 : ℝ) / 10 ^ 200 ≤ 1 / 10 ^ 20 * (1 / 10 ^ 100) := by norm_num
  have : (1 : ℝ) / 10 ^ 20 * (1 / 10 ^ 100) ≤ 1 / 10 ^ 20 * |x| := mul_le_mul_of_nonneg_left h0 (by norm_num)
  have h1 : (1.1103e-16 : ℝ) * |x| + 1 / 10 ^ 20 * |x| ≤ 1.1104e-16 * |x| := by
    rw [← add_mul]; exact mul_le_mul_of_nonneg_right (by norm_num) (abs_nonneg x)
  linarith

/-- One more rounded multiplication by a positive number on the way of a relative error. -/
theorem Rounding.step {fl : ℝ → ℝ} (R : Rounding fl) {x X c e : ℝ} (hX : 0 < X) (hc : 0 < c) (h : |x - X| ≤ e * X) (he : e ≤ 1 / 100) (hl : 1 / 10 ^ 90 ≤ c * X) (hu : c * X ≤ 10 ^ 29) :
    |fl (c * x) - c * X| ≤ (e + 1.1105e-16 * (1 + e)) * (c * X) := by
  have e0 : 0 ≤ e := by
    by_contra hn
    have : e * X < 0 := mul_neg_of_neg_of_pos (by linarith) hX
    linarith [abs_nonneg (x - X)]
  have hb := abs_le.1 h
  have x1 : (1 - e) * X ≤ x := by linarith
  have x2 : x ≤ (1 + e) * X := by linarith
  have hxp : 0 < x := lt_of_lt_of_le (mul_pos (by linarith) hX) x1
  have q1 : c * x ≤ (1 + e) * (c * X) := by nlinarith
  have q2 : (1 - e) * (c * X) ≤ c * x := by nlinarith
  have hcx : 0 < c * x := mul_pos hc hxp
  have hcX : 0 < c * X := mul_pos hc hX
  have r := R.rel (x := c * x) (by
    rw [abs_of_pos hcx]
    refine le_trans ?_ q2
    have : (99 / 100) * (1 / 10 ^ 90 : ℝ) ≤ (1 - e) * (c * X) := mul_le_mul (by linarith) hl (by positivity) (by linarith)
    refine le_trans (by norm_num) this) (by
    rw [abs_of_pos hcx]
    refine q1.trans ?_
    have : (1 + e) * (c * X) ≤ 2 * 10 ^ 29 := mul_le_mul (by linarith) hu hcX.le (by norm_num)
    exact this.trans (by norm_num))
  rw [abs_of_pos hcx] at r
  have h2 : |c * x - c * X| ≤ e * (c * X) := by
    rw [← mul_sub, abs_mul, abs_of_pos hc]
    calc c * |x - X| ≤ c * (e * X) := mul_le_mul_of_nonneg_left h hc.le
      _ = _ := by ring
  calc |fl (c * x) - c * X| ≤ |fl (c * x) - c * x| + |c * x - c * X| := abs_sub_le _ _ _
    _ ≤ 1.1104e-16 * ((1 + e) * (c * X)) + e * (c * X) := add_le_add (r.trans (mul_le_mul_of_nonneg_left q1 (by norm_num))) h2
    _ ≤ _ := by nlinarith [mul_nonneg (by linarith : (0 : ℝ) ≤ 1 + e) hcX.le]

/-- Rounding to an integer finds the integer nearby. -/
theorem flNint_near {fl : ℝ → ℝ} (R : Rounding fl) (guard : Bool) (x : ℝ) (n : ℤ) (hn : 0 ≤ n) (hn2 : n ≤ 2 ^ 50) (h : |x - n| ≤ 1 / 4) : flNint fl guard x = n := by
  have hb := abs_le.1 h
  unfold flNint
  split_ifs with hg
  · have : (n : ℝ) < 1 := by linarith [hg.2]
    have : n < 1 := by exact_mod_cast this
    omega
  · have hnr : (0 : ℝ) ≤ n := by exact_mod_cast hn
    have hnr2 : (n : ℝ) ≤ 2 ^ 50 := by exact_mod_cast hn2
    have hx : |x + 1 / 2| ≤ 10 ^ 30 := by
      rw [abs_of_nonneg (by linarith)]; norm_num at *; linarith
    rw [Int.floor_eq_iff]
    constructor
    · exact R.int_le hx (by rw [abs_of_nonneg hn]; omega) (by linarith)
    · have he := (abs_le.1 (R.err hx)).2
      rw [abs_of_nonneg (by linarith : (0 : ℝ) ≤ x + 1 / 2)] at he
      have h2 : (1.1103e-16 : ℝ) * (x + 1 / 2) ≤ 1.1103e-16 * (2 ^ 50 + 1) := mul_le_mul_of_nonneg_left (by linarith) (by norm_num)
      have h3 : (1 : ℝ) / 10 ^ 200 ≤ 1 / 100 := by norm_num
      have h4 : (1.1103e-16 : ℝ) * (2 ^ 50 + 1) ≤ 0.13 := by norm_num
      have h5 : x ≤ n + 1 / 4 := by linarith [hb.2]
      generalize (1 : ℝ) / 10 ^ 200 = z at *
      linarith

/-- The fields of a whole number of units. -/
theorem fl_fields {fl : ℝ → ℝ} (R : Rounding fl) (N r : ℤ) (hN : 0 ≤ N) (hr : 0 < r) (hs : N + r * 7200 ≤ 2 ^ 52) :
    let rs : ℝ := r
    let rm := fl (rs * 60)
    let rh := fl (rm * 60)
    let ah : ℤ := ⌊fl ((N : ℝ) / rh)⌋
    let a1 := fl (N - fl (ah * rh))
    let am : ℤ := ⌊fl (a1 / rm)⌋
    let a2 := fl (a1 - fl (am * rm))
    let as : ℤ := ⌊fl (a2 / rs)⌋
    let af : ℤ := ⌊fl (a2 - fl (as * rs))⌋
    ah = N / (r * 60 * 60) ∧ am = N % (r * 60 * 60) / (r * 60) ∧ as = N % (r * 60 * 60) % (r * 60) / r ∧ af = N % (r * 60 * 60) % (r * 60) % r := by
  intro rs rm rh ah a1 am a2 as af
  have big : ∀ n : ℤ, 0 ≤ n → n ≤ 2 ^ 52 → fl n = n := fun n h1 h2 => R.int n (by rw [abs_of_nonneg h1]; omega)
  have erm : rm = ((r * 60 : ℤ) : ℝ) := by
    have := big (r * 60) (by omega) (by omega)
    show fl ((r : ℝ) * 60) = _
    rw [← this]; push_cast; rfl
  have erh : rh = ((r * 60 * 60 : ℤ) : ℝ) := by
    have := big (r * 60 * 60) (by omega) (by omega)
    show fl (rm * 60) = _
    rw [erm, ← this]; push_cast; rfl
  have one : ∀ a R' : ℤ, 0 ≤ a → 0 < R' → a + R' ≤ 2 ^ 52 → fl ((a : ℝ) - fl (((a / R' : ℤ) : ℝ) * (R' : ℝ))) = ((a % R' : ℤ) : ℝ) := by
    intro a R' h1 h2 h3
    have hm := Int.mul_ediv_add_emod a R'
    have hm0 := Int.emod_nonneg a h2.ne'
    have hm1 := Int.emod_lt_of_pos a h2
    have hq : 0 ≤ a / R' * R' := mul_nonneg (Int.ediv_nonneg h1 h2.le) h2.le
    have hq2 : a / R' * R' ≤ a := Int.ediv_mul_le _ h2.ne'
    have e1 := big (a / R' * R') hq (by omega)
    push_cast at e1
    rw [e1]
    have e2 := big (a % R') hm0 (by omega)
    have e3 : (a : ℝ) - ((a / R' : ℤ) : ℝ) * (R' : ℝ) = ((a % R' : ℤ) : ℝ) := by
      have : a - a / R' * R' = a % R' := by rw [mul_comm]; omega
      exact_mod_cast this
    rw [e3, e2]
  have h1 : ah = N / (r * 60 * 60) := by
    show ⌊fl ((N : ℝ) / rh)⌋ = _
    rw [erh]; exact R.div_floor N (r * 60 * 60) hN (by omega) (by omega)
  have m0 := Int.emod_nonneg N (show r * 60 * 60 ≠ 0 by omega)
  have m1 := Int.emod_lt_of_pos N (show 0 < r * 60 * 60 by omega)
  have h2 : a1 = ((N % (r * 60 * 60) : ℤ) : ℝ) := by
    show fl ((N : ℝ) - fl ((ah : ℝ) * rh)) = _
    rw [h1, erh]
    exact one N (r * 60 * 60) hN (by omega) (by omega)
  generalize N % (r * 60 * 60) = M at *
  have h3 : am = M / (r * 60) := by
    show ⌊fl (a1 / rm)⌋ = _
    rw [h2, erm]; exact R.div_floor M (r * 60) m0 (by omega) (by omega)
  have k0 := Int.emod_nonneg M (show r * 60 ≠ 0 by omega)
  have k1 := Int.emod_lt_of_pos M (show 0 < r * 60 by omega)
  have h4 : a2 = ((M % (r * 60) : ℤ) : ℝ) := by
    show fl (a1 - fl ((am : ℝ) * rm)) = _
    rw [h3, h2, erm]
    exact one M (r * 60) m0 (by omega) (by omega)
  generalize M % (r * 60) = K at *
  have h5 : as = K / r := by
    show ⌊fl (a2 / rs)⌋ = _
    rw [h4]; exact R.div_floor K r k0 hr (by omega)
  refine ⟨h1, h3, h5, ?_⟩
  show ⌊fl (a2 - fl ((as : ℝ) * rs))⌋ = _
  rw [h5, h4]
  have := one K r k0 hr (by omega)
  rw [show fl ((K : ℝ) - fl (((K / r : ℤ) : ℝ) * rs)) = ((K % r : ℤ) : ℝ) from this, Int.floor_intCast]

end Pal

namespace Pal
open Spec

theorem Rounding.step' {fl : ℝ → ℝ} (R : Rounding fl) {x X c e : ℝ} (e' : ℝ) (hX : 0 < X) (hc : 0 < c) (h : |x - X| ≤ e * X) (he : e ≤ 1 / 100) (hl : 1 / 10 ^ 90 ≤ c * X) (hu : c * X ≤ 10 ^ 29)
    (he' : e + 1.1105e-16 * (1 + e) ≤ e') : |fl (c * x) - c * X| ≤ e' * (c * X) :=
  (R.step hX hc h he hl hu).trans (mul_le_mul_of_nonneg_right he' (mul_pos hc hX).le)

/-- What eraD2tf makes of the rounded number of units. -/
theorem flD2tf_units {fl : ℝ → ℝ} (R : Rounding fl) (guard : Bool) (ndp : ℕ) (h9 : ndp ≤ 9) (days : ℝ) (N : ℤ)
    (hN : flNint fl guard (fl (((10 ^ ndp : ℤ) : ℝ) * fl (86400 * |days|))) = N) (h0 : 0 ≤ N) (h1 : N ≤ 4 * 10 ^ 15 + 10) :
    (flD2tf fl guard ndp days).sign = (if days ≥ 0 then '+' else '-') ∧
    (flD2tf fl guard ndp days).h = N / (10 ^ ndp * 60 * 60) ∧ (flD2tf fl guard ndp days).m = N % (10 ^ ndp * 60 * 60) / (10 ^ ndp * 60) ∧
    (flD2tf fl guard ndp days).s = N % (10 ^ ndp * 60 * 60) % (10 ^ ndp * 60) / 10 ^ ndp ∧ (flD2tf fl guard ndp days).f = N % (10 ^ ndp * 60 * 60) % (10 ^ ndp * 60) % 10 ^ ndp := by
  have hr : (0 : ℤ) < 10 ^ ndp := by positivity
  have hr9 : (10 : ℤ) ^ ndp ≤ 10 ^ 9 := pow_le_pow_right₀ (by norm_num) h9
  have := fl_fields R N (10 ^ ndp) h0 hr (by norm_num at *; omega)
  unfold flD2tf
  dsimp only at *
  rw [hN]
  exact ⟨rfl, this⟩

theorem units_split (r N : ℤ) (hr : 0 < r) (hN : 0 ≤ N) :
    let h := N / (r * 60 * 60); let m := N % (r * 60 * 60) / (r * 60); let s := N % (r * 60 * 60) % (r * 60) / r; let f := N % (r * 60 * 60) % (r * 60) % r
    0 ≤ h ∧ 0 ≤ m ∧ m < 60 ∧ 0 ≤ s ∧ s < 60 ∧ 0 ≤ f ∧ f < r ∧ ((h * 60 + m) * 60 + s) * r + f = N := by
  intro h m s f
  have e1 := Int.mul_ediv_add_emod N (r * 60 * 60)
  have a0 := Int.emod_nonneg N (show r * 60 * 60 ≠ 0 by omega)
  have a1 := Int.emod_lt_of_pos N (show 0 < r * 60 * 60 by omega)
  have e2 := Int.mul_ediv_add_emod (N % (r * 60 * 60)) (r * 60)
  have b0 := Int.emod_nonneg (N % (r * 60 * 60)) (show r * 60 ≠ 0 by omega)
  have b1 := Int.emod_lt_of_pos (N % (r * 60 * 60)) (show 0 < r * 60 by omega)
  have e3 := Int.mul_ediv_add_emod (N % (r * 60 * 60) % (r * 60)) r
  have c0 := Int.emod_nonneg (N % (r * 60 * 60) % (r * 60)) (show r ≠ 0 by omega)
  have c1 := Int.emod_lt_of_pos (N % (r * 60 * 60) % (r * 60)) hr
  refine ⟨Int.ediv_nonneg hN (by omega), Int.ediv_nonneg a0 (by omega), Int.ediv_lt_of_lt_mul (by omega) (by linarith), Int.ediv_nonneg b0 hr.le,
    Int.ediv_lt_of_lt_mul hr (by linarith), c0, c1, ?_⟩
  calc ((h * 60 + m) * 60 + s) * r + f = r * 60 * 60 * h + (r * 60 * m + (r * s + f)) := by ring
    _ = N := by rw [e3, e2, e1]

theorem units_unique (r h m s f : ℤ) (hm : 0 ≤ m ∧ m < 60) (hs : 0 ≤ s ∧ s < 60) (hf : 0 ≤ f ∧ f < r) :
    let N := ((h * 60 + m) * 60 + s) * r + f
    N / (r * 60 * 60) = h ∧ N % (r * 60 * 60) / (r * 60) = m ∧ N % (r * 60 * 60) % (r * 60) / r = s ∧ N % (r * 60 * 60) % (r * 60) % r = f := by
  intro N
  have hr : 0 < r := by omega
  have s0 : 0 ≤ s * r + f := by have := mul_nonneg hs.1 hr.le; omega
  have s1 : s * r + f < r * 60 := by nlinarith
  have m0 : 0 ≤ (m * 60 + s) * r + f := by have : 0 ≤ (m * 60 + s) * r := mul_nonneg (by omega) hr.le; omega
  have m1 : (m * 60 + s) * r + f < r * 60 * 60 := by nlinarith
  have k1 : N / (r * 60 * 60) = h ∧ N % (r * 60 * 60) = (m * 60 + s) * r + f :=
    (Int.ediv_emod_unique (by omega)).2 ⟨by show _ = ((h * 60 + m) * 60 + s) * r + f; ring, m0, m1⟩
  have k2 : ((m * 60 + s) * r + f) / (r * 60) = m ∧ ((m * 60 + s) * r + f) % (r * 60) = s * r + f :=
    (Int.ediv_emod_unique (by omega)).2 ⟨by ring, s0, s1⟩
  have k3 : (s * r + f) / r = s ∧ (s * r + f) % r = f := (Int.ediv_emod_unique hr).2 ⟨by ring, hf.1, hf.2⟩
  rw [k1.2, k2.2]
  exact ⟨k1.1, k2.1, k3.1, k3.2⟩

/-- The seconds of fields in range, with the seconds field given as the nearest double of a decimal. -/
theorem flSeconds_near {fl : ℝ → ℝ} (R : Rounding fl) (h m : ℤ) (x : ℝ) (hh : 0 ≤ h ∧ h ≤ 359) (hm : 0 ≤ m ∧ m < 60) (hx : x = 0 ∨ 1 / 10 ^ 9 ≤ x) (hx2 : x ≤ 60) (hT : 0 < 3600 * h + 60 * m + x) :
    |flSeconds fl h m (fl x) - (3600 * h + 60 * m + x)| ≤ 2.221e-16 * (3600 * h + 60 * m + x) := by
  have hhr : (0 : ℝ) ≤ h := by exact_mod_cast hh.1
  have hhr2 : (h : ℝ) ≤ 359 := by exact_mod_cast hh.2
  have hmr : (0 : ℝ) ≤ m := by exact_mod_cast hm.1
  have hmr2 : (m : ℝ) < 60 := by exact_mod_cast hm.2
  have x0 : 0 ≤ x := by rcases hx with hx | hx <;> [rw [hx]; linarith [show (0 : ℝ) ≤ 1 / 10 ^ 9 by norm_num]]
  have hxf : |fl x - x| ≤ 1.1104e-16 * x := by
    rcases hx with hx | hx
    · rw [hx, R.zero]; simp
    · have := R.rel (x := x) (by rw [abs_of_nonneg x0]; exact le_trans (by norm_num) hx) (by rw [abs_of_nonneg x0]; linarith)
      rwa [abs_of_nonneg x0] at this
  have hxp : 0 ≤ fl x := R.nonneg (by rw [abs_of_nonneg x0]; linarith) x0
  have e1 : fl (60 * fl (fl (60 * ((|h| : ℤ) : ℝ)) + ((|m| : ℤ) : ℝ))) = 3600 * h + 60 * m := by
    rw [abs_of_nonneg hh.1, abs_of_nonneg hm.1]
    have a := R.int (60 * h) (by rw [abs_of_nonneg (by omega)]; omega)
    push_cast at a
    rw [a]
    have b := R.int (60 * h + m) (by rw [abs_of_nonneg (by omega)]; omega)
    push_cast at b
    rw [b]
    have c := R.int (60 * (60 * h + m)) (by rw [abs_of_nonneg (by omega)]; omega)
    push_cast at c
    rw [c]; ring
  unfold flSeconds
  rw [e1, abs_of_nonneg hxp]
  have h1 : |(3600 * h + 60 * m + fl x) - (3600 * h + 60 * m + x)| ≤ 1.1104e-16 * (3600 * h + 60 * m + x) := by
    rw [add_sub_add_left_eq_sub]
    refine hxf.trans (mul_le_mul_of_nonneg_left ?_ (by norm_num))
    have : 0 ≤ 3600 * (h : ℝ) + 60 * m := by positivity
    linarith
  have hTl : (1 / 10 ^ 90 : ℝ) ≤ 1 * (3600 * h + 60 * m + x) := by
    rw [one_mul]
    by_cases hz : h = 0 ∧ m = 0
    · rw [hz.1, hz.2] at hT ⊢
      push_cast at *
      rcases hx with hx | hx
      · rw [hx] at hT; simp at hT
      · have : (1 / 10 ^ 90 : ℝ) ≤ 1 / 10 ^ 9 := by norm_num
        linarith
    · have : 1 ≤ 3600 * h + 60 * m := by omega
      have : (1 : ℝ) ≤ 3600 * h + 60 * m := by exact_mod_cast this
      have : (1 / 10 ^ 90 : ℝ) ≤ 1 := by norm_num
      linarith
  have := R.step' 2.221e-16 hT (one_pos) h1 (by norm_num) hTl (by rw [one_mul]; norm_num at *; linarith) (by norm_num)
  rwa [one_mul, one_mul] at this

end Pal

namespace Pal
open Spec

/-- Fields whose number of seconds reached eraD2tf with a small relative error come back. -/
theorem flD2tf_back {fl : ℝ → ℝ} (R : Rounding fl) (guard : Bool) (ndp : ℕ) (h9 : ndp ≤ 9) (v : Hmsf) (hw : WellFormed ndp v) (hs : v.sign = '+') (d κ : ℝ)
    (hκ : |κ - 1| ≤ 5e-16) (hT : 0 < shownSeconds ndp v) (hN : shownSeconds ndp v * 10 ^ ndp ≤ 1.3e14)
    (hd : |d - κ * shownSeconds ndp v / 86400| ≤ 6e-16 * (κ * shownSeconds ndp v / 86400)) : flD2tf fl guard ndp d = v := by
  obtain ⟨h0, hm, hs', hf⟩ := hw
  rw [Int.toNat_natCast] at hf
  have hR : (0 : ℝ) < 10 ^ ndp := by positivity
  have hR1 : (1 : ℝ) ≤ 10 ^ ndp := one_le_pow₀ (by norm_num)
  have hR9 : (10 : ℝ) ^ ndp ≤ 10 ^ 9 := pow_le_pow_right₀ (by norm_num) h9
  obtain ⟨N, hNe⟩ : ∃ N : ℤ, N = ((v.h * 60 + v.m) * 60 + v.s) * 10 ^ ndp + v.f := ⟨_, rfl⟩
  have hNr : (N : ℝ) = shownSeconds ndp v * 10 ^ ndp := by
    rw [hNe]; unfold shownSeconds; rw [Int.toNat_natCast]; push_cast; field_simp; ring
  obtain ⟨T, hTe⟩ : ∃ T, T = shownSeconds ndp v := ⟨_, rfl⟩
  rw [← hTe] at hT hN hd hNr
  have hκb := abs_le.1 hκ
  have κp : 0 < κ := by linarith
  have hNp : (0 : ℝ) < N := by rw [hNr]; exact mul_pos hT hR
  have hN1 : (1 : ℝ) ≤ N := by
    have : 0 < N := by exact_mod_cast hNp
    exact_mod_cast this
  have hT9 : (1 : ℝ) / 10 ^ 9 ≤ T := by
    rw [div_le_iff₀ (by norm_num)]
    have : T * 10 ^ ndp ≤ T * 10 ^ 9 := mul_le_mul_of_nonneg_left hR9 hT.le
    linarith
  have hTu : T ≤ 1.3e14 := by
    have : T * 1 ≤ T * 10 ^ ndp := mul_le_mul_of_nonneg_left hR1 hT.le
    linarith
  have hX : 0 < κ * T / 86400 := by positivity
  have hdb := abs_le.1 hd
  have hdp : 0 < d := by
    have : 6e-16 * (κ * T / 86400) ≤ 1 / 2 * (κ * T / 86400) := mul_le_mul_of_nonneg_right (by norm_num) hX.le
    linarith
  have kT1 : 1 / 10 ^ 10 ≤ κ * T := by
    have : (1 / 2) * (1 / 10 ^ 9) ≤ κ * T := mul_le_mul (by linarith) hT9 (by norm_num) κp.le
    refine le_trans (by norm_num) this
  have kT2 : κ * T ≤ 10 ^ 15 := by
    have : κ * T ≤ 2 * 1.3e14 := mul_le_mul (by linarith) hTu hT.le (by norm_num)
    refine this.trans (by norm_num)
  have e86 : 86400 * (κ * T / 86400) = κ * T := by ring
  have s1 := R.step' (c := 86400) 7.1107e-16 hX (by norm_num) hd (by norm_num) (by rw [e86]; exact le_trans (by norm_num) kT1) (by rw [e86]; exact kT2.trans (by norm_num)) (by norm_num)
  rw [e86] at s1
  have kTp : 0 < κ * T := mul_pos κp hT
  have s2 := R.step' (c := 10 ^ ndp) 8.2215e-16 kTp hR s1 (by norm_num) (by
    have : 1 * (1 / 10 ^ 10) ≤ 10 ^ ndp * (κ * T) := mul_le_mul hR1 kT1 (by norm_num) hR.le
    refine le_trans (by norm_num) this) (by
    have : 10 ^ ndp * (κ * T) ≤ 10 ^ 9 * 10 ^ 15 := mul_le_mul hR9 kT2 kTp.le (by norm_num)
    refine this.trans (by norm_num)) (by norm_num)
  have e3 : (10 : ℝ) ^ ndp * (κ * T) = κ * N := by rw [hNr]; ring
  rw [e3] at s2
  have hnint : flNint fl guard (fl (((10 ^ ndp : ℤ) : ℝ) * fl (86400 * |d|))) = N := by
    rw [abs_of_pos hdp]
    push_cast
    refine flNint_near R guard _ N (by exact_mod_cast hNp.le) ?_ ?_
    · have : (N : ℝ) ≤ 2 ^ 50 := by rw [hNr]; exact hN.trans (by norm_num)
      exact_mod_cast this
    · have b := abs_le.1 s2
      have hNu : (N : ℝ) ≤ 1.3e14 := by rw [hNr]; exact hN
      have c1 : (κ - 1) * N ≤ 5e-16 * 1.3e14 := by
        refine (mul_le_mul_of_nonneg_right hκb.2 hNp.le).trans (mul_le_mul_of_nonneg_left hNu (by norm_num))
      have c2 : -(κ - 1) * N ≤ 5e-16 * 1.3e14 := by
        refine (mul_le_mul_of_nonneg_right (by linarith [hκb.1]) hNp.le).trans (mul_le_mul_of_nonneg_left hNu (by norm_num))
      have c3 : κ * N ≤ (1 + 5e-16) * 1.3e14 := mul_le_mul (by linarith) hNu hNp.le (by norm_num)
      rw [abs_le]
      constructor <;> linarith
  have hNu : N ≤ 4 * 10 ^ 15 + 10 := by
    have : (N : ℝ) ≤ 4 * 10 ^ 15 + 10 := by rw [hNr]; exact hN.trans (by norm_num)
    exact_mod_cast this
  obtain ⟨a1, a2, a3, a4, a5⟩ := flD2tf_units R guard ndp h9 d N hnint (by exact_mod_cast hNp.le) hNu
  obtain ⟨b2, b3, b4, b5⟩ := units_unique (10 ^ ndp) v.h v.m v.s v.f hm hs' hf
  rw [← hNe] at b2 b3 b4 b5
  rw [if_pos hdp.le] at a1
  generalize flD2tf fl guard ndp d = w at *
  cases v; cases w
  simp only [Hmsf.mk.injEq]
  exact ⟨a1.trans hs.symm, a2.trans b2, a3.trans b3, a4.trans b4, a5.trans b5⟩

/-- The stored value of a positive constant. -/
theorem Rounding.const {fl : ℝ → ℝ} (R : Rounding fl) (c : ℝ) (h0 : 1 / 10 ^ 10 ≤ c) (h1 : c ≤ 10 ^ 10) : |fl c - c| ≤ 1.1104e-16 * c ∧ 0 < fl c := by
  have hc : 0 < c := lt_of_lt_of_le (by norm_num) h0
  have := R.rel (x := c) (by rw [abs_of_pos hc]; exact le_trans (by norm_num) h0) (by rw [abs_of_pos hc]; exact h1.trans (by norm_num))
  rw [abs_of_pos hc] at this
  refine ⟨this, ?_⟩
  have := (abs_le.1 this).1
  linarith

/-- The conversion factors as stored undo one another up to rounding. -/
theorem fl_factor_time {fl : ℝ → ℝ} (R : Rounding fl) : |86400 * (flDS2R fl / flD2PI fl) - 1| ≤ 5e-16 := by
  obtain ⟨a, ap⟩ := R.const 7.272205216643039903848712e-5 (by norm_num) (by norm_num)
  obtain ⟨b, bp⟩ := R.const 6.283185307179586476925287 (by norm_num) (by norm_num)
  unfold flDS2R flD2PI
  have ha := abs_le.1 a
  have hb := abs_le.1 b
  generalize fl 7.272205216643039903848712e-5 = A at *
  generalize fl 6.283185307179586476925287 = B at *
  rw [← mul_div_assoc, div_sub_one bp.ne', abs_div, abs_of_pos bp, div_le_iff₀ bp, abs_le]
  constructor <;> norm_num at * <;> linarith

theorem fl_factor_arc {fl : ℝ → ℝ} (R : Rounding fl) : |86400 * (flDAS2R fl * fl (15 / flD2PI fl)) - 1| ≤ 5e-16 := by
  obtain ⟨a, ap⟩ := R.const 4.848136811095359935899141e-6 (by norm_num) (by norm_num)
  obtain ⟨b, bp⟩ := R.const 6.283185307179586476925287 (by norm_num) (by norm_num)
  unfold flDAS2R flD2PI
  have ha := abs_le.1 a
  have hb := abs_le.1 b
  generalize fl 4.848136811095359935899141e-6 = A at *
  generalize fl 6.283185307179586476925287 = B at *
  have c0 : 15 / B ≤ 15 / (6.283185307179586476925287 * (1 - 1.1104e-16)) := div_le_div_of_nonneg_left (by norm_num) (by norm_num) (by linarith)
  have c1 : 15 / (6.283185307179586476925287 * (1 + 1.1104e-16)) ≤ 15 / B := div_le_div_of_nonneg_left (by norm_num) bp (by linarith)
  obtain ⟨c, cp⟩ := R.const (15 / B) (le_trans (by norm_num) c1) (c0.trans (by norm_num))
  have hc := abs_le.1 c
  generalize fl (15 / B) = C at *
  have C1 : C ≤ 15 / (6.283185307179586476925287 * (1 - 1.1104e-16)) * (1 + 1.1104e-16) := by linarith
  have C2 : 15 / (6.283185307179586476925287 * (1 + 1.1104e-16)) * (1 - 1.1104e-16) ≤ C := by linarith
  have A1 : A ≤ 4.848136811095359935899141e-6 * (1 + 1.1104e-16) := by linarith
  have A2 : 4.848136811095359935899141e-6 * (1 - 1.1104e-16) ≤ A := by linarith
  have u : A * C ≤ 4.848136811095359935899141e-6 * (1 + 1.1104e-16) * (15 / (6.283185307179586476925287 * (1 - 1.1104e-16)) * (1 + 1.1104e-16)) := mul_le_mul A1 C1 cp.le (by norm_num)
  have l : 4.848136811095359935899141e-6 * (1 - 1.1104e-16) * (15 / (6.283185307179586476925287 * (1 + 1.1104e-16)) * (1 - 1.1104e-16)) ≤ A * C := mul_le_mul A2 C2 (by norm_num) ap.le
  have u' : 4.848136811095359935899141e-6 * (1 + 1.1104e-16) * (15 / (6.283185307179586476925287 * (1 - 1.1104e-16)) * (1 + 1.1104e-16)) ≤ (1 + 5e-16 : ℝ) / 86400 := by norm_num
  have l' : (1 - 5e-16 : ℝ) / 86400 ≤ 4.848136811095359935899141e-6 * (1 - 1.1104e-16) * (15 / (6.283185307179586476925287 * (1 + 1.1104e-16)) * (1 - 1.1104e-16)) := by norm_num
  rw [abs_le]
  constructor <;> linarith

end Pal
