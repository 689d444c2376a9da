import Verif.Model.FlEpoch
import Verif.Lemmas.FlAngle

/-!
# Epochs in double precision: property C100
-/

namespace Pal.Props
open Pal

/-- Julian epoch of a Modified Julian Date, by definition. -/
noncomputable def julianEpoch (d : ℝ) : ℝ := 2000 + (d - 51544.5) / 365.25
/-- Besselian epoch of a Modified Julian Date, by definition. -/
noncomputable def besselianEpoch (d : ℝ) : ℝ := 1900 + (d - 15019.81352) / 365.242198781

theorem flMJ {fl : ℝ → ℝ} (R : Rounding fl) : fl (2400000.5 - 2451545) = -51544.5 := by
  have := R.keep (-103089) (-1) (by norm_num) (by norm_num) (by refine le_trans ?_ (le_trans (le_abs_self _) (big_le (x := 10 ^ 30) (by norm_num))); norm_num)
  norm_num at this ⊢
  exact this

/-- **C100** (accuracy): between the dates MJD ±1,000,000 the epochs palEpj and palEpb return are within 2e-12 years (70 microseconds) of the epoch of the date. -/
theorem C100_accuracy {fl : ℝ → ℝ} (R : Rounding fl) (d : ℝ) (hd : |d| ≤ 1000000) :
    |flEpj fl d - julianEpoch d| ≤ 2e-12 ∧ |flEpb fl d - besselianEpoch d| ≤ 2e-12 := by
  have b := abs_le.1 hd
  constructor
  · unfold flEpj julianEpoch
    rw [flMJ R]
    have h1 := R.add_err (x := -51544.5 + d) (X := d - 51544.5) (δ := 0) (B := 1051545) 1.168e-10 (by rw [show -51544.5 + d - (d - 51544.5) = 0 by ring]; simp)
      (by rw [abs_le]; constructor <;> linarith) (by norm_num) (by norm_num) (by norm_num)
    have h1' := abs_le.1 h1
    have h2 := R.add_err (x := fl (-51544.5 + d) / 365.25) (X := (d - 51544.5) / 365.25) (δ := 3.2e-13) (B := 2880) 6.41e-13
      (by rw [← sub_div, abs_div, div_le_iff₀ (by norm_num)]; rw [abs_of_pos (by norm_num : (0 : ℝ) < 365.25)]; exact h1.trans (by norm_num))
      (by rw [abs_le]; constructor <;> [rw [le_div_iff₀ (by norm_num)]; rw [div_le_iff₀ (by norm_num)]] <;> norm_num at * <;> linarith) (by norm_num) (by norm_num) (by norm_num)
    exact R.add_err (X := 2000 + (d - 51544.5) / 365.25) (δ := 6.41e-13) (B := 4880) 2e-12 (by rw [add_sub_add_left_eq_sub]; exact h2)
      (by
        have : |(d - 51544.5) / 365.25| ≤ 2880 := by rw [abs_le]; constructor <;> [rw [le_div_iff₀ (by norm_num)]; rw [div_le_iff₀ (by norm_num)]] <;> norm_num at * <;> linarith
        have t := abs_add_le 2000 ((d - 51544.5) / 365.25)
        rw [abs_of_pos (by norm_num : (0 : ℝ) < 2000)] at t
        linarith) (by norm_num) (by norm_num) (by norm_num)
  · unfold flEpb besselianEpoch
    rw [flMJ R]
    obtain ⟨c1, c1p⟩ := R.const 36524.68648 (by norm_num) (by norm_num)
    obtain ⟨c2, c2p⟩ := R.const 365.242198781 (by norm_num) (by norm_num)
    have c1' := abs_le.1 c1
    have c2' := abs_le.1 c2
    generalize fl 36524.68648 = K at *
    generalize fl 365.242198781 = Y at *
    have h0 := R.add_err (x := d + K) (X := d + 36524.68648) (δ := 4.1e-12) (B := 1036525) 1.193e-10
      (by rw [add_sub_add_left_eq_sub]; exact c1.trans (by norm_num)) (by rw [abs_le]; constructor <;> linarith) (by norm_num) (by norm_num) (by norm_num)
    have h1 := R.add_err (x := -51544.5 + fl (d + K)) (X := d - 15019.81352) (δ := 1.193e-10) (B := 1015020) 2.321e-10
      (by rw [show -51544.5 + fl (d + K) - (d - 15019.81352) = fl (d + K) - (d + 36524.68648) by ring]; exact h0)
      (by rw [abs_le]; constructor <;> linarith) (by norm_num) (by norm_num) (by norm_num)
    have h1' := abs_le.1 h1
    generalize fl (-51544.5 + fl (d + K)) = X at *
    have hq : |X / Y - (d - 15019.81352) / 365.242198781| ≤ 9.5e-13 := by
      have e : X / Y - (d - 15019.81352) / 365.242198781 = ((X - (d - 15019.81352)) * 365.242198781 - (d - 15019.81352) * (Y - 365.242198781)) / (Y * 365.242198781) := by
        field_simp; ring
      rw [e, abs_div, div_le_iff₀ (by positivity), abs_of_pos (show 0 < Y * 365.242198781 by positivity)]
      have n1 : |(X - (d - 15019.81352)) * 365.242198781| ≤ 2.321e-10 * 365.242198781 := by
        rw [abs_mul, abs_of_pos (by norm_num : (0 : ℝ) < 365.242198781)]; exact mul_le_mul_of_nonneg_right h1 (by norm_num)
      have n2 : |(d - 15019.81352) * (Y - 365.242198781)| ≤ 1015020 * (1.1104e-16 * 365.242198781) := by
        rw [abs_mul]
        exact mul_le_mul (by rw [abs_le]; constructor <;> linarith) c2 (abs_nonneg _) (by norm_num)
      have n3 := abs_sub ((X - (d - 15019.81352)) * 365.242198781) ((d - 15019.81352) * (Y - 365.242198781))
      have n4 : (365.2 : ℝ) ≤ Y := by norm_num at *; linarith
      norm_num at *
      linarith
    have hbq : |(d - 15019.81352) / 365.242198781| ≤ 2780 := by rw [abs_le]; constructor <;> [rw [le_div_iff₀ (by norm_num)]; rw [div_le_iff₀ (by norm_num)]] <;> norm_num at * <;> linarith
    have h2 := R.add_err (x := X / Y) (X := (d - 15019.81352) / 365.242198781) (δ := 9.5e-13) (B := 2780) 1.26e-12 hq hbq (by norm_num) (by norm_num) (by norm_num)
    exact (R.add_err (X := 1900 + (d - 15019.81352) / 365.242198781) (δ := 1.26e-12) (B := 4680) 2e-12 (by rw [add_sub_add_left_eq_sub]; exact h2)
      (by
        have t := abs_add_le 1900 ((d - 15019.81352) / 365.242198781)
        rw [abs_of_pos (by norm_num : (0 : ℝ) < 1900)] at t
        linarith) (by norm_num) (by norm_num) (by norm_num))

/-- The year 2000, in IEEE 754 arithmetic. -/
example : |flEpj ieee 51544.5 - 2000| ≤ 2e-12 := by
  have := (C100_accuracy ieee_rounding 51544.5 (by rw [abs_of_pos (by norm_num)]; norm_num)).1
  unfold julianEpoch at this
  norm_num at this ⊢
  exact this

/-- **C100** (accuracy): for epochs within ±5000 the dates palEpj2d and palEpb2d return have these epochs, to 1.5e-9 days (0.13 milliseconds). -/
theorem C100_date_accuracy {fl : ℝ → ℝ} (R : Rounding fl) (e : ℝ) (he : |e| ≤ 5000) :
    |flEpj2d fl e - (51544.5 + (e - 2000) * 365.25)| ≤ 1.5e-9 ∧ |flEpb2d fl e - (15019.81352 + (e - 1900) * 365.242198781)| ≤ 1.5e-9 := by
  have b := abs_le.1 he
  constructor
  · unfold flEpj2d
    have h1 := R.add_err (x := e - 2000) (X := e - 2000) (δ := 0) (B := 7000) 7.773e-13 (by simp) (by rw [abs_le]; constructor <;> linarith) (by norm_num) (by norm_num) (by norm_num)
    have h2 := R.add_err (x := fl (e - 2000) * 365.25) (X := (e - 2000) * 365.25) (δ := 2.84e-10) (B := 2556750) 5.68e-10
      (by rw [← sub_mul, abs_mul, abs_of_pos (by norm_num : (0 : ℝ) < 365.25)]; exact (mul_le_mul_of_nonneg_right h1 (by norm_num)).trans (by norm_num))
      (by rw [abs_le]; constructor <;> norm_num <;> linarith) (by norm_num) (by norm_num) (by norm_num)
    exact R.add_err (X := 51544.5 + (e - 2000) * 365.25) (δ := 5.68e-10) (B := 2608300) 1.5e-9 (by rw [add_sub_add_left_eq_sub]; exact h2)
      (by rw [abs_le]; constructor <;> norm_num <;> linarith) (by norm_num) (by norm_num) (by norm_num)
  · unfold flEpb2d
    obtain ⟨c1, c1p⟩ := R.const 15019.81352 (by norm_num) (by norm_num)
    obtain ⟨c2, c2p⟩ := R.const 365.242198781 (by norm_num) (by norm_num)
    have c1' := abs_le.1 c1
    have c2' := abs_le.1 c2
    generalize fl 15019.81352 = K at *
    generalize fl 365.242198781 = Y at *
    have h1 := R.add_err (x := e - 1900) (X := e - 1900) (δ := 0) (B := 6900) 7.7e-13 (by simp) (by rw [abs_le]; constructor <;> linarith) (by norm_num) (by norm_num) (by norm_num)
    generalize fl (e - 1900) = X at *
    have hq : |X * Y - (e - 1900) * 365.242198781| ≤ 5.7e-10 := by
      have e1 : X * Y - (e - 1900) * 365.242198781 = (X - (e - 1900)) * Y + (e - 1900) * (Y - 365.242198781) := by ring
      rw [e1]
      have n1 : |(X - (e - 1900)) * Y| ≤ 7.7e-13 * 366 := by
        rw [abs_mul, abs_of_pos c2p]; exact mul_le_mul h1 (by norm_num at *; linarith) c2p.le (by norm_num)
      have n2 : |(e - 1900) * (Y - 365.242198781)| ≤ 6900 * (1.1104e-16 * 365.242198781) := by
        rw [abs_mul]
        exact mul_le_mul (by rw [abs_le]; constructor <;> linarith) c2 (abs_nonneg _) (by norm_num)
      have n3 := abs_add_le ((X - (e - 1900)) * Y) ((e - 1900) * (Y - 365.242198781))
      norm_num at *
      linarith
    have h2 := R.add_err (x := X * Y) (X := (e - 1900) * 365.242198781) (δ := 5.7e-10) (B := 2521000) 8.6e-10 hq
      (by rw [abs_le]; constructor <;> norm_num <;> linarith) (by norm_num) (by norm_num) (by norm_num)
    refine R.add_err (X := 15019.81352 + (e - 1900) * 365.242198781) (δ := 8.7e-10) (B := 2537000) 1.5e-9 ?_
      (by rw [abs_le]; constructor <;> norm_num <;> linarith) (by norm_num) (by norm_num) (by norm_num)
    have e1 : K + fl (X * Y) - (15019.81352 + (e - 1900) * 365.242198781) = (K - 15019.81352) + (fl (X * Y) - (e - 1900) * 365.242198781) := by ring
    rw [e1]
    have := abs_add_le (K - 15019.81352) (fl (X * Y) - (e - 1900) * 365.242198781)
    norm_num at *
    linarith

/-- **C100** (there and back): for dates within a million days of MJD 0 palEpj2d of palEpj, and palEpb2d of palEpb, return the date within 3e-9 days (0.3 milliseconds); for epochs from 0 to 4500
palEpj of palEpj2d, and palEpb of palEpb2d, return the epoch within 1e-11 years. -/
theorem C100_roundtrip {fl : ℝ → ℝ} (R : Rounding fl) :
    (∀ d, |d| ≤ 1000000 → |flEpj2d fl (flEpj fl d) - d| ≤ 3e-9 ∧ |flEpb2d fl (flEpb fl d) - d| ≤ 3e-9) ∧
    (∀ e, 0 ≤ e → e ≤ 4500 → |flEpj fl (flEpj2d fl e) - e| ≤ 1e-11 ∧ |flEpb fl (flEpb2d fl e) - e| ≤ 1e-11) := by
  constructor
  · intro d hd
    have b := abs_le.1 hd
    obtain ⟨a1, a2⟩ := C100_accuracy R d hd
    have a1' := abs_le.1 a1
    have a2' := abs_le.1 a2
    unfold julianEpoch at a1'
    unfold besselianEpoch at a2'
    constructor
    · have h := (C100_date_accuracy R (flEpj fl d) (by rw [abs_le]; constructor <;> norm_num at * <;> linarith)).1
      have h' := abs_le.1 h
      rw [abs_le]; constructor <;> norm_num at * <;> linarith
    · have h := (C100_date_accuracy R (flEpb fl d) (by rw [abs_le]; constructor <;> norm_num at * <;> linarith)).2
      have h' := abs_le.1 h
      rw [abs_le]; constructor <;> norm_num at * <;> linarith
  · intro e e0 e1
    obtain ⟨a1, a2⟩ := C100_date_accuracy R e (by rw [abs_of_nonneg e0]; linarith)
    have a1' := abs_le.1 a1
    have a2' := abs_le.1 a2
    constructor
    · have h := (C100_accuracy R (flEpj2d fl e) (by rw [abs_le]; constructor <;> norm_num at * <;> linarith)).1
      unfold julianEpoch at h
      have h' := abs_le.1 h
      rw [abs_le]; constructor <;> norm_num at * <;> linarith
    · have h := (C100_accuracy R (flEpb2d fl e) (by rw [abs_le]; constructor <;> norm_num at * <;> linarith)).2
      unfold besselianEpoch at h
      have h' := abs_le.1 h
      rw [abs_le]; constructor <;> norm_num at * <;> linarith

example : |flEpj2d ieee (flEpj ieee 51234.5678) - 51234.5678| ≤ 3e-9 :=
  ((C100_roundtrip ieee_rounding).1 51234.5678 (by rw [abs_of_pos (by norm_num)]; norm_num)).1

/-- **C100** (palEpco): between Besselian and Julian epochs and back, in double precision, for epochs from 1 to 4499. -/
theorem C100_epco {fl : ℝ → ℝ} (R : Rounding fl) (e : ℝ) (e0 : 1 ≤ e) (e1 : e ≤ 4499) :
    |flEpco fl 'B' 'J' (flEpco fl 'J' 'B' e) - e| ≤ 2e-11 ∧ |flEpco fl 'J' 'B' (flEpco fl 'B' 'J' e) - e| ≤ 2e-11 := by
  have hu : toUpperC 'B' = 'B' ∧ toUpperC 'J' = 'J' := by decide
  have k1 : ∀ x, flEpco fl 'B' 'J' x = flEpb fl (flEpj2d fl x) := by
    intro x; unfold flEpco; simp [hu]
  have k2 : ∀ x, flEpco fl 'J' 'B' x = flEpj fl (flEpb2d fl x) := by
    intro x; unfold flEpco; simp [hu]
  rw [k1, k2, k2, k1]
  have step : ∀ x, 0 ≤ x → x ≤ 4500 → |flEpb fl (flEpj2d fl x) - besselianEpoch (51544.5 + (x - 2000) * 365.25)| ≤ 6.2e-12 ∧
      |flEpj fl (flEpb2d fl x) - julianEpoch (15019.81352 + (x - 1900) * 365.242198781)| ≤ 6.2e-12 := by
    intro x x0 x1
    obtain ⟨a1, a2⟩ := C100_date_accuracy R x (by rw [abs_of_nonneg x0]; linarith)
    have a1' := abs_le.1 a1
    have a2' := abs_le.1 a2
    have h1 := abs_le.1 (C100_accuracy R (flEpj2d fl x) (by rw [abs_le]; constructor <;> norm_num at * <;> linarith)).2
    have h2 := abs_le.1 (C100_accuracy R (flEpb2d fl x) (by rw [abs_le]; constructor <;> norm_num at * <;> linarith)).1
    unfold besselianEpoch at *
    unfold julianEpoch at *
    rw [abs_le, abs_le]
    refine ⟨⟨?_, ?_⟩, ?_, ?_⟩ <;> norm_num at * <;> linarith
  obtain ⟨s1, s2⟩ := step e (by linarith) (by linarith)
  have s1' := abs_le.1 s1
  have s2' := abs_le.1 s2
  unfold besselianEpoch at s1'
  unfold julianEpoch at s2'
  constructor
  · have h := abs_le.1 (step (flEpj fl (flEpb2d fl e)) (by norm_num at *; linarith) (by norm_num at *; linarith)).1
    unfold besselianEpoch at h
    rw [abs_le]; constructor <;> norm_num at * <;> linarith
  · have h := abs_le.1 (step (flEpb fl (flEpj2d fl e)) (by norm_num at *; linarith) (by norm_num at *; linarith)).2
    unfold julianEpoch at h
    rw [abs_le]; constructor <;> norm_num at * <;> linarith

example : |flEpco ieee 'B' 'J' (flEpco ieee 'J' 'B' 1950) - 1950| ≤ 2e-11 := (C100_epco ieee_rounding 1950 (by norm_num) (by norm_num)).1

/-- **C100** (order): a later date never gets an earlier epoch, nor a later epoch an earlier date, in double precision. -/
theorem C100_monotone {fl : ℝ → ℝ} (R : Rounding fl) (x y : ℝ) (hx : |x| ≤ 10 ^ 20) (hy : |y| ≤ 10 ^ 20) (h : x ≤ y) :
    flEpj fl x ≤ flEpj fl y ∧ flEpb fl x ≤ flEpb fl y ∧ flEpj2d fl x ≤ flEpj2d fl y ∧ flEpb2d fl x ≤ flEpb2d fl y := by
  have bnd : ∀ z b : ℝ, 1 ≤ b → b ≤ 10 ^ 28 → |z| ≤ b → |fl z| ≤ 2 * b := by
    intro z b h1 h2 h3
    have := R.add_err (x := z) (X := z) (δ := 0) (B := b) b (by simp) h3 h1 (by norm_num at *; linarith) (by norm_num at *; linarith)
    have t := abs_add_le z (fl z - z)
    rw [add_sub_cancel] at t
    linarith
  have mon : ∀ z w b : ℝ, b ≤ 10 ^ 30 → |z| ≤ b → |w| ≤ b → z ≤ w → fl z ≤ fl w := fun z w b h1 h2 h3 h4 => R.le (h2.trans h1) (h3.trans h1) h4
  have add : ∀ c z a b : ℝ, |c| ≤ a → |z| ≤ b → |c + z| ≤ a + b := fun c z a b h1 h2 => (abs_add_le c z).trans (add_le_add h1 h2)
  have div : ∀ c z b : ℝ, 1 ≤ c → |z| ≤ b → |z / c| ≤ b := by
    intro c z b h1 h2
    rw [abs_div, abs_of_pos (by linarith : 0 < c)]
    exact (div_le_self (abs_nonneg _) h1).trans h2
  have mul : ∀ c z b : ℝ, 0 < c → c ≤ 1000 → |z| ≤ b → |z * c| ≤ 1000 * b := by
    intro c z b h0 h1 h2
    rw [abs_mul, abs_of_pos h0]
    have := mul_le_mul h2 h1 h0.le ((abs_nonneg _).trans h2)
    linarith
  have c51 : |(-51544.5 : ℝ)| ≤ 10 ^ 20 := by rw [abs_of_neg (by norm_num)]; norm_num
  obtain ⟨c1, c1p⟩ := R.const 36524.68648 (by norm_num) (by norm_num)
  obtain ⟨c2, c2p⟩ := R.const 365.242198781 (by norm_num) (by norm_num)
  obtain ⟨c3, c3p⟩ := R.const 15019.81352 (by norm_num) (by norm_num)
  have c1' := abs_le.1 c1
  have c2' := abs_le.1 c2
  have c3' := abs_le.1 c3
  unfold flEpj flEpb flEpj2d flEpb2d
  rw [flMJ R]
  generalize fl 36524.68648 = K at *
  generalize fl 365.242198781 = Y at *
  generalize fl 15019.81352 = L at *
  have Y1 : 1 ≤ Y := by norm_num at *; linarith
  have Y2 : Y ≤ 1000 := by norm_num at *; linarith
  have Kb : |K| ≤ 10 ^ 20 := by rw [abs_of_pos c1p]; norm_num at *; linarith
  have Lb : |L| ≤ 10 ^ 20 := by rw [abs_of_pos c3p]; norm_num at *; linarith
  have b2000 : |(2000 : ℝ)| ≤ 10 ^ 20 := by rw [abs_of_pos (by norm_num)]; norm_num
  have b1900 : |(1900 : ℝ)| ≤ 10 ^ 20 := by rw [abs_of_pos (by norm_num)]; norm_num
  have b515 : |(51544.5 : ℝ)| ≤ 10 ^ 20 := by rw [abs_of_pos (by norm_num)]; norm_num
  have bm2000 : |(-2000 : ℝ)| ≤ 10 ^ 20 := by rw [abs_neg]; exact b2000
  have bm1900 : |(-1900 : ℝ)| ≤ 10 ^ 20 := by rw [abs_neg]; exact b1900
  refine ⟨?_, ?_, ?_, ?_⟩
  · have p1 : ∀ z, |z| ≤ 10 ^ 20 → |(-51544.5 : ℝ) + z| ≤ 10 ^ 20 + 10 ^ 20 := fun z hz => add _ _ _ _ c51 hz
    have p2 : ∀ z, |z| ≤ 10 ^ 20 → |fl (-51544.5 + z) / 365.25| ≤ 2 * (10 ^ 20 + 10 ^ 20) := fun z hz => div _ _ _ (by norm_num) (bnd _ _ (by norm_num) (by norm_num) (p1 z hz))
    have p3 : ∀ z, |z| ≤ 10 ^ 20 → |2000 + fl (fl (-51544.5 + z) / 365.25)| ≤ 10 ^ 20 + 2 * (2 * (10 ^ 20 + 10 ^ 20)) := fun z hz => add _ _ _ _ b2000 (bnd _ _ (by norm_num) (by norm_num) (p2 z hz))
    refine mon _ _ _ (by norm_num) (p3 x hx) (p3 y hy) (add_le_add (le_refl _) ?_)
    refine mon _ _ _ (by norm_num) (p2 x hx) (p2 y hy) (div_le_div_of_nonneg_right ?_ (by norm_num))
    exact mon _ _ _ (by norm_num) (p1 x hx) (p1 y hy) (by linarith)
  · have p0 : ∀ z, |z| ≤ 10 ^ 20 → |z + K| ≤ 10 ^ 20 + 10 ^ 20 := fun z hz => add _ _ _ _ hz Kb
    have p1 : ∀ z, |z| ≤ 10 ^ 20 → |(-51544.5 : ℝ) + fl (z + K)| ≤ 10 ^ 20 + 2 * (10 ^ 20 + 10 ^ 20) := fun z hz => add _ _ _ _ c51 (bnd _ _ (by norm_num) (by norm_num) (p0 z hz))
    have p2 : ∀ z, |z| ≤ 10 ^ 20 → |fl (-51544.5 + fl (z + K)) / Y| ≤ 2 * (10 ^ 20 + 2 * (10 ^ 20 + 10 ^ 20)) := fun z hz => div _ _ _ Y1 (bnd _ _ (by norm_num) (by norm_num) (p1 z hz))
    have p3 : ∀ z, |z| ≤ 10 ^ 20 → |1900 + fl (fl (-51544.5 + fl (z + K)) / Y)| ≤ 10 ^ 20 + 2 * (2 * (10 ^ 20 + 2 * (10 ^ 20 + 10 ^ 20))) :=
      fun z hz => add _ _ _ _ b1900 (bnd _ _ (by norm_num) (by norm_num) (p2 z hz))
    refine mon _ _ _ (by norm_num) (p3 x hx) (p3 y hy) (add_le_add (le_refl _) ?_)
    refine mon _ _ _ (by norm_num) (p2 x hx) (p2 y hy) (div_le_div_of_nonneg_right ?_ c2p.le)
    refine mon _ _ _ (by norm_num) (p1 x hx) (p1 y hy) (add_le_add (le_refl _) ?_)
    exact mon _ _ _ (by norm_num) (p0 x hx) (p0 y hy) (by linarith)
  · have p1 : ∀ z : ℝ, |z| ≤ 10 ^ 20 → |z - 2000| ≤ 10 ^ 20 + 10 ^ 20 := fun z hz => by rw [sub_eq_add_neg]; exact add _ _ _ _ hz bm2000
    have p2 : ∀ z, |z| ≤ 10 ^ 20 → |fl (z - 2000) * 365.25| ≤ 1000 * (2 * (10 ^ 20 + 10 ^ 20)) := fun z hz => mul _ _ _ (by norm_num) (by norm_num) (bnd _ _ (by norm_num) (by norm_num) (p1 z hz))
    have p3 : ∀ z, |z| ≤ 10 ^ 20 → |51544.5 + fl (fl (z - 2000) * 365.25)| ≤ 10 ^ 20 + 2 * (1000 * (2 * (10 ^ 20 + 10 ^ 20))) := fun z hz => add _ _ _ _ b515 (bnd _ _ (by norm_num) (by norm_num) (p2 z hz))
    refine mon _ _ _ (by norm_num) (p3 x hx) (p3 y hy) (add_le_add (le_refl _) ?_)
    refine mon _ _ _ (by norm_num) (p2 x hx) (p2 y hy) (mul_le_mul_of_nonneg_right ?_ (by norm_num))
    exact mon _ _ _ (by norm_num) (p1 x hx) (p1 y hy) (by linarith)
  · have p1 : ∀ z : ℝ, |z| ≤ 10 ^ 20 → |z - 1900| ≤ 10 ^ 20 + 10 ^ 20 := fun z hz => by rw [sub_eq_add_neg]; exact add _ _ _ _ hz bm1900
    have p2 : ∀ z, |z| ≤ 10 ^ 20 → |fl (z - 1900) * Y| ≤ 1000 * (2 * (10 ^ 20 + 10 ^ 20)) := fun z hz => mul _ _ _ c2p Y2 (bnd _ _ (by norm_num) (by norm_num) (p1 z hz))
    have p3 : ∀ z, |z| ≤ 10 ^ 20 → |L + fl (fl (z - 1900) * Y)| ≤ 10 ^ 20 + 2 * (1000 * (2 * (10 ^ 20 + 10 ^ 20))) := fun z hz => add _ _ _ _ Lb (bnd _ _ (by norm_num) (by norm_num) (p2 z hz))
    refine mon _ _ _ (by norm_num) (p3 x hx) (p3 y hy) (add_le_add (le_refl _) ?_)
    refine mon _ _ _ (by norm_num) (p2 x hx) (p2 y hy) (mul_le_mul_of_nonneg_right ?_ c2p.le)
    exact mon _ _ _ (by norm_num) (p1 x hx) (p1 y hy) (by linarith)

example : flEpj ieee 51234.5678 ≤ flEpj ieee 51234.5679 :=
  (C100_monotone ieee_rounding _ _ (by rw [abs_of_pos (by norm_num)]; norm_num) (by rw [abs_of_pos (by norm_num)]; norm_num) (by norm_num)).1

end Pal.Props
