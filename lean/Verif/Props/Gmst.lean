import Verif.Spec.Gmst
import Verif.Lemmas.Nutc
import Verif.Props.Aoppa

/-!
# Greenwich mean sidereal time: property C93
-/

namespace Pal.Props
open Real Pal Pal.Spec

theorem fmod_one (x : ℝ) : ∃ k : ℤ, fmod x 1 = x - k := ⟨truncR (x / 1), by unfold fmod; ring⟩

theorem era00_spec (a b : ℝ) : SameAngle (eraEra00 a b) (2 * π * (a + b - 2451545 + 0.5 + 0.2790572732640 + 0.00273781191135448 * (a + b - 2451545))) := by
  unfold eraEra00
  dsimp only
  obtain ⟨k1, h1⟩ := fmod_one (if a < b then a else b)
  obtain ⟨k2, h2⟩ := fmod_one (if a < b then b else a)
  have hs : (if a < b then a else b) + (if a < b then b else a) = a + b := by split_ifs <;> ring
  obtain ⟨k, hk⟩ := (eraAnp_spec (2 * π * (fmod (if a < b then a else b) 1 + fmod (if a < b then b else a) 1 + 0.7790572732640 +
    0.00273781191135448 * ((if a < b then a else b) + ((if a < b then b else a) - 2451545))))).2
  refine ⟨k - k1 - k2 + 2451545, ?_⟩
  rw [hk, h1, h2]
  generalize (if a < b then a else b) = x at *
  generalize (if a < b then b else a) = y at *
  have : y = a + b - x := by linarith
  rw [this]
  push_cast
  ring

theorem gmst06_spec (a b : ℝ) : eraGmst06 a b a b ∈ Set.Ico 0 (2 * π) ∧ SameAngle (eraGmst06 a b a b) (gmstArcsec (a + b - 2451545) * arcsec) := by
  obtain ⟨k, hk⟩ := era00_spec a b
  unfold eraGmst06
  dsimp only
  refine ⟨(eraAnp_spec _).1, ?_⟩
  obtain ⟨l, hl⟩ := (eraAnp_spec (eraEra00 a b + (0.014506 + (4612.156534 + (1.3915817 + (-0.00000044 + (-0.000029956 + (-0.0000000368) * ((a - 2451545 + b) / 36525)) * ((a - 2451545 + b) / 36525)) *
    ((a - 2451545 + b) / 36525)) * ((a - 2451545 + b) / 36525)) * ((a - 2451545 + b) / 36525)) * das2r)).2
  refine ⟨k + l, ?_⟩
  rw [hl, hk]
  unfold gmstArcsec arcsec das2r
  push_cast
  ring

/-- **C93** (value) palGmst and palGmsta return, in the range 0 to 2π, the angle of the Earth's rotation plus the accumulated precession (the IAU 2006 polynomial), however date and time are split. -/
theorem C93_value (date ut : ℝ) :
    palGmst (date + ut) ∈ Set.Ico 0 (2 * π) ∧ SameAngle (palGmst (date + ut)) (gmstArcsec (date + ut - 51544.5) * arcsec) ∧ palGmsta date ut = palGmst (date + ut) := by
  have h1 := gmst06_spec 2400000.5 (date + ut)
  have h2 := gmst06_spec (date + 2400000.5) ut
  have e1 : (2400000.5 : ℝ) + (date + ut) - 2451545 = date + ut - 51544.5 := by ring
  have e2 : date + 2400000.5 + ut - 2451545 = date + ut - 51544.5 := by ring
  rw [e1] at h1
  rw [e2] at h2
  refine ⟨h1.1, h1.2, ?_⟩
  unfold palGmsta palGmst
  dsimp only
  obtain ⟨⟨a1, b1⟩, k1, h1⟩ := h1
  obtain ⟨⟨a2, b2⟩, k2, h2⟩ := h2
  have hp := two_pi_pos
  rw [h1] at a1 b1
  rw [h2] at a2 b2
  have hk : k2 = k1 := by
    have x1 : (k2 : ℝ) < k1 + 1 := by
      by_contra h; push Not at h
      have := mul_le_mul_of_nonneg_right h hp.le
      linarith
    have x2 : (k1 : ℝ) < k2 + 1 := by
      by_contra h; push Not at h
      have := mul_le_mul_of_nonneg_right h hp.le
      linarith
    have x1' : k2 < k1 + 1 := by exact_mod_cast x1
    have x2' : k1 < k2 + 1 := by exact_mod_cast x2
    omega
  rw [h1, h2, hk]

/-- **C93** (agreement) Between 1900 and 2100 palGmst and the sidereal time inside palAoppa and palAoppat (the 1982 expression) agree to 0.3 arcseconds (0.02 seconds of time). -/
theorem C93_agrees_aoppat (ut1 : ℝ) (h : |centuries ut1| ≤ 1) : ∃ e, |e| ≤ 0.3 * arcsec ∧ SameAngle (palGmst ut1) (aopGmst ut1 + e) := by
  have hv := (C93_value ut1 0).2.1
  rw [add_zero] at hv
  obtain ⟨k, hk⟩ := hv
  obtain ⟨t, ht⟩ : ∃ t, t = centuries ut1 := ⟨_, rfl⟩
  have hd : ut1 = 51544.5 + 36525 * t := by rw [ht]; unfold centuries; ring
  rw [← ht] at h
  obtain ⟨l, hl⟩ := fmod_one ut1
  obtain ⟨m, hm⟩ : SameAngle (aopGmst ut1) _ := by
    unfold aopGmst
    exact (eraAnp_spec _).2
  refine ⟨(0.014506144 - 0.275815792928 * t - 0.0049783 * t ^ 2 + (9.3e-5 - 0.00000044) * t ^ 3 - 0.000029956 * t ^ 4 - 0.0000000368 * t ^ 5) * arcsec, ?_, k - m + l - 51544, ?_⟩
  · rw [abs_mul, abs_of_pos (by unfold arcsec; positivity : 0 < arcsec)]
    refine mul_le_mul_of_nonneg_right ?_ (by unfold arcsec; positivity)
    obtain ⟨⟨t1, t1'⟩, ⟨t2, t2'⟩, ⟨t3, t3'⟩, t4, t4'⟩ := powers h
    have t5 : |t ^ 5| ≤ 1 := by rw [abs_pow]; exact pow_le_one₀ (abs_nonneg _) h
    rw [abs_le] at t5 ⊢
    constructor <;> norm_num <;> linarith
  · have hc : (ut1 - 51544.5) / 36525 = t := by rw [hd]; ring
    rw [hk, hm, hl]
    rw [hc]
    unfold gmstArcsec arcsec ds2r
    rw [hc, hd]
    push_cast
    ring

example : |centuries 60000.25| ≤ 1 := by unfold centuries; rw [abs_of_pos (by norm_num)]; norm_num

/-- **C93** (rate) Between 1900 and 2100 sidereal time gains on UT1 at the rate palAoppa uses to convert UT1-UTC: over `x` days it advances by 1.0027379093 turns a day, to 2 parts in 10¹⁰. -/
theorem C93_rate (ut1 x : ℝ) (h1 : |centuries ut1| ≤ 1) (h2 : |centuries (ut1 + x)| ≤ 1) :
    ∃ e, |e| ≤ 2e-10 * |x| ∧ SameAngle (palGmst (ut1 + x)) (palGmst ut1 + 2 * π * (1.0027379093 * x + e)) := by
  obtain ⟨k, hk⟩ := (C93_value ut1 x).2.1
  have hv := (C93_value ut1 0).2.1
  rw [add_zero] at hv
  obtain ⟨l, hl⟩ := hv
  obtain ⟨t, ht⟩ : ∃ t, t = centuries ut1 := ⟨_, rfl⟩
  obtain ⟨u, hu⟩ : ∃ u, u = centuries (ut1 + x) := ⟨_, rfl⟩
  rw [← ht] at h1
  rw [← hu] at h2
  have hx : x = 36525 * (u - t) := by rw [ht, hu]; unfold centuries; ring
  have hct : (ut1 - 51544.5) / 36525 = t := by rw [ht]; rfl
  have hcu : (ut1 + x - 51544.5) / 36525 = u := by rw [hu]; rfl
  refine ⟨((1.00273781191135448 + 4612.156534 / 1296000 / 36525 - 1.0027379093) + (1.3915817 * (t + u) - 0.00000044 * (t ^ 2 + t * u + u ^ 2) - 0.000029956 * ((t + u) * (t ^ 2 + u ^ 2))
    - 0.0000000368 * (t ^ 4 + t ^ 3 * u + t ^ 2 * u ^ 2 + t * u ^ 3 + u ^ 4)) / 1296000 / 36525) * x, ?_, k - l, ?_⟩
  · rw [abs_mul]
    refine mul_le_mul_of_nonneg_right ?_ (abs_nonneg _)
    obtain ⟨⟨t1, t1'⟩, -, -, -, -⟩ := powers h1
    obtain ⟨⟨u1, u1'⟩, -, -, -, -⟩ := powers h2
    have m : ∀ a b : ℕ, |t ^ a * u ^ b| ≤ 1 := by
      intro a b
      rw [abs_mul, abs_pow, abs_pow]
      exact mul_le_one₀ (pow_le_one₀ (abs_nonneg _) h1) (by positivity) (pow_le_one₀ (abs_nonneg _) h2)
    have m20 := abs_le.1 (m 2 0); have m11 := abs_le.1 (m 1 1); have m02 := abs_le.1 (m 0 2)
    have m30 := abs_le.1 (m 3 0); have m21 := abs_le.1 (m 2 1); have m12 := abs_le.1 (m 1 2); have m03 := abs_le.1 (m 0 3)
    have m40 := abs_le.1 (m 4 0); have m31 := abs_le.1 (m 3 1); have m22 := abs_le.1 (m 2 2); have m13 := abs_le.1 (m 1 3); have m04 := abs_le.1 (m 0 4)
    simp only [pow_zero, pow_one, mul_one, one_mul] at m20 m11 m02 m30 m21 m12 m03 m40 m31 m22 m13 m04
    rw [abs_le, show (t + u) * (t ^ 2 + u ^ 2) = t ^ 3 + t * u ^ 2 + t ^ 2 * u + u ^ 3 by ring]
    constructor <;> norm_num <;> linarith
  · rw [hk, hl]
    unfold gmstArcsec arcsec
    rw [hct, hcu]
    have e1 : ut1 - 51544.5 = 36525 * t := by rw [← hct]; ring
    have e2 : ut1 + x - 51544.5 = 36525 * u := by rw [← hcu]; ring
    rw [e1, e2, hx]
    push_cast
    ring

end Pal.Props
