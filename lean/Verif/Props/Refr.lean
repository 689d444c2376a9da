import Verif.Lemmas.Refr
import Mathlib.Analysis.SpecialFunctions.Pow.Deriv
import Mathlib.Analysis.Real.Pi.Bounds
import Mathlib.MeasureTheory.Integral.IntervalIntegral.FundThmCalculus
import Mathlib.Analysis.SpecialFunctions.Integrals.Basic

/-!
# Properties C50-C53, C55: the refraction integral, its model atmosphere and the constants derived from it
-/

namespace Pal.Props
open Pal Pal.Spec Real

/-! ## C52: the adaptive quadrature -/

/-- **C52** (termination) For every integrand, range and tolerance the quadrature of a segment stops, with at most 16384 strips (11 doublings of the initial 8). -/
theorem C52_segment_terminates (node : ℝ → ℝ → ℝ × ℝ) (z0 zrange fb ff rstart tol : ℝ) :
    ∃ v, ∃ e ≤ 11, refroSegment node z0 zrange fb ff rstart tol = some (v, 8 * 2 ^ e) :=
  loop_some node z0 zrange fb ff rstart tol 11 8 1 (by norm_num) 1 0 0

theorem core_some (zobs2 hmok tdkok pmbok rhok wlok phi alpha tol : ℝ) : ∃ ref, refroCore zobs2 hmok tdkok pmbok rhok wlok phi alpha tol = some ref := by
  unfold refroCore
  dsimp only
  split
  · rename_i h
    obtain ⟨v, e, _, h'⟩ := C52_segment_terminates _ _ _ _ _ _ _
    exact absurd (h'.symm.trans h) (by simp)
  · split
    · rename_i h
      obtain ⟨v, e, _, h'⟩ := C52_segment_terminates _ _ _ _ _ _ _
      exact absurd (h'.symm.trans h) (by simp)
    · exact ⟨_, rfl⟩

/-- **C52** palRefro always delivers a result. -/
theorem C52_refro_terminates (zobs hm tdk pmb rh wl phi tlr eps : ℝ) : ∃ ref, palRefro zobs hm tdk pmb rh wl phi tlr eps = some ref := by
  unfold palRefro
  dsimp only
  obtain ⟨v, h⟩ := core_some (min |palDrange zobs| 1.623156204) (min (max hm (-1e3)) 80000) (min (max tdk 100) 500) (min (max pmb 0) 10000) (min (max rh 0) 1)
    (max wl 0.1) phi (min (max |tlr| 0.001) 0.01) (min (max |eps| 1e-12) 0.1 / 2)
  rw [h]
  exact ⟨_, rfl⟩

/-- **C52** (what is computed) When the integrand at a zenith distance is g, whatever the search for it started from, the segment's result is the composite Simpson
rule for g with 8·2^e strips, where e is the first number of doublings for which the change was within the tolerance, or 11.  Every doubling reuses all earlier points. -/
theorem C52_simpson {node : ℝ → ℝ → ℝ × ℝ} {g : ℝ → ℝ} (hg : ∀ z r, (node z r).2 = g z) (z0 zrange rstart tol : ℝ) :
    let S : ℕ → ℝ := fun e => simpson g z0 (z0 + zrange) (8 * 2 ^ e)
    ∃ e ≤ 11, refroSegment node z0 zrange (g z0) (g (z0 + zrange)) rstart tol = some (S e, 8 * 2 ^ e) ∧
      (e = 11 ∨ |S e - (if e = 0 then 1 else S (e - 1))| ≤ tol) ∧ ∀ e' < e, tol < |S e' - (if e' = 0 then 1 else S (e' - 1))| :=
  segment_simpson hg z0 zrange rstart tol

example : ∃ node : ℝ → ℝ → ℝ × ℝ, ∃ g : ℝ → ℝ, (∀ z r, (node z r).2 = g z) ∧ (∃ z r r', (node z r).1 ≠ (node z r').1) ∧ g 0 ≠ g 1 :=
  ⟨fun z r => (r, exp z), exp, fun _ _ => rfl, ⟨0, 0, 1, by norm_num⟩, by rw [exp_zero]; exact (one_lt_exp_iff.2 one_pos).ne⟩

theorem simpson_panels (G g : ℝ → ℝ) (hG : ∀ x h, h / 3 * (g x + 4 * g (x + h) + g (x + 2 * h)) = G (x + 2 * h) - G x) (a b : ℝ) {m : ℕ} (hm : 0 < m) :
    simpson g a b (2 * m) = G b - G a := by
  unfold simpson
  dsimp only
  have h2 : 2 * m / 2 = m := by omega
  rw [h2]
  have hm' : (m : ℝ) ≠ 0 := by exact_mod_cast hm.ne'
  set h := (b - a) / ((2 * m : ℕ) : ℝ) with hh
  have hb : b = a + 2 * (m : ℝ) * h := by rw [hh]; push_cast; field_simp; ring
  have key : ∀ k : ℕ, 0 < k → h / 3 * (g a + 4 * ∑ j ∈ Finset.range k, g (a + (2 * j + 1) * h) + 2 * ∑ j ∈ Finset.range (k - 1), g (a + (2 * j + 2) * h)
      + g (a + 2 * (k : ℝ) * h)) = G (a + 2 * (k : ℝ) * h) - G a := by
    intro k
    induction k with
    | zero => intro h0; exact absurd h0 (lt_irrefl 0)
    | succ k ih =>
      intro _
      have hp := hG (a + 2 * (k : ℝ) * h) h
      rcases Nat.eq_zero_or_pos k with h0 | h0
      · subst h0
        simp only [Nat.cast_zero, mul_zero, zero_mul, add_zero] at hp
        simp
        rw [hp]
      · have ih' := ih h0
        rw [Finset.sum_range_succ, Nat.add_sub_cancel]
        obtain ⟨l, rfl⟩ : ∃ l, k = l + 1 := ⟨k - 1, by omega⟩
        rw [Nat.add_sub_cancel] at ih'
        rw [Finset.sum_range_succ (fun j : ℕ => g (a + (2 * (j : ℝ) + 2) * h)) l]
        have e1 : a + 2 * ((l + 1 + 1 : ℕ) : ℝ) * h = a + 2 * ((l + 1 : ℕ) : ℝ) * h + 2 * h := by push_cast; ring
        have e2 : a + (2 * ((l + 1 : ℕ) : ℝ) + 1) * h = a + 2 * ((l + 1 : ℕ) : ℝ) * h + h := by ring
        have e3 : a + (2 * (l : ℝ) + 2) * h = a + 2 * ((l + 1 : ℕ) : ℝ) * h := by push_cast; ring
        rw [e1, e2, e3]
        linear_combination ih' + hp
  have := key m hm
  rw [← hb] at this
  exact this

/-- **C52** (accuracy) For an integrand that is a polynomial of degree at most three the quadrature gives the exact integral, for every tolerance. -/
theorem C52_exact_for_cubics {node : ℝ → ℝ → ℝ × ℝ} (p0 p1 p2 p3 : ℝ) (hg : ∀ z r, (node z r).2 = p0 + p1 * z + p2 * z ^ 2 + p3 * z ^ 3) (z0 zrange rstart tol : ℝ) :
    ∃ n, refroSegment node z0 zrange (p0 + p1 * z0 + p2 * z0 ^ 2 + p3 * z0 ^ 3)
        (p0 + p1 * (z0 + zrange) + p2 * (z0 + zrange) ^ 2 + p3 * (z0 + zrange) ^ 3) rstart tol =
      some (∫ z in z0..(z0 + zrange), (p0 + p1 * z + p2 * z ^ 2 + p3 * z ^ 3), n) := by
  obtain ⟨e, _, h, _⟩ := C52_simpson (g := fun z => p0 + p1 * z + p2 * z ^ 2 + p3 * z ^ 3) hg z0 zrange rstart tol
  refine ⟨8 * 2 ^ e, ?_⟩
  rw [h]
  congr 2
  have hG := simpson_panels (fun z => p0 * z + p1 / 2 * z ^ 2 + p2 / 3 * z ^ 3 + p3 / 4 * z ^ 4) (fun z => p0 + p1 * z + p2 * z ^ 2 + p3 * z ^ 3)
    (by intro x h; ring) z0 (z0 + zrange) (m := 4 * 2 ^ e) (by positivity)
  have hn : 8 * 2 ^ e = 2 * (4 * 2 ^ e) := by ring
  dsimp only at hG ⊢
  rw [hn, hG]
  symm
  refine intervalIntegral.integral_eq_sub_of_hasDerivAt (f := fun z => p0 * z + p1 / 2 * z ^ 2 + p2 / 3 * z ^ 3 + p3 / 4 * z ^ 4) ?_ ?_
  · intro x _
    have h1 : HasDerivAt (fun z : ℝ => p0 * z) p0 x := by simpa using (hasDerivAt_id x).const_mul p0
    have h2 : HasDerivAt (fun z : ℝ => p1 / 2 * z ^ 2) (p1 / 2 * (2 * x)) x := by simpa using (hasDerivAt_pow 2 x).const_mul (p1 / 2)
    have h3 : HasDerivAt (fun z : ℝ => p2 / 3 * z ^ 3) (p2 / 3 * (3 * x ^ 2)) x := by simpa using (hasDerivAt_pow 3 x).const_mul (p2 / 3)
    have h4 : HasDerivAt (fun z : ℝ => p3 / 4 * z ^ 4) (p3 / 4 * (4 * x ^ 3)) x := by simpa using (hasDerivAt_pow 4 x).const_mul (p3 / 4)
    exact (((h1.add h2).add h3).add h4).congr_deriv (by ring)
  · apply Continuous.intervalIntegrable
    fun_prop

example : ∃ node : ℝ → ℝ → ℝ × ℝ, ∀ z r, (node z r).2 = 1 + 2 * z + 3 * z ^ 2 + 4 * z ^ 3 := ⟨fun z r => (r, 1 + 2 * z + 3 * z ^ 2 + 4 * z ^ 3), fun _ _ => rfl⟩

/-! ## C51: range reduction and clamping of the arguments of palRefro -/

theorem clamp_idem (x a b : ℝ) (_h : a ≤ b) : min (max (min (max x a) b) a) b = min (max x a) b := by
  rw [max_eq_left (le_min (le_max_right _ _) _h), min_assoc, min_self]

/-- **C51** (clamps) palRefro uses the height, temperature, pressure, humidity, wavelength, lapse rate and precision only through their values limited to the safe ranges,
and ignores the sign of lapse rate and precision. -/
theorem C51_clamps (zobs hm tdk pmb rh wl phi tlr eps : ℝ) :
    palRefro zobs hm tdk pmb rh wl phi tlr eps =
      palRefro zobs (min (max hm (-1000)) 80000) (min (max tdk 100) 500) (min (max pmb 0) 10000) (min (max rh 0) 1) (max wl 0.1) phi
        (min (max |tlr| 0.001) 0.01) (min (max |eps| 1e-12) 0.1) := by
  unfold palRefro
  dsimp only
  have h1 : (-1e3 : ℝ) = -1000 := by norm_num
  have a1 : |min (max |tlr| 0.001) (0.01 : ℝ)| = min (max |tlr| 0.001) 0.01 := abs_of_nonneg (le_min (le_max_of_le_right (by norm_num)) (by norm_num))
  have a2 : |min (max |eps| 1e-12) (0.1 : ℝ)| = min (max |eps| 1e-12) 0.1 := abs_of_nonneg (le_min (le_max_of_le_right (by norm_num)) (by norm_num))
  rw [h1, clamp_idem hm _ _ (by norm_num), clamp_idem tdk _ _ (by norm_num), clamp_idem pmb _ _ (by norm_num), clamp_idem rh _ _ (by norm_num), a1, a2,
    clamp_idem |tlr| _ _ (by norm_num), clamp_idem |eps| _ _ (by norm_num), max_assoc, max_self]

theorem truncR_neg (x : ℝ) : truncR (-x) = -truncR x := by
  unfold truncR
  rcases lt_trichotomy x 0 with h | h | h
  · rw [if_pos (by linarith), if_neg (by linarith), Int.floor_neg]
  · subst h; simp
  · rw [if_neg (by linarith), if_pos h.le, Int.ceil_neg]

theorem palDrange_neg (a : ℝ) : palDrange (-a) = -palDrange a := by
  have hf : fmod (-a) (2 * π) = -fmod a (2 * π) := by unfold fmod; rw [neg_div, truncR_neg]; push_cast; ring
  unfold palDrange
  dsimp only
  rw [hf]
  have hp := pi_pos
  by_cases h1 : fmod a (2 * π) > π
  · rw [if_neg (by linarith), if_pos (by linarith), if_pos h1]; ring
  · by_cases h2 : fmod a (2 * π) < -π
    · rw [if_pos (by linarith), if_neg h1, if_pos h2]; ring
    · rw [if_neg (by linarith), if_neg (by linarith), if_neg h1, if_neg h2]

theorem core_zero (hmok tdkok pmbok rhok wlok phi alpha tol : ℝ) : refroCore 0 hmok tdkok pmbok rhok wlok phi alpha tol = some 0 := by
  unfold refroCore
  dsimp only
  have hzd : refroZd 0 = 0 := by unfold refroZd; simpa using atan2_zero_pos zero_le_one
  have hzt : ∀ A g h, (refroRay A g h 0).zt = 0 := by intro A g h; show refroZd _ = 0; simp [hzd]
  have hzts : ∀ A g h, (refroRay A g h 0).zts = 0 := by intro A g h; show refroZd _ = 0; simp [hzd]
  have hzs : ∀ A g h, (refroRay A g h 0).zs = 0 := by intro A g h; show refroZd _ = 0; simp [hzd]
  rw [hzt, hzts, hzs, sub_zero]
  have hseg : ∀ node z0 fb ff rs tol, ∃ k, refroSegment node z0 0 fb ff rs tol = some (0, k) := fun node z0 fb ff rs tol =>
    loop_zero_range z0 fb ff rs tol 11 8 1 (by norm_num) 1 0 0
  split
  · rename_i h
    obtain ⟨k, h'⟩ := hseg _ _ _ _ _ _
    exact absurd (h'.symm.trans h) (by simp)
  · rename_i a h
    obtain ⟨k, h'⟩ := hseg _ _ _ _ _ _
    have ha := h'.symm.trans h
    split
    · rename_i h
      obtain ⟨k, h'⟩ := hseg _ _ _ _ _ _
      exact absurd (h'.symm.trans h) (by simp)
    · rename_i b h
      obtain ⟨k', h'⟩ := hseg _ _ _ _ _ _
      have hb := h'.symm.trans h
      simp only [Option.some.injEq] at ha hb
      rw [← ha, ← hb]
      simp

theorem palRefro_zero (hm tdk pmb rh wl phi tlr eps : ℝ) {zobs : ℝ} (hz : palDrange zobs = 0) : palRefro zobs hm tdk pmb rh wl phi tlr eps = some 0 := by
  unfold palRefro
  dsimp only
  have h0 : min |(0 : ℝ)| 1.623156204 = 0 := by rw [abs_zero]; exact min_eq_left (by norm_num)
  rw [hz, h0, core_zero]
  simp

/-- **C51** (sign) The refraction for the opposite zenith distance is the opposite refraction, for every zenith distance. -/
theorem C51_odd (zobs hm tdk pmb rh wl phi tlr eps : ℝ) :
    palRefro (-zobs) hm tdk pmb rh wl phi tlr eps = (palRefro zobs hm tdk pmb rh wl phi tlr eps).map (fun x => -x) := by
  by_cases h0 : palDrange zobs = 0
  · rw [palRefro_zero _ _ _ _ _ _ _ _ h0, palRefro_zero _ _ _ _ _ _ _ _ (by rw [palDrange_neg, h0, neg_zero])]
    simp
  · unfold palRefro
    dsimp only
    rw [palDrange_neg, abs_neg, Option.map_map]
    congr 1
    funext x
    simp only [Function.comp]
    rcases lt_or_gt_of_ne h0 with h | h
    · rw [if_neg (by linarith), if_pos h, neg_neg]
    · rw [if_pos (by linarith), if_neg (by linarith)]

/-- **C51** (zenith) There is no refraction at the zenith. -/
theorem C51_zenith (hm tdk pmb rh wl phi tlr eps : ℝ) : palRefro 0 hm tdk pmb rh wl phi tlr eps = some 0 :=
  palRefro_zero _ _ _ _ _ _ _ _ (palDrange_eq (by simpa using pi_pos.le))

/-- **C51** (periodicity) Zenith distances that differ by whole turns have the same refraction (away from the nadir, where the sign is a convention). -/
theorem C51_periodic (zobs : ℝ) (k : ℤ) (hz : cos zobs ≠ -1) (hm tdk pmb rh wl phi tlr eps : ℝ) :
    palRefro (zobs + k * (2 * π)) hm tdk pmb rh wl phi tlr eps = palRefro zobs hm tdk pmb rh wl phi tlr eps := by
  have h1 := palDrange_spec (zobs + k * (2 * π))
  have h2 := palDrange_spec zobs
  have hs : SameAngle (palDrange (zobs + k * (2 * π))) (palDrange zobs) := (h1.2.trans ⟨k, rfl⟩).trans h2.2.symm
  have hne : ∀ x, SameAngle x zobs → x ≠ -π := by
    intro x hx h
    apply hz
    rw [← hx.cos, h, cos_neg, cos_pi]
  have b1 := abs_le.1 h1.1
  have b2 := abs_le.1 h2.1
  have e : palDrange (zobs + k * (2 * π)) = palDrange zobs := by
    apply hs.eq_of_Ioc (c := -π)
    · exact ⟨lt_of_le_of_ne b1.1 (Ne.symm (hne _ (h1.2.trans ⟨k, rfl⟩))), by linarith [b1.2]⟩
    · exact ⟨lt_of_le_of_ne b2.1 (Ne.symm (hne _ h2.2)), by linarith [b2.2]⟩
  unfold palRefro
  dsimp only
  rw [e]

example : cos (1 : ℝ) ≠ -1 := by have := cos_one_pos; linarith

/-- **C51** (large zenith distances) Between 1.623156204 radians (93°) and π the refraction is that of 1.623156204 radians. -/
theorem C51_beyond_93 (zobs : ℝ) (h1 : 1.623156204 ≤ zobs) (h2 : zobs ≤ π) (hm tdk pmb rh wl phi tlr eps : ℝ) :
    palRefro zobs hm tdk pmb rh wl phi tlr eps = palRefro 1.623156204 hm tdk pmb rh wl phi tlr eps := by
  have hp := pi_gt_three
  have e1 : palDrange zobs = zobs := palDrange_eq (by rw [abs_of_nonneg (by linarith)]; exact h2)
  have e2 : palDrange 1.623156204 = 1.623156204 := palDrange_eq (by rw [abs_of_nonneg (by norm_num)]; linarith)
  unfold palRefro
  dsimp only
  rw [e1, e2, abs_of_nonneg (show (0 : ℝ) ≤ zobs by linarith), abs_of_nonneg (show (0 : ℝ) ≤ 1.623156204 by norm_num), min_eq_right h1, min_self]
  congr 1
  funext x
  rw [if_neg (by linarith), if_neg (by norm_num)]

/-- the limit is 93 degrees to better than 4e-10 radian -/
theorem C51_limit_is_93_degrees : |(1.623156204 : ℝ) - 93 * (π / 180)| < 4e-10 := by
  rw [abs_lt]
  constructor <;> nlinarith [pi_gt_d20, pi_lt_d20]

/-- **C51** (latitude) The refraction is the same at opposite latitudes. -/
theorem C51_latitude (zobs hm tdk pmb rh wl phi tlr eps : ℝ) :
    palRefro zobs hm tdk pmb rh wl (-phi) tlr eps = palRefro zobs hm tdk pmb rh wl phi tlr eps := by
  have hg : ∀ h, refroGamal h (-phi) = refroGamal h phi := by
    intro h; unfold refroGamal; dsimp only; rw [show -phi + -phi = -(phi + phi) by ring, cos_neg]
  have ha : ∀ a b c d e f, refroAtm a b c d e (-phi) f = refroAtm a b c d e phi f := by
    intros; unfold refroAtm; dsimp only; rw [hg]
  unfold palRefro refroCore
  dsimp only
  simp only [hg, ha]

theorem vac_atm (hmok tdkok rhok wlok phi alpha r : ℝ) : (pal1Atmt (refroAtm hmok tdkok 0 rhok wlok phi alpha) r).2 = (1, 0) := by
  have hp : refroPwo tdkok 0 rhok = 0 := by unfold refroPwo; rw [if_neg (lt_irrefl 0)]
  unfold pal1Atmt refroAtm
  simp [hp]

theorem vac_segment (node : ℝ → ℝ → ℝ × ℝ) (hn : ∀ z r, (node z r).2 = 0) (z0 zr rs tol : ℝ) : ∃ n, refroSegment node z0 zr 0 0 rs tol = some (0, n) := by
  obtain ⟨e, _, h, _⟩ := C52_simpson (g := fun _ => 0) hn z0 zr rs tol
  exact ⟨8 * 2 ^ e, by rw [h]; simp only [simpson_zero]⟩

/-- **C51** (vacuum) Without air (zero or negative pressure) there is no refraction. -/
theorem C51_vacuum (zobs hm tdk pmb rh wl phi tlr eps : ℝ) (hp : pmb ≤ 0) : palRefro zobs hm tdk pmb rh wl phi tlr eps = some 0 := by
  unfold palRefro refroCore
  dsimp only
  have h0 : min (max pmb 0) (10000 : ℝ) = 0 := by rw [max_eq_right hp]; exact min_eq_left (by norm_num)
  rw [h0]
  set A := refroAtm (min (max hm (-1e3)) 80000) (min (max tdk 100) 500) 0 (min (max rh 0) 1) (max wl 0.1) phi (min (max |tlr| 0.001) 0.01) with hA
  have hvac : ∀ r, (pal1Atmt A r).2 = (1, 0) := fun r => vac_atm _ _ _ _ _ _ r
  have h21 : ∀ r, (pal1Atmt A r).2.1 = 1 := fun r => by rw [hvac]
  have h22 : ∀ r, (pal1Atmt A r).2.2 = 0 := fun r => by rw [hvac]
  set g := refroGamal (min (max hm (-1e3)) 80000) phi
  set z := min |palDrange zobs| 1.623156204
  set Q := refroRay A g (min (max hm (-1e3)) 80000) z with hQ
  have hdnt : Q.dnt = 1 := h21 _
  have hstrat : ∀ r, pal1Atms Q.rt Q.tt Q.dnt g r = (1, 0) := by intro r; unfold pal1Atms; rw [hdnt]; simp
  have hf0 : Q.f0 = 0 := by show refi _ _ = 0; rw [h22]; simp [refi]
  have hft : Q.ft = 0 := by show refi _ _ = 0; rw [h22]; simp [refi]
  have hfts : Q.fts = 0 := by
    show refi (pal1Atms Q.rt Q.tt Q.dnt g Q.rt).1 (pal1Atms Q.rt Q.tt Q.dnt g Q.rt).2 = 0
    rw [hstrat]; simp [refi]
  have hfs : Q.fs = 0 := by
    show refi (pal1Atms Q.rt Q.tt Q.dnt g (6378120 + 80000)).1 (pal1Atms Q.rt Q.tt Q.dnt g (6378120 + 80000)).2 = 0
    rw [hstrat]; simp [refi]
  rw [hf0, hft, hfts, hfs]
  obtain ⟨n, hn⟩ := vac_segment (refroNode (fun r => (pal1Atmt A r).2) Q.sk0) (by intro z r; simp [refroNode, hvac, refi]) z (Q.zt - z) A.r0 (min (max |eps| 1e-12) 0.1 / 2)
  obtain ⟨m, hm'⟩ := vac_segment (refroNode (fun r => pal1Atms Q.rt Q.tt Q.dnt g r) Q.sk0) (by intro z r; simp [refroNode, hstrat, refi]) Q.zts (Q.zs - Q.zts) Q.rt
    (min (max |eps| 1e-12) 0.1 / 2)
  rw [hn]
  dsimp only
  rw [hm']
  simp

example : palRefro 1 0 280 (-5) 0.5 0.5 0.3 0.0065 1e-8 = some 0 := C51_vacuum _ _ _ _ _ _ _ _ _ (by norm_num)

/-! ## C53: the model atmosphere -/

/-- **C53** (temperature) The temperature of the troposphere model lies between 100 and 320 K, and falls linearly with height where it does. -/
theorem C53_temperature (A : AtmT) (r : ℝ) : 100 ≤ (pal1Atmt A r).1 ∧ (pal1Atmt A r).1 ≤ 320 ∧
    (100 ≤ A.t0 - A.alpha * (r - A.r0) → A.t0 - A.alpha * (r - A.r0) ≤ 320 → (pal1Atmt A r).1 = A.t0 - A.alpha * (r - A.r0)) := by
  unfold pal1Atmt
  dsimp only
  refine ⟨le_max_right _ _, max_le (min_le_right _ _) (by norm_num), fun h1 h2 => ?_⟩
  rw [min_eq_left h2, max_eq_left h1]

/-- The constants of palRefro satisfy the relations that make c3, c4, c6 derivatives of c1, c2, c5. -/
theorem refroAtm_rel (hmok tdkok pmbok rhok wlok phi alpha : ℝ) :
    let A := refroAtm hmok tdkok pmbok rhok wlok phi alpha
    A.c3 = (A.gamm2 + 1) * A.alpha * A.c1 / A.t0 ∧ A.c4 = (A.delm2 + 1) * A.alpha * A.c2 / A.t0 ∧ A.c6 = A.c5 * A.delm2 * A.alpha / (A.t0 * A.t0) := by
  unfold refroAtm
  dsimp only
  refine ⟨by ring, by ring, ?_⟩
  split_ifs
  · simp
  · rfl

/-- **C53** (troposphere) Where the temperature is not limited, the third result of the troposphere model used by palRefro is r times the derivative of the refractive
index with respect to r, for optical and radio wavelengths, and hence the Newton iteration of palRefro for n·r = constant uses the true derivative. -/
theorem C53_troposphere_derivative (hmok tdkok pmbok rhok wlok phi alpha r : ℝ) (ht0 : 0 < tdkok)
    (h1 : 100 < tdkok - alpha * (r - (6378120 + hmok))) (h2 : tdkok - alpha * (r - (6378120 + hmok)) < 320) :
    let A := refroAtm hmok tdkok pmbok rhok wlok phi alpha
    ∃ D, HasDerivAt (fun x => (pal1Atmt A x).2.1) D r ∧ (pal1Atmt A r).2.2 = r * D ∧
      HasDerivAt (fun x => x * (pal1Atmt A x).2.1) ((pal1Atmt A r).2.1 + (pal1Atmt A r).2.2) r := by
  obtain ⟨e3, e4, e6⟩ := refroAtm_rel hmok tdkok pmbok rhok wlok phi alpha
  dsimp only
  set A := refroAtm hmok tdkok pmbok rhok wlok phi alpha with hA
  have et0 : A.t0 = tdkok := rfl
  have er0 : A.r0 = 6378120 + hmok := rfl
  have eal : A.alpha = alpha := rfl
  rw [← et0, ← er0, ← eal] at h1 h2
  rw [← et0] at ht0
  -- near r the temperature is linear
  have hev : ∀ᶠ x in nhds r, 100 < A.t0 - A.alpha * (x - A.r0) ∧ A.t0 - A.alpha * (x - A.r0) < 320 := by
    have hc : Continuous fun x => A.t0 - A.alpha * (x - A.r0) := by fun_prop
    exact (hc.continuousAt.eventually (lt_mem_nhds h1)).and (hc.continuousAt.eventually (gt_mem_nhds h2))
  set T : ℝ → ℝ := fun x => A.t0 - A.alpha * (x - A.r0) with hT
  have hTd : HasDerivAt T (-A.alpha) r := by
    have := (((hasDerivAt_id r).sub_const A.r0).const_mul A.alpha).const_sub A.t0
    simpa using this
  have hTpos : 0 < T r := by show 0 < A.t0 - A.alpha * (r - A.r0); linarith
  have hXd : HasDerivAt (fun x => T x / A.t0) (-A.alpha / A.t0) r := hTd.div_const _
  have hXpos : 0 < T r / A.t0 := div_pos hTpos ht0
  have hg : HasDerivAt (fun x => (T x / A.t0) ^ A.gamm2) (-A.alpha / A.t0 * A.gamm2 * (T r / A.t0) ^ (A.gamm2 - 1)) r := hXd.rpow_const (Or.inl hXpos.ne')
  have hd : HasDerivAt (fun x => (T x / A.t0) ^ A.delm2) (-A.alpha / A.t0 * A.delm2 * (T r / A.t0) ^ (A.delm2 - 1)) r := hXd.rpow_const (Or.inl hXpos.ne')
  have h5 : HasDerivAt (fun x => A.c2 - A.c5 / T x) (-(-(A.c5 * -A.alpha) / T r ^ 2)) r := by
    have := ((hasDerivAt_const r A.c5).div hTd hTpos.ne').const_sub A.c2
    exact this.congr_deriv (by ring)
  have hn := (((hg.const_mul A.c1).sub (h5.mul hd)).mul hXd).const_add 1
  have hgm : (T r / A.t0) ^ A.gamm2 = (T r / A.t0) ^ (A.gamm2 - 1) * (T r / A.t0) := by
    rw [← rpow_add_one hXpos.ne', sub_add_cancel]
  have hdm : (T r / A.t0) ^ A.delm2 = (T r / A.t0) ^ (A.delm2 - 1) * (T r / A.t0) := by
    rw [← rpow_add_one hXpos.ne', sub_add_cancel]
  have hval : (pal1Atmt A r).1 = T r := (C53_temperature A r).2.2 h1.le h2.le
  have hfun : (fun x => (pal1Atmt A x).2.1) =ᶠ[nhds r] fun x => 1 + (A.c1 * (T x / A.t0) ^ A.gamm2 - (A.c2 - A.c5 / T x) * (T x / A.t0) ^ A.delm2) * (T x / A.t0) := by
    filter_upwards [hev] with x hx
    have hv : max (min (A.t0 - A.alpha * (x - A.r0)) 320) 100 = T x := (C53_temperature A x).2.2 hx.1.le hx.2.le
    unfold pal1Atmt
    dsimp only
    rw [hv]
  have hv : max (min (A.t0 - A.alpha * (r - A.r0)) 320) 100 = T r := hval
  have hD := hn.congr_of_eventuallyEq hfun
  have hr : (pal1Atmt A r).2.2 = r * (-A.c3 * (T r / A.t0) ^ A.gamm2 + (A.c4 - A.c6 / (T r / A.t0)) * (T r / A.t0) ^ A.delm2) := by
    unfold pal1Atmt
    dsimp only
    rw [hv]
  have hD' : HasDerivAt (fun x => (pal1Atmt A x).2.1) (-A.c3 * (T r / A.t0) ^ A.gamm2 + (A.c4 - A.c6 / (T r / A.t0)) * (T r / A.t0) ^ A.delm2) r := by
    refine hD.congr_deriv ?_
    simp only [Pi.sub_apply, Pi.mul_apply]
    rw [hgm, hdm, e3, e4, e6]
    generalize (T r / A.t0) ^ (A.gamm2 - 1) = P
    generalize (T r / A.t0) ^ (A.delm2 - 1) = Q
    have hT0 : T r ≠ 0 := hTpos.ne'
    have ht0' : A.t0 ≠ 0 := ht0.ne'
    generalize T r = t at *
    field_simp
    ring
  refine ⟨_, hD', hr, ?_⟩
  have := (hasDerivAt_id r).mul hD'
  refine this.congr_deriv ?_
  rw [hr]
  simp

example : (0 : ℝ) < 280 ∧ (100 : ℝ) < 280 - 0.0065 * (6380120 - (6378120 + 0)) ∧ (280 : ℝ) - 0.0065 * (6380120 - (6378120 + 0)) < 320 := by norm_num

/-- **C53** (stratosphere) The second result of the stratosphere model is r times the derivative of the first, for every r; the index decays exponentially and starts
from the value at the tropopause. -/
theorem C53_stratosphere (rt tt dnt gamal r : ℝ) :
    (∃ D, HasDerivAt (fun x => (pal1Atms rt tt dnt gamal x).1) D r ∧ (pal1Atms rt tt dnt gamal r).2 = r * D ∧
      HasDerivAt (fun x => x * (pal1Atms rt tt dnt gamal x).1) ((pal1Atms rt tt dnt gamal r).1 + (pal1Atms rt tt dnt gamal r).2) r) ∧
    (pal1Atms rt tt dnt gamal rt).1 = dnt ∧
    (∀ d, (pal1Atms rt tt dnt gamal (r + d)).1 - 1 = ((pal1Atms rt tt dnt gamal r).1 - 1) * exp (-(gamal / tt) * d)) := by
  unfold pal1Atms
  dsimp only
  have h1 : HasDerivAt (fun x => 1 + (dnt - 1) * exp (-(gamal / tt) * (x - rt))) ((dnt - 1) * (exp (-(gamal / tt) * (r - rt)) * -(gamal / tt))) r := by
    have := ((((hasDerivAt_id r).sub_const rt).const_mul (-(gamal / tt))).exp.const_mul (dnt - 1)).const_add 1
    simpa using this
  refine ⟨⟨_, h1, by ring, ?_⟩, by simp, ?_⟩
  · have := (hasDerivAt_id r).mul h1
    refine this.congr_deriv ?_
    simp
    ring
  · intro d
    rw [show -(gamal / tt) * (r + d - rt) = -(gamal / tt) * (r - rt) + -(gamal / tt) * d by ring, exp_add]
    ring

/-- **C53** (at the observer) At the observer, for ambient temperatures between 100 and 320 K, the troposphere model has the ambient temperature and the refractivity
of the published formulae: (a·p − 11.2684e-6·e)/T in the optical, 77.689e-6·p/T − 6.3938e-6·e/T + 0.375463·e/T² for radio, e being the water vapour pressure. -/
theorem C53_observer (hmok tdkok pmbok rhok wlok phi alpha : ℝ) (h1 : 100 ≤ tdkok) (h2 : tdkok ≤ 320) :
    let A := refroAtm hmok tdkok pmbok rhok wlok phi alpha
    let e := refroPwo tdkok pmbok rhok
    (pal1Atmt A (6378120 + hmok)).1 = tdkok ∧
    (wlok < 100 → (pal1Atmt A (6378120 + hmok)).2.1 - 1 = (refroA wlok * pmbok - 11.2684e-6 * e) / tdkok) ∧
    (¬ wlok < 100 → (pal1Atmt A (6378120 + hmok)).2.1 - 1 = 77.6890e-6 * pmbok / tdkok - 6.3938e-6 * e / tdkok + 0.375463 * e / tdkok ^ 2) := by
  dsimp only
  have ht : tdkok ≠ 0 := by linarith
  have hT := (C53_temperature (refroAtm hmok tdkok pmbok rhok wlok phi alpha) (6378120 + hmok)).2.2
  have er0 : (refroAtm hmok tdkok pmbok rhok wlok phi alpha).r0 = 6378120 + hmok := rfl
  have et0 : (refroAtm hmok tdkok pmbok rhok wlok phi alpha).t0 = tdkok := rfl
  rw [er0, et0, sub_self, mul_zero, sub_zero] at hT
  have hT' := hT h1 h2
  have hdn : (pal1Atmt (refroAtm hmok tdkok pmbok rhok wlok phi alpha) (6378120 + hmok)).2.1 - 1 =
      (refroAtm hmok tdkok pmbok rhok wlok phi alpha).c1 - ((refroAtm hmok tdkok pmbok rhok wlok phi alpha).c2 - (refroAtm hmok tdkok pmbok rhok wlok phi alpha).c5 / tdkok) := by
    unfold pal1Atmt at hT' ⊢
    dsimp only at hT' ⊢
    rw [hT', et0, div_self ht, one_rpow, one_rpow]
    ring
  refine ⟨hT', fun hw => ?_, fun hw => ?_⟩
  · rw [hdn]
    unfold refroAtm
    simp only [if_pos hw]
    ring
  · rw [hdn]
    have ha : refroA wlok = 77.6890e-6 := by unfold refroA; simp only [if_neg hw]
    unfold refroAtm
    simp only [if_neg hw, ha]
    field_simp
    ring

example : (100 : ℝ) ≤ 285 ∧ (285 : ℝ) ≤ 320 := by norm_num

/-- **C53** (limit of validity) For an ambient temperature above 320 K, which palRefro accepts up to 500 K, the model atmosphere does not have the ambient temperature
at the observer. -/
theorem C53_hot_observer (hmok tdkok pmbok rhok wlok phi alpha : ℝ) (h : 320 < tdkok) :
    (pal1Atmt (refroAtm hmok tdkok pmbok rhok wlok phi alpha) (6378120 + hmok)).1 = 320 := by
  unfold pal1Atmt
  have er0 : (refroAtm hmok tdkok pmbok rhok wlok phi alpha).r0 = 6378120 + hmok := rfl
  have et0 : (refroAtm hmok tdkok pmbok rhok wlok phi alpha).t0 = tdkok := rfl
  dsimp only
  rw [er0, et0, sub_self, mul_zero, sub_zero, min_eq_right h.le]
  norm_num

/-- **C53** (dry air) For dry air the refractive index is at least 1 everywhere in the troposphere model and in the stratosphere above it. -/
theorem C53_index_ge_one (hmok tdkok pmbok wlok phi alpha gamal rt r r' : ℝ) (h1 : 0 < tdkok) (hp : 0 ≤ pmbok) (hw : 0 < wlok) :
    1 ≤ (pal1Atmt (refroAtm hmok tdkok pmbok 0 wlok phi alpha) r).2.1 ∧
      1 ≤ (pal1Atms rt (pal1Atmt (refroAtm hmok tdkok pmbok 0 wlok phi alpha) rt).1 (pal1Atmt (refroAtm hmok tdkok pmbok 0 wlok phi alpha) rt).2.1 gamal r').1 := by
  have hpw : refroPwo tdkok pmbok 0 = 0 := by unfold refroPwo; split_ifs <;> simp
  have ha : 0 ≤ refroA wlok := by unfold refroA; dsimp only; split_ifs <;> positivity
  have key : ∀ r, 1 ≤ (pal1Atmt (refroAtm hmok tdkok pmbok 0 wlok phi alpha) r).2.1 := by
    intro r
    unfold pal1Atmt refroAtm
    dsimp only
    have ht : 0 < max (min (tdkok - alpha * (r - (6378120 + hmok))) 320) 100 := lt_max_of_lt_right (by norm_num)
    rw [hpw]
    simp only [zero_mul, zero_div, add_zero, mul_zero, ite_self, sub_zero]
    have h0 : 0 ≤ refroA wlok * pmbok / tdkok := by positivity
    have h2 : 0 ≤ (max (min (tdkok - alpha * (r - (6378120 + hmok))) 320) 100 / tdkok) ^ (refroGamal hmok phi / alpha - 2) := rpow_nonneg (by positivity) _
    have h3 : 0 ≤ max (min (tdkok - alpha * (r - (6378120 + hmok))) 320) 100 / tdkok := by positivity
    have := mul_nonneg (mul_nonneg h0 h2) h3
    linarith
  refine ⟨key r, ?_⟩
  have := key rt
  unfold pal1Atms
  dsimp only
  have h2 := exp_pos (-(gamal / (pal1Atmt (refroAtm hmok tdkok pmbok 0 wlok phi alpha) rt).1) * (r' - rt))
  nlinarith

theorem mul_div_pos_aux {n r s : ℝ} (h : 0 < r * n) : n * r * (s / (r * n)) = s := by
  have hr : r ≠ 0 := left_ne_zero_of_mul h.ne'
  have hn : n ≠ 0 := right_ne_zero_of_mul h.ne'
  field_simp

/-- **C53** (the ray) The zenith distances between which palRefro integrates belong to one ray: n·r·sin z has the observer's value at the tropopause, below and above
it, and at the upper limit, whenever the ray reaches those levels. The index is continuous at the tropopause. -/
theorem C53_ray (A : AtmT) (gamal hmok zobs2 : ℝ) :
    let q := refroRay A gamal hmok zobs2
    let rs : ℝ := 6458120
    let nt := (pal1Atmt A q.rt).2.1
    let ns := (pal1Atms q.rt (pal1Atmt A q.rt).1 nt gamal rs).1
    q.sk0 = (pal1Atmt A A.r0).2.1 * A.r0 * sin zobs2 ∧ q.rt = 6378120 + max 11000 hmok ∧ q.zts = q.zt ∧
    (0 < q.rt * nt → |q.sk0| ≤ q.rt * nt → nt * q.rt * sin q.zt = q.sk0 ∧ |q.zt| ≤ π / 2) ∧
    (0 < rs * ns → |q.sk0| ≤ rs * ns → ns * rs * sin q.zs = q.sk0 ∧ |q.zs| ≤ π / 2) := by
  dsimp only
  have hz : ∀ s, |s| ≤ 1 → sin (refroZd s) = s ∧ |refroZd s| ≤ π / 2 := by
    intro s hs
    have h1 : 0 ≤ 1 - s * s := by have := abs_le.1 hs; nlinarith
    unfold refroZd
    rw [max_eq_left h1]
    refine ⟨?_, abs_atan2_le (Real.sqrt_nonneg _)⟩
    have := hyp_sin_atan2 s (√(1 - s * s))
    rwa [Real.mul_self_sqrt h1, show 1 - s * s + s * s = 1 by ring, Real.sqrt_one, one_mul] at this
  have hdiv : ∀ s R : ℝ, 0 < R → |s| ≤ R → |s / R| ≤ 1 := by
    intro s R hR h
    rw [abs_div, abs_of_pos hR]
    exact (div_le_one hR).2 h
  refine ⟨rfl, rfl, ?_, fun hp h => ?_, fun hp h => ?_⟩
  · show refroZd _ = refroZd _
    rw [(C53_stratosphere _ _ _ _ 0).2.1]
  · obtain ⟨h1, h2⟩ := hz _ (hdiv _ _ hp h)
    refine ⟨?_, h2⟩
    have e : sin (refroRay A gamal hmok zobs2).zt = (refroRay A gamal hmok zobs2).sk0 / ((refroRay A gamal hmok zobs2).rt * (pal1Atmt A (refroRay A gamal hmok zobs2).rt).2.1) := h1
    rw [e]
    exact mul_div_pos_aux hp
  · have e0 : (6458120 : ℝ) = 6378120 + 80000 := by norm_num
    rw [e0] at hp h ⊢
    obtain ⟨h1, h2⟩ := hz _ (hdiv _ _ hp h)
    refine ⟨?_, h2⟩
    have e : sin (refroRay A gamal hmok zobs2).zs = (refroRay A gamal hmok zobs2).sk0 / ((6378120 + 80000) *
      (pal1Atms (refroRay A gamal hmok zobs2).rt (pal1Atmt A (refroRay A gamal hmok zobs2).rt).1 (pal1Atmt A (refroRay A gamal hmok zobs2).rt).2.1 gamal (6378120 + 80000)).1) := h1
    rw [e]
    exact mul_div_pos_aux hp

/-- **C53** (points of the quadrature) A point that already satisfies the ray equation n·r·sin z = sk0 is kept, and the integrand is the one at that point. -/
theorem C53_node (atm : ℝ → ℝ × ℝ) (sk0 z r : ℝ) (h : (atm r).1 * r * sin z = sk0) :
    refroNode atm sk0 z r = (r, (atm r).2 / ((atm r).1 + (atm r).2)) := by
  unfold refroNode
  dsimp only
  have hr : (if sin z > 1e-20 then refroNewton atm (sk0 / sin z) 4 r 1e6 else r) = r := by
    split_ifs with hs
    · have hs0 : sin z ≠ 0 := by intro h0; rw [h0] at hs; norm_num at hs
      have hw : sk0 / sin z = (atm r).1 * r := by rw [← h]; field_simp
      have hstep : ∀ k dr, refroNewton atm (sk0 / sin z) k r dr = r := by
        intro k
        induction k with
        | zero => intro dr; rfl
        | succ k ih =>
          intro dr
          unfold refroNewton
          dsimp only
          rw [hw, mul_comm r, sub_self, zero_div, sub_zero, ← hw, ih, ite_self]
      exact hstep 4 1e6
    · rfl
  rw [hr]
  rfl

/-- **C53** (points of the quadrature) In an atmosphere of constant index the search for the distance is exact from any starting point. -/
theorem C53_node_constant_index (n sk0 z r : ℝ) (hn : n ≠ 0) (hz : 1e-20 < sin z) :
    n * (refroNode (fun _ => (n, 0)) sk0 z r).1 * sin z = sk0 := by
  have hs0 : sin z ≠ 0 := by intro h0; rw [h0] at hz; norm_num at hz
  unfold refroNode
  dsimp only
  rw [if_pos hz]
  have hfix : ∀ k dr, refroNewton (fun _ => (n, 0)) (sk0 / sin z) k (sk0 / sin z / n) dr = sk0 / sin z / n := by
    intro k
    induction k with
    | zero => intro dr; rfl
    | succ k ih =>
      intro dr
      unfold refroNewton
      dsimp only
      rw [div_mul_cancel₀ _ hn, sub_self, zero_div, sub_zero, ih, ite_self]
  have h1 : refroNewton (fun _ => (n, 0)) (sk0 / sin z) 4 r 1e6 = sk0 / sin z / n := by
    rw [show (4 : ℕ) = 3 + 1 from rfl]
    unfold refroNewton
    dsimp only
    rw [if_pos (by norm_num), add_zero, show r - (r * n - sk0 / sin z) / n = sk0 / sin z / n by field_simp; ring, hfix]
  rw [h1]
  field_simp

end Pal.Props
