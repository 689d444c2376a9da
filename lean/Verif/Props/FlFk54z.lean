import Verif.Props.FlFk524

/-!
# palFk54z in double precision, and the round trip with palFk45z
-/

namespace Pal.Props
open Real Pal.Spec

variable {fl : ℝ → ℝ} {L : Libm}

theorem dist_sq (a b a' b' : ℝ) : len (fun i => dir a b i - dir a' b' i) ^ 2 = 2 * (1 - cos (b - b')) + 2 * (cos b * cos b') * (1 - cos (a - a')) := by
  rw [sq, len_sq, dot_eq]
  simp only [dir, Matrix.cons_val_zero, Matrix.cons_val_one, Matrix.cons_val]
  rw [cos_sub, cos_sub]
  have := sin_sq_add_cos_sq a; have := sin_sq_add_cos_sq b; have := sin_sq_add_cos_sq a'; have := sin_sq_add_cos_sq b'
  grind

/-- The cosine of a latitude a little over the pole. -/
theorem cos_lat {d : ℝ} (h : |d| ≤ π / 2 + 4.5e-16) : -4.5e-16 ≤ cos d := by
  by_cases h1 : |d| ≤ π / 2
  · have := cos_nonneg_of_mem_Icc (abs_le.1 h1 : d ∈ Set.Icc (-(π / 2)) (π / 2))
    linarith
  · have h2 := not_le.1 h1
    have e : cos d = -sin (|d| - π / 2) := by rw [sin_sub_pi_div_two, neg_neg, cos_abs]
    have := sin_le (by linarith : 0 ≤ |d| - π / 2)
    rw [e]
    linarith

theorem cos_shift (d P : ℝ) : |cos (d + P) - cos d| ≤ |P| := by
  have := Pal.abs_cos_sub_le (d + P) d
  rwa [add_sub_cancel_left] at this

/-- Moving two nearby places by the same small angles keeps them near each other. -/
theorem dist_shift {r d r' d' T P δ : ℝ} (h : len (fun i => dir r d i - dir r' d' i) ≤ δ) (hδ : δ ≤ 1e-12) (hd : |d| ≤ π / 2 + 4.5e-16) (hc : 0.05 ≤ cos d') (hP : |P| ≤ 6.5e-5) :
    len (fun i => dir (r + T) (d + P) i - dir (r' + T) (d' + P) i) ≤ 1.0014 * δ := by
  have d0 := (len_nonneg _).trans h
  have hs : |sin d - sin d'| ≤ 1e-12 := by
    have := comp_le_len (fun i => dir r d i - dir r' d' i) 2
    have e : dir r d 2 - dir r' d' 2 = sin d - sin d' := rfl
    rw [e] at this
    exact this.trans (h.trans hδ)
  have c0 := cos_lat hd
  have t1 := sin_sq_add_cos_sq d
  have t2 := sin_sq_add_cos_sq d'
  have hc1 : 0.0499 ≤ cos d := by
    by_contra hn
    have hn := not_le.1 hn
    have q : cos d ^ 2 ≤ 0.0499 ^ 2 := by rw [sq_le_sq, abs_of_pos (by norm_num : (0 : ℝ) < 0.0499), abs_le]; constructor <;> norm_num at * <;> linarith
    have q2 : (0.05 : ℝ) ^ 2 ≤ cos d' ^ 2 := pow_le_pow_left₀ (by norm_num) hc 2
    have q3 : |sin d ^ 2 - sin d' ^ 2| ≤ 1e-12 * 2 := by
      rw [show sin d ^ 2 - sin d' ^ 2 = (sin d - sin d') * (sin d + sin d') by ring]
      exact mul_bd hs ((abs_add_le _ _).trans (by linarith [abs_sin_le_one d, abs_sin_le_one d']))
    have q4 := abs_le.1 q3
    norm_num at q q2 q4
    linarith
  have s1 := abs_le.1 (cos_shift d P)
  have s2 := abs_le.1 (cos_shift d' P)
  have u1 : cos (d + P) ≤ 1.00131 * cos d := by norm_num at *; linarith
  have u2 : cos (d' + P) ≤ 1.0013 * cos d' := by norm_num at *; linarith
  have v1 : 0 ≤ cos (d + P) := by norm_num at *; linarith
  have v2 : 0 ≤ cos (d' + P) := by norm_num at *; linarith
  have w : cos (d + P) * cos (d' + P) ≤ (1.00131 * cos d) * (1.0013 * cos d') := mul_le_mul u1 u2 v2 (by linarith)
  have n1 := cos_le_one (d - d')
  have n2 := cos_le_one (r - r')
  refine le_of_sq_le_sq' ?_ (by positivity)
  rw [dist_sq, show d + P - (d' + P) = d - d' by ring, show r + T - (r' + T) = r - r' by ring]
  have k := pow_le_pow_left₀ (len_nonneg _) h 2
  rw [dist_sq] at k
  have m := mul_le_mul_of_nonneg_right w (by linarith : 0 ≤ 1 - cos (r - r'))
  have m0 : 0 ≤ cos d * cos d' * (1 - cos (r - r')) := mul_nonneg (mul_nonneg (by linarith) (by linarith)) (by linarith)
  rw [mul_pow]
  generalize δ ^ 2 = E at *
  have e1 : 1.00131 * cos d * (1.0013 * cos d') * (1 - cos (r - r')) = 1.00131 * 1.0013 * (cos d * cos d' * (1 - cos (r - r'))) := by ring
  rw [e1] at m
  have e2 : 2 * (cos d * cos d') * (1 - cos (r - r')) = 2 * (cos d * cos d' * (1 - cos (r - r'))) := by ring
  rw [e2] at k
  rw [mul_assoc 2]
  generalize cos d * cos d' * (1 - cos (r - r')) = F at *
  generalize cos (d + P) * cos (d' + P) * (1 - cos (r - r')) = G at *
  norm_num at *
  linarith

/-- The proper motions of palFk54z in exact arithmetic. -/
theorem fk54_pm (r d : ℝ) (s : Star) (hs : s = { r := r, d := d, dr := 0, dd := 0, px := 0, rv := 0 }) (hc : 0.05 ≤ cos (palFk524 s).d) :
    |(palFk524 s).dr| ≤ 1.29e-6 ∧ |(palFk524 s).dd| ≤ 6.41e-8 := by
  obtain ⟨-, m2, -⟩ := fk54_motion r d s hs hc
  obtain ⟨W, hWe⟩ : ∃ W : Vec3, W = fun i => (palFk524 s).dr * palPMF * cos (palFk524 s).d * eastAt (palFk524 s).r i + (palFk524 s).dd * palPMF * northAt (palFk524 s).r (palFk524 s).d i := ⟨_, rfl⟩
  have hpmf := pmf_pos
  have hWl : len W ≤ 1.32 := by rw [hWe]; exact m2
  have hWsq : dot W W = ((palFk524 s).dr * palPMF * cos (palFk524 s).d) ^ 2 + ((palFk524 s).dd * palPMF) ^ 2 := by
    rw [hWe, dot_eq]
    simp [eastAt, northAt]
    have k1 := sin_sq_add_cos_sq (palFk524 s).r
    have k2 := sin_sq_add_cos_sq (palFk524 s).d
    generalize sin (palFk524 s).r = s1 at *
    generalize cos (palFk524 s).r = c1 at *
    generalize sin (palFk524 s).d = s2 at *
    generalize cos (palFk524 s).d = c2 at *
    generalize (palFk524 s).dr * palPMF = A at *
    generalize (palFk524 s).dd * palPMF = B at *
    linear_combination (A ^ 2 * c2 ^ 2 + B ^ 2 * s2 ^ 2) * k1 + B ^ 2 * k2
  have hWW : dot W W ≤ 1.32 ^ 2 := by rw [← len_sq, ← sq]; exact pow_le_pow_left₀ (len_nonneg _) hWl 2
  have hur : |(palFk524 s).dr * palPMF * cos (palFk524 s).d| ≤ 1.32 := abs_le_of_sq_le_sq (by rw [hWsq] at hWW; nlinarith [sq_nonneg ((palFk524 s).dd * palPMF)]) (by norm_num)
  have hud : |(palFk524 s).dd * palPMF| ≤ 1.32 := abs_le_of_sq_le_sq (by rw [hWsq] at hWW; nlinarith [sq_nonneg ((palFk524 s).dr * palPMF * cos (palFk524 s).d)]) (by norm_num)
  have p2 : (2.06e7 : ℝ) ≤ palPMF := by norm_num at hpmf ⊢; linarith
  rw [abs_mul, abs_mul, abs_of_pos (by linarith : 0 < palPMF), abs_of_nonneg (by linarith : 0 ≤ cos (palFk524 s).d)] at hur
  rw [abs_mul, abs_of_pos (by linarith : 0 < palPMF)] at hud
  have a0 := abs_nonneg (palFk524 s).dr
  have b0 := abs_nonneg (palFk524 s).dd
  generalize |(palFk524 s).dr| = A at *
  generalize |(palFk524 s).dd| = B at *
  have h1 : A * 2.06e7 * 0.05 ≤ A * palPMF * cos (palFk524 s).d := mul_le_mul (mul_le_mul_of_nonneg_left p2 a0) hc (by norm_num) (by positivity)
  have h2 := mul_le_mul_of_nonneg_left p2 b0
  constructor
  · norm_num at *; linarith
  · norm_num at *; linarith

theorem fk54z_1950 (r d : ℝ) : (palFk54z r d 1950).1 = ((palFk524 { r := r, d := d, dr := 0, dd := 0, px := 0, rv := 0 }).r, (palFk524 { r := r, d := d, dr := 0, dd := 0, px := 0, rv := 0 }).d) := by
  unfold palFk54z; simp

/-- C136: palFk54z in double precision for Besselian epoch 1950 gives the direction of exact arithmetic to 1e-14 radians, for every position on the sky. -/
theorem C136_fk54z_1950 (R : Rounding fl) (hL : LibmOK L) (nz : Bool) (r d : ℝ) :
    let o := flFk54z fl L nz r d 1950
    let x := palFk54z r d 1950
    len (fun i => dir o.1.1 o.1.2 i - dir x.1.1 x.1.2 i) ≤ 1e-14 := by
  intro o x
  obtain ⟨s, hs⟩ : ∃ s : Star, s = { r := r, d := d, dr := 0, dd := 0, px := 0, rv := 0 } := ⟨_, rfl⟩
  obtain ⟨h1, h2, h3, h4⟩ := C136_fk524_place R hL nz s (by rw [hs]; norm_num) (by rw [hs]; norm_num) (by rw [hs]; norm_num)
  have o1 : o.1 = (fl (flFk524 fl L nz s).r, fl (flFk524 fl L nz s).d) := by
    show (flFk54z fl L nz r d 1950).1 = _
    unfold flFk54z
    dsimp only
    rw [sub_self, R.zero, mul_zero, mul_zero, R.zero, add_zero, add_zero, hs]
  have x1 : x.1 = ((palFk524 s).r, (palFk524 s).d) := by rw [hs]; exact fk54z_1950 r d
  rw [o1, x1]
  have p := pi_lt_d4
  have tp : flD2PI fl ≤ 6.3 := by rw [flD2PI_eq R]; norm_num [D2]
  have e1 : |fl (flFk524 fl L nz s).r - (flFk524 fl L nz s).r| ≤ 7.1e-16 := (R.cst _ (M := 6.3) (by rw [abs_of_nonneg h1]; norm_num at h2 tp ⊢; linarith) (by norm_num) (by norm_num)).trans (by norm_num)
  have e2 : |fl (flFk524 fl L nz s).d - (flFk524 fl L nz s).d| ≤ 1.8e-16 := (R.cst _ (M := 1.6) (h3.trans (by norm_num at p ⊢; linarith)) (by norm_num) (by norm_num)).trans (by norm_num)
  refine (len_tri _ (dir (flFk524 fl L nz s).r (flFk524 fl L nz s).d) _).trans ((add_le_add (chord _ _ _ _) h4).trans ?_)
  norm_num at *
  linarith

/-- C136: palFk54z in double precision for any Besselian epoch within 1000 years of 1950 gives the direction of exact arithmetic to 1.01e-14 radians and the proper motions to 9.6e-22 / cos² δ and 3.5e-21 / cos δ radians per year, for every position more than
2.9 degrees from the poles. -/
theorem C136_fk54z (R : Rounding fl) (hL : LibmOK L) (nz : Bool) (r d b : ℝ) (hb : |b - 1950| ≤ 1000) (hc : 0.05 ≤ cos (palFk54z r d 1950).1.2) :
    let o := flFk54z fl L nz r d b
    let x := palFk54z r d b
    len (fun i => dir o.1.1 o.1.2 i - dir x.1.1 x.1.2 i) ≤ 1.01e-14 ∧
      |o.2.1 - x.2.1| * cos (palFk54z r d 1950).1.2 ^ 2 ≤ 9.6e-22 ∧ |o.2.2 - x.2.2| * cos (palFk54z r d 1950).1.2 ≤ 3.5e-21 := by
  intro o x
  obtain ⟨s, hs⟩ : ∃ s : Star, s = { r := r, d := d, dr := 0, dd := 0, px := 0, rv := 0 } := ⟨_, rfl⟩
  have sd : (palFk54z r d 1950).1.2 = (palFk524 s).d := by rw [hs, fk54z_1950]
  rw [sd] at hc ⊢
  obtain ⟨h1, h2, h3, h4⟩ := C136_fk524_place R hL nz s (by rw [hs]; norm_num) (by rw [hs]; norm_num) (by rw [hs]; norm_num)
  obtain ⟨m1, m2⟩ := C136_fk524_motions R hL nz s (K := 0) (by rw [hs]; norm_num) (by norm_num) (by rw [hs]; norm_num) (by rw [hs]; norm_num) (le_trans (by norm_num) hc)
  obtain ⟨b1, b2⟩ := fk54_pm r d s hs hc
  have eo : o = ((fl ((flFk524 fl L nz s).r + fl ((flFk524 fl L nz s).dr * fl (b - 1950))), fl ((flFk524 fl L nz s).d + fl ((flFk524 fl L nz s).dd * fl (b - 1950)))), ((flFk524 fl L nz s).dr, (flFk524 fl L nz s).dd)) := by
    rw [hs]; rfl
  have ex : x = (((palFk524 s).r + (palFk524 s).dr * (b - 1950), (palFk524 s).d + (palFk524 s).dd * (b - 1950)), ((palFk524 s).dr, (palFk524 s).dd)) := by
    rw [hs]; rfl
  rw [eo, ex]
  dsimp only
  rw [mul_zero, add_zero] at m1 m2
  refine ⟨?_, m1, m2⟩
  have c0 : 0 < cos (palFk524 s).d := by linarith
  have n1 : |(flFk524 fl L nz s).dr - (palFk524 s).dr| ≤ 3.85e-19 := by
    have c2 : (0.05 : ℝ) ^ 2 ≤ cos (palFk524 s).d ^ 2 := pow_le_pow_left₀ (by norm_num) hc 2
    have := (mul_le_mul_of_nonneg_left c2 (abs_nonneg ((flFk524 fl L nz s).dr - (palFk524 s).dr))).trans m1
    generalize |(flFk524 fl L nz s).dr - (palFk524 s).dr| = Q at *
    norm_num at this ⊢
    linarith
  have n2 : |(flFk524 fl L nz s).dd - (palFk524 s).dd| ≤ 7.1e-20 := by
    have := (mul_le_mul_of_nonneg_left hc (abs_nonneg ((flFk524 fl L nz s).dd - (palFk524 s).dd))).trans m2
    generalize |(flFk524 fl L nz s).dd - (palFk524 s).dd| = Q at *
    norm_num at this ⊢
    linarith
  have y0 : |fl (b - 1950) - (b - 1950)| ≤ 1.12e-13 := R.add_err2 (δ := 0) (B := 1000) _ (by rw [sub_self, abs_zero]) hb (by norm_num) (by norm_num)
  have p1 := R.mulB 3.86e-16 n1 y0 b1 hb (by norm_num) (by norm_num)
  have p2 := R.mulB 7.2e-17 n2 y0 b2 hb (by norm_num) (by norm_num)
  have p := pi_lt_d4
  have tp : flD2PI fl ≤ 6.3 := by rw [flD2PI_eq R]; norm_num [D2]
  have q1 := (R.addB 1.1e-15 (noerr (flFk524 fl L nz s).r) p1 (by rw [abs_of_nonneg h1]; exact h2.trans tp : |(flFk524 fl L nz s).r| ≤ 6.3) (mul_bd b1 hb) (by norm_num) (by norm_num)).1
  have q2 := (R.addB 2.6e-16 (noerr (flFk524 fl L nz s).d) p2 (h3.trans (by norm_num at p ⊢; linarith) : |(flFk524 fl L nz s).d| ≤ 1.6) (mul_bd b2 hb) (by norm_num) (by norm_num)).1
  have sh := dist_shift (T := (palFk524 s).dr * (b - 1950)) (P := (palFk524 s).dd * (b - 1950)) h4 (by norm_num) h3 hc ((mul_bd b2 hb).trans (by norm_num))
  refine (len_tri _ (dir ((flFk524 fl L nz s).r + (palFk524 s).dr * (b - 1950)) ((flFk524 fl L nz s).d + (palFk524 s).dd * (b - 1950))) _).trans ((add_le_add ((chord _ _ _ _).trans (add_le_add q1 q2)) sh).trans ?_)
  norm_num

/-- C136: in double precision, converting a fixed FK5 place to FK4 with palFk54z and back with palFk45z returns the place to 5.001e-9 radians (0.0011 arcsec): at epoch 1950 for every position on the sky. -/
theorem C136_roundtrip_1950 (R : Rounding fl) (hL : LibmOK L) (nz nz' : Bool) (r d : ℝ) :
    let a := flFk54z fl L nz r d 1950
    let b := flFk45z fl L nz' a.1.1 a.1.2 1950
    len (fun i => dir b.1 b.2 i - dir r d i) ≤ 5.001e-9 := by
  intro a b
  have h := C136_fk54z_1950 R hL nz r d
  obtain ⟨-, -, -, k⟩ := fk45z_ref R hL nz' (b := 1950) (by norm_num) h (by norm_num)
  refine (len_tri (dir b.1 b.2) _ _).trans ((add_le_add k (C49_roundtrip r d)).trans (by norm_num))

/-- C136: the same for any Besselian epoch from 1875 to 2025 and every position more than 2.9 degrees from the poles. -/
theorem C136_roundtrip (R : Rounding fl) (hL : LibmOK L) (nz nz' : Bool) (r d e : ℝ) (he : |e - 1950| ≤ 75) (hc : 0.05 ≤ cos (palFk54z r d 1950).1.2) :
    let a := flFk54z fl L nz r d e
    let b := flFk45z fl L nz' a.1.1 a.1.2 e
    len (fun i => dir b.1 b.2 i - dir r d i) ≤ 5.001e-9 := by
  intro a b
  obtain ⟨h, -, -⟩ := C136_fk54z R hL nz r d e (he.trans (by norm_num)) hc
  obtain ⟨-, -, -, k⟩ := fk45z_ref R hL nz' (b := e) (he.trans (by norm_num)) h (by norm_num)
  refine (len_tri (dir b.1 b.2) _ _).trans ((add_le_add k (C49_epoch_roundtrip r d e he hc)).trans (by norm_num))

/-- The north pole at 1950 and the vernal equinox at 1983.5, with IEEE rounding. -/
example : (let a := flFk54z ieee roundedLibm false 0 (π / 2) 1950; let b := flFk45z ieee roundedLibm false a.1.1 a.1.2 1950; len (fun i => dir b.1 b.2 i - dir 0 (π / 2) i) ≤ 5.001e-9) ∧
    (let a := flFk54z ieee roundedLibm false 0 0 1983.5; let b := flFk45z ieee roundedLibm false a.1.1 a.1.2 1983.5; len (fun i => dir b.1 b.2 i - dir 0 0 i) ≤ 5.001e-9) :=
  ⟨C136_roundtrip_1950 ieee_rounding roundedLibm_ok false false 0 (π / 2), C136_roundtrip ieee_rounding roundedLibm_ok false false 0 0 1983.5 (by rw [abs_le]; constructor <;> norm_num) equator_star⟩

end Pal.Props
