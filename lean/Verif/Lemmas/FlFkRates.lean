import Verif.Lemmas.FlFk524

/-! Rounding errors of the proper motions, the parallax and the radial velocity of palFk524. -/

namespace Pal
open Real Pal.Spec

variable {fl : ℝ → ℝ}

/-- Sizes of the quantities in the last part of palFk524: a position of length about one at a distance `ρ` from the axis and a velocity of at most `1.32 + 1.03 K`. -/
structure FkIn (x y z xd yd zd X Y Z XD YD ZD K ρ : ℝ) : Prop where
  hx : |x - X| ≤ 1.57e-15
  hy : |y - Y| ≤ 1.57e-15
  hz : |z - Z| ≤ 1.57e-15
  hxd : |xd - XD| ≤ 2.2e-15 + 2.2e-15 * K
  hyd : |yd - YD| ≤ 2.2e-15 + 2.2e-15 * K
  hzd : |zd - ZD| ≤ 2.2e-15 + 2.2e-15 * K
  bx : |X| ≤ 1.0099
  bY : |Y| ≤ 1.0099
  bz : |Z| ≤ 1.0099
  bxd : |XD| ≤ 1.32 + 1.03 * K
  byd : |YD| ≤ 1.32 + 1.03 * K
  bzd : |ZD| ≤ 1.32 + 1.03 * K
  k0 : 0 ≤ K
  k1 : K ≤ 3900
  sq : X * X + Y * Y = ρ * ρ
  r0 : 0.0009 ≤ ρ
  r1 : ρ ≤ 1.0099
  s0 : 0.98 ≤ ρ * ρ + Z * Z
  s1 : ρ * ρ + Z * Z ≤ 1.02

namespace FkIn
variable {x y z xd yd zd X Y Z XD YD ZD K ρ : ℝ}

theorem sum_le (h : FkIn x y z xd yd zd X Y Z XD YD ZD K ρ) : |X| + |Y| ≤ 1.41422 * ρ := by
  have := sq_abs X
  have := sq_abs Y
  have := h.sq
  have := h.r0
  refine le_of_sq_le_sq' ?_ (by norm_num at *; linarith)
  nlinarith [sq_nonneg (|X| - |Y|), mul_self_nonneg ρ]

/-- The square of the distance from the axis. -/
theorem rxysq (R : Rounding fl) (h : FkIn x y z xd yd zd X Y Z XD YD ZD K ρ) : |fl (fl (x * x) + fl (y * y)) - ρ * ρ| ≤ 4.7e-15 * ρ := by
  have c : ∀ {u U : ℝ}, |u - U| ≤ 1.57e-15 → |U| ≤ 1.0099 → |u| ≤ 10 ^ 14 ∧ |u * u - U * U| ≤ 1.57e-15 * (2 * |U| + 1.57e-15) := fun {u U} a b => by
    have t := small_of_err a b
    have t' := small_of_err a le_rfl
    refine ⟨t.trans (by norm_num), ?_⟩
    rw [show u * u - U * U = (u - U) * (u + U) by ring, abs_mul]
    refine mul_le_mul a ?_ (abs_nonneg _) (by norm_num)
    have := abs_add_le u U
    linarith
  obtain ⟨a1, a2⟩ := c h.hx h.bx
  obtain ⟨b1, b2⟩ := c h.hy h.bY
  have f := fl_sumsq R x y a1 b1
  have s := h.sum_le
  have e := h.sq
  have r0 := h.r0
  have r1 := h.r1
  have d : |x * x + y * y - ρ * ρ| ≤ 4.4416e-15 * ρ := by
    rw [← e, show x * x + y * y - (X * X + Y * Y) = (x * x - X * X) + (y * y - Y * Y) by ring]
    refine (abs_add_le _ _).trans ((add_le_add a2 b2).trans ?_)
    norm_num at s r0 ⊢
    linarith
  have rr : ρ * ρ ≤ 1.0099 * ρ := mul_le_mul_of_nonneg_right r1 (by linarith)
  have d' := abs_le.1 d
  have t := abs_sub_le (fl (fl (x * x) + fl (y * y))) (x * x + y * y) (ρ * ρ)
  generalize fl (fl (x * x) + fl (y * y)) = q at *
  generalize x * x + y * y = w at *
  generalize |q - ρ * ρ| = A at *
  generalize |q - w| = B at *
  norm_num at t d d' f r0 rr ⊢
  linarith

theorem near_sq (R : Rounding fl) (h : FkIn x y z xd yd zd X Y Z XD YD ZD K ρ) : Near (4.7e-15 / ρ) (fl (fl (x * x) + fl (y * y))) (ρ * ρ) := by
  have r0 : 0 < ρ := lt_of_lt_of_le (by norm_num) h.r0
  refine ⟨by positivity, by positivity, ?_, ?_⟩
  · rw [div_le_iff₀ r0]; have := h.r0; norm_num at this ⊢; linarith
  · refine (h.rxysq R).trans (le_of_eq ?_)
    field_simp

/-- The product of a coordinate and a velocity. -/
theorem prod (R : Rounding fl) (k0 : 0 ≤ K) (k1 : K ≤ 3900) {u U w W : ℝ} (hu : |u - U| ≤ 1.57e-15) (hw : |w - W| ≤ 2.2e-15 + 2.2e-15 * K) (bu : |U| ≤ 1.0099) (bw : |W| ≤ 1.32 + 1.03 * K) :
    |fl (u * w) - U * W| ≤ 4.45e-15 + 3.96e-15 * K ∧ |U * W| ≤ 1.0099 * (1.32 + 1.03 * K) :=
  ⟨R.mulB _ hu hw bu bw (by norm_num at k1 ⊢; linarith) (by norm_num at k1 ⊢; linarith), mul_bd bu bw⟩

theorem cross (R : Rounding fl) (h : FkIn x y z xd yd zd X Y Z XD YD ZD K ρ) : |fl (fl (x * yd) - fl (y * xd)) - (X * YD - Y * XD)| ≤ 9.2e-15 + 8.16e-15 * K ∧ |X * YD - Y * XD| ≤ 1.41422 * ρ * (1.32 + 1.03 * K) := by
  obtain ⟨a, ab⟩ := prod R h.k0 h.k1 h.hx h.hyd h.bx h.byd
  obtain ⟨b, bb⟩ := prod R h.k0 h.k1 h.hy h.hxd h.bY h.bxd
  have k0 := h.k0
  have k1 := h.k1
  refine ⟨(R.subB _ a b ab bb (by norm_num at k1 ⊢; linarith) (by norm_num at k1 ⊢; linarith)).1, ?_⟩
  have e1 := abs_sub (X * YD) (Y * XD)
  rw [abs_mul, abs_mul] at e1
  have e2 := mul_le_mul_of_nonneg_left h.byd (abs_nonneg X)
  have e3 := mul_le_mul_of_nonneg_left h.bxd (abs_nonneg Y)
  have e4 := mul_le_mul_of_nonneg_right h.sum_le (by linarith : (0 : ℝ) ≤ 1.32 + 1.03 * K)
  rw [add_mul] at e4
  linarith

theorem inner (R : Rounding fl) (h : FkIn x y z xd yd zd X Y Z XD YD ZD K ρ) : |fl (fl (x * xd) + fl (y * yd)) - (X * XD + Y * YD)| ≤ 9.2e-15 + 8.16e-15 * K ∧ |X * XD + Y * YD| ≤ 1.41422 * ρ * (1.32 + 1.03 * K) ∧
    |X * XD + Y * YD| ≤ 2.0198 * (1.32 + 1.03 * K) := by
  obtain ⟨a, ab⟩ := prod R h.k0 h.k1 h.hx h.hxd h.bx h.bxd
  obtain ⟨b, bb⟩ := prod R h.k0 h.k1 h.hy h.hyd h.bY h.byd
  have k0 := h.k0
  have k1 := h.k1
  obtain ⟨c, cb⟩ := R.addB (9.2e-15 + 8.16e-15 * K) a b ab bb (by norm_num at k1 ⊢; linarith) (by norm_num at k1 ⊢; linarith)
  refine ⟨c, ?_, cb.trans (by norm_num; linarith)⟩
  have e1 := abs_add_le (X * XD) (Y * YD)
  rw [abs_mul, abs_mul] at e1
  have e2 := mul_le_mul_of_nonneg_left h.bxd (abs_nonneg X)
  have e3 := mul_le_mul_of_nonneg_left h.byd (abs_nonneg Y)
  have e4 := mul_le_mul_of_nonneg_right h.sum_le (by linarith : (0 : ℝ) ≤ 1.32 + 1.03 * K)
  rw [add_mul] at e4
  linarith

/-- The proper motion in right ascension (arcsec per century). -/
theorem ur (R : Rounding fl) (h : FkIn x y z xd yd zd X Y Z XD YD ZD K ρ) :
    |fl (fl (fl (x * yd) - fl (y * xd)) / fl (fl (x * x) + fl (y * y))) - (X * YD - Y * XD) / (ρ * ρ)| ≤ (1.83e-14 + 1.53e-14 * K) / (ρ * ρ) + 1 / 10 ^ 200 ∧ |(X * YD - Y * XD) / (ρ * ρ)| ≤ 1.41422 * (1.32 + 1.03 * K) / ρ := by
  have r0 : 0 < ρ := lt_of_lt_of_le (by norm_num) h.r0
  obtain ⟨c, cb⟩ := h.cross R
  have n := h.near_sq R
  have k0 := h.k0
  have k1 := h.k1
  have r1 := h.r1
  have M0 : (0 : ℝ) ≤ 1.32 + 1.03 * K := by linarith
  have aD : |ρ * ρ| = ρ * ρ := abs_of_pos n.pos
  have cb2 : |X * YD - Y * XD| ≤ 1.43 * (1.32 + 1.03 * K) := cb.trans (mul_le_mul_of_nonneg_right (by norm_num at r1 ⊢; linarith) M0)
  have q := R.quot (n := fl (fl (x * yd) - fl (y * xd))) (d := fl (fl (x * x) + fl (y * y))) c (by rw [aD]; exact n.err) n.e1 n.pos.ne' (by
    rw [aD, div_le_iff₀ n.pos]
    have : (0.0009 : ℝ) * 0.0009 ≤ ρ * ρ := mul_le_mul h.r0 h.r0 (by norm_num) r0.le
    norm_num at *
    linarith)
  rw [aD] at q
  refine ⟨q.trans (add_le_add (div_le_div_of_nonneg_right ?_ n.pos.le) le_rfl), ?_⟩
  · have e : (4.7e-15 / ρ + 1.1104e-16) * |X * YD - Y * XD| ≤ 6.82e-15 * (1.32 + 1.03 * K) := by
      refine (mul_le_mul_of_nonneg_left cb (by positivity)).trans ?_
      rw [show (4.7e-15 / ρ + 1.1104e-16) * (1.41422 * ρ * (1.32 + 1.03 * K)) = (4.7e-15 + 1.1104e-16 * ρ) * 1.41422 * (1.32 + 1.03 * K) by field_simp]
      exact mul_le_mul_of_nonneg_right (by norm_num at r1 ⊢; linarith) M0
    generalize (4.7e-15 / ρ + 1.1104e-16) * |X * YD - Y * XD| = E at *
    norm_num at e ⊢
    linarith
  · rw [abs_div, aD, div_le_div_iff₀ n.pos r0]
    nlinarith

/-- The denominator of the proper motion in declination. -/
theorem den (R : Rounding fl) (h : FkIn x y z xd yd zd X Y Z XD YD ZD K ρ) :
    Near (1.352e-14 / ρ) (fl (fl (fl (fl (x * x) + fl (y * y)) + fl (z * z)) * fl (√(fl (fl (x * x) + fl (y * y)))))) ((ρ * ρ + Z * Z) * ρ) := by
  have r0 : 0 < ρ := lt_of_lt_of_le (by norm_num) h.r0
  have r0' := h.r0
  have r1 := h.r1
  have n := h.near_sq R
  have q : |fl (fl (x * x) + fl (y * y)) - ρ * ρ| ≤ 4.75e-15 := (h.rxysq R).trans (by norm_num at r1 ⊢; linarith)
  have qb : |ρ * ρ| ≤ 1.02 := by rw [abs_of_pos n.pos]; nlinarith [h.s1, mul_self_nonneg Z]
  have zz := R.mulB 3.3e-15 h.hz h.hz h.bz h.bz (by norm_num) (by norm_num)
  have zb := mul_bd h.bz h.bz
  obtain ⟨a, -⟩ := R.addB 8.28e-15 q zz qb zb (by norm_num) (by norm_num)
  have s0 := h.s0
  have na : Near 8.45e-15 (fl (fl (fl (x * x) + fl (y * y)) + fl (z * z))) (ρ * ρ + Z * Z) := ⟨by linarith, by norm_num, by norm_num, a.trans (by norm_num at s0 ⊢; linarith)⟩
  have inv : 1 ≤ 1.0099 * (1 / ρ) := by rw [mul_one_div, le_div_iff₀ r0]; linarith
  have inv2 : 1 / ρ ≤ 1112 := by rw [div_le_iff₀ r0]; norm_num at r0' ⊢; linarith
  have i0 : 0 < 1 / ρ := by positivity
  have nb := n.sqrt
  rw [Real.sqrt_mul_self r0.le] at nb
  have e1 : 4.7e-15 / ρ = 4.7e-15 * (1 / ρ) := by ring
  have e2 : 1.352e-14 / ρ = 1.352e-14 * (1 / ρ) := by ring
  rw [e1] at nb
  rw [e2]
  generalize 1 / ρ = I at *
  have nc := nb.fl R (4.82e-15 * I) (le_trans (by norm_num) r0') (by norm_num at r1 ⊢; linarith) (by norm_num at inv ⊢; linarith) (by norm_num at inv2 ⊢; linarith)
  have nd := na.mul (1.34e-14 * I) nc (by norm_num at inv ⊢; linarith) (by norm_num at inv2 ⊢; linarith)
  have D0 : (0.0008 : ℝ) ≤ (ρ * ρ + Z * Z) * ρ := le_trans (by norm_num) (mul_le_mul s0 r0' (by norm_num) (by linarith))
  have D1 : (ρ * ρ + Z * Z) * ρ ≤ 1.02 * 1.0099 := mul_le_mul h.s1 r1 r0.le (by norm_num)
  exact nd.fl R _ (le_trans (by norm_num) D0) (D1.trans (by norm_num)) (by norm_num at inv ⊢; linarith) (by norm_num at inv2 ⊢; linarith)

/-- The proper motion in declination (arcsec per century). -/
theorem ud (R : Rounding fl) (h : FkIn x y z xd yd zd X Y Z XD YD ZD K ρ) :
    |fl (fl (fl (zd * fl (fl (x * x) + fl (y * y))) - fl (z * fl (fl (x * xd) + fl (y * yd)))) / fl (fl (fl (fl (x * x) + fl (y * y)) + fl (z * z)) * fl (√(fl (fl (x * x) + fl (y * y)))))) - (ZD * (ρ * ρ) - Z * (X * XD + Y * YD)) / ((ρ * ρ + Z * Z) * ρ)| ≤
      (6.9e-14 + 5.5e-14 * K) / ρ + 1 / 10 ^ 200 ∧ |(ZD * (ρ * ρ) - Z * (X * XD + Y * YD)) / ((ρ * ρ + Z * Z) * ρ)| ≤ 2.5 * (1.32 + 1.03 * K) := by
  have r0 : 0 < ρ := lt_of_lt_of_le (by norm_num) h.r0
  have r0' := h.r0
  have r1 := h.r1
  have k0 := h.k0
  have k1 := h.k1
  have n := h.near_sq R
  have M0 : (0 : ℝ) ≤ 1.32 + 1.03 * K := by linarith
  have q : |fl (fl (x * x) + fl (y * y)) - ρ * ρ| ≤ 4.75e-15 := (h.rxysq R).trans (by norm_num at r1 ⊢; linarith)
  have qb : |ρ * ρ| ≤ 1.02 := by rw [abs_of_pos n.pos]; nlinarith [h.s1, mul_self_nonneg Z]
  obtain ⟨c, cb, cb2⟩ := h.inner R
  have a1 := R.mulB (8.68e-15 + 7.27e-15 * K) h.hzd q h.bzd qb (by norm_num at k1 ⊢; linarith) (by norm_num at k1 ⊢; linarith)
  have a1b := mul_bd h.bzd qb
  have a2 := R.mulB (1.38e-14 + 1.175e-14 * K) h.hz c h.bz cb2 (by norm_num at k1 ⊢; linarith) (by norm_num at k1 ⊢; linarith)
  have a2b := mul_bd h.bz cb2
  obtain ⟨a3, -⟩ := R.subB (2.31e-14 + 1.95e-14 * K) a1 a2 a1b a2b (by norm_num at k1 ⊢; linarith) (by norm_num at k1 ⊢; linarith)
  have Nb : |ZD * (ρ * ρ) - Z * (X * XD + Y * YD)| ≤ 2.44 * (1.32 + 1.03 * K) * ρ := by
    have e1 := abs_sub (ZD * (ρ * ρ)) (Z * (X * XD + Y * YD))
    rw [abs_mul ZD, abs_mul Z, abs_of_pos n.pos] at e1
    have e2 : |ZD| * (ρ * ρ) ≤ (1.32 + 1.03 * K) * (1.0099 * ρ) := mul_le_mul h.bzd (mul_le_mul_of_nonneg_right r1 r0.le) n.pos.le M0
    have e3 : |Z| * |X * XD + Y * YD| ≤ 1.0099 * (1.41422 * ρ * (1.32 + 1.03 * K)) := mul_le_mul h.bz cb (abs_nonneg _) (by norm_num)
    have M1 : 0 ≤ (1.32 + 1.03 * K) * ρ := mul_nonneg M0 r0.le
    have e4 : (1.32 + 1.03 * K) * (1.0099 * ρ) + 1.0099 * (1.41422 * ρ * (1.32 + 1.03 * K)) = (1.0099 + 1.0099 * 1.41422) * ((1.32 + 1.03 * K) * ρ) := by ring
    rw [show 2.44 * (1.32 + 1.03 * K) * ρ = 2.44 * ((1.32 + 1.03 * K) * ρ) by ring]
    generalize (1.32 + 1.03 * K) * ρ = G at *
    norm_num at *
    linarith
  have d := h.den R
  have aD : |(ρ * ρ + Z * Z) * ρ| = (ρ * ρ + Z * Z) * ρ := abs_of_pos d.pos
  have Dl : 0.98 * ρ ≤ (ρ * ρ + Z * Z) * ρ := mul_le_mul_of_nonneg_right h.s0 r0.le
  have qq := R.quot (n := fl (fl (zd * fl (fl (x * x) + fl (y * y))) - fl (z * fl (fl (x * xd) + fl (y * yd))))) a3 (by rw [aD]; exact d.err) d.e1 d.pos.ne' (by
    rw [aD, div_le_iff₀ d.pos]
    have b1 : (0.0008 : ℝ) ≤ (ρ * ρ + Z * Z) * ρ := le_trans (by norm_num at r0' ⊢; linarith) Dl
    have b2 : 2.44 * (1.32 + 1.03 * K) * ρ ≤ 2.44 * (1.32 + 1.03 * K) * 1.0099 := mul_le_mul_of_nonneg_left r1 (by positivity)
    have b3 := Nb.trans b2
    generalize |ZD * (ρ * ρ) - Z * (X * XD + Y * YD)| = G at *
    generalize (ρ * ρ + Z * Z) * ρ = H at *
    norm_num at b1 b3 k1 ⊢
    linarith)
  rw [aD] at qq
  constructor
  · refine qq.trans (add_le_add ?_ le_rfl)
    have e : (1.352e-14 / ρ + 1.1104e-16) * |ZD * (ρ * ρ) - Z * (X * XD + Y * YD)| ≤ 3.33e-14 * (1.32 + 1.03 * K) := by
      refine (mul_le_mul_of_nonneg_left Nb (by positivity)).trans ?_
      rw [show (1.352e-14 / ρ + 1.1104e-16) * (2.44 * (1.32 + 1.03 * K) * ρ) = (1.352e-14 + 1.1104e-16 * ρ) * 2.44 * (1.32 + 1.03 * K) by field_simp]
      exact mul_le_mul_of_nonneg_right (by norm_num at r1 ⊢; linarith) M0
    refine (div_le_div_of_nonneg_left ?_ (by positivity : 0 < 0.98 * ρ) Dl).trans ?_
    · positivity
    · rw [div_le_div_iff₀ (by positivity) r0, show (6.9e-14 + 5.5e-14 * K) * (0.98 * ρ) = ((6.9e-14 + 5.5e-14 * K) * 0.98) * ρ by ring]
      refine mul_le_mul_of_nonneg_right ?_ r0.le
      generalize (1.352e-14 / ρ + 1.1104e-16) * |ZD * (ρ * ρ) - Z * (X * XD + Y * YD)| = E at *
      norm_num at e ⊢
      linarith
  · rw [abs_div, aD, div_le_iff₀ d.pos]
    refine Nb.trans ?_
    have : 2.5 * (1.32 + 1.03 * K) * (0.98 * ρ) ≤ 2.5 * (1.32 + 1.03 * K) * ((ρ * ρ + Z * Z) * ρ) := mul_le_mul_of_nonneg_left Dl (by positivity)
    refine le_trans ?_ this
    have M1 : 0 ≤ (1.32 + 1.03 * K) * ρ := mul_nonneg M0 r0.le
    nlinarith

/-- Division by PAL__PMF. -/
theorem pmf (R : Rounding fl) {u U α : ℝ} (h : |u - U| ≤ α) (hα : α ≤ 10 ^ 20) (hU : |U| ≤ 10 ^ 20) : |fl (u / flPMF fl) - U / palPMF| ≤ 4.87e-8 * (α + 3.62e-16 * |U|) + 1 / 10 ^ 200 := by
  obtain ⟨pm, pm1, pm2⟩ := flPMF_near R
  have a0 := (abs_nonneg _).trans h
  have aD : |palPMF| = palPMF := abs_of_pos pm.pos
  have U0 := abs_nonneg U
  have q := R.quot h (by rw [aD]; exact pm.err) pm.e1 pm.pos.ne' (by
    rw [aD, div_le_iff₀ pm.pos]
    generalize |U| = G at *
    norm_num at *
    linarith)
  rw [aD] at q
  refine q.trans (add_le_add ?_ le_rfl)
  rw [div_le_iff₀ pm.pos]
  have e0 : 0 ≤ α + 3.62e-16 * |U| := by positivity
  have : 4.87e-8 * (α + 3.62e-16 * |U|) * 2.06e7 ≤ 4.87e-8 * (α + 3.62e-16 * |U|) * palPMF := mul_le_mul_of_nonneg_left pm1 (by positivity)
  generalize |U| = G at *
  norm_num at this ⊢
  linarith

end FkIn
end Pal
