import Verif.Lemmas.FlPcd5
import Verif.Props.Coord2

/-!
# Radial distortion in double precision

Spec: `Pal.Spec.plane` is the distance of two points of the focal plane; palPcd and palUnpcd without prefix are the functions in exact arithmetic, for which C37 says that each undoes the other.
-/

namespace Pal.Spec

/-- Distance of two points in the plane. -/
noncomputable def plane (p q : ℝ × ℝ) : ℝ := √((p.1 - q.1) * (p.1 - q.1) + (p.2 - q.2) * (p.2 - q.2))

end Pal.Spec

namespace Pal.Props
open Pal Pal.Spec Real

theorem plane_le {p q : ℝ × ℝ} {e : ℝ} (h1 : |p.1 - q.1| ≤ e) (h2 : |p.2 - q.2| ≤ e) : plane p q ≤ 1.4143 * e := by
  have e0 := (abs_nonneg _).trans h1
  unfold plane
  rw [sqrt_le_left (by positivity), ← abs_mul_abs_self, ← abs_mul_abs_self (p.2 - q.2)]
  have a := mul_self_le_mul_self (abs_nonneg _) h1
  have b := mul_self_le_mul_self (abs_nonneg _) h2
  have := mul_self_nonneg e
  nlinarith

theorem plane_tri (p q r : ℝ × ℝ) : plane p r ≤ plane p q + plane q r := by
  have key : ∀ a b c d : ℝ, √((a + c) * (a + c) + (b + d) * (b + d)) ≤ √(a * a + b * b) + √(c * c + d * d) := by
    intro a b c d
    have s1 : 0 ≤ a * a + b * b := add_nonneg (mul_self_nonneg _) (mul_self_nonneg _)
    have s2 : 0 ≤ c * c + d * d := add_nonneg (mul_self_nonneg _) (mul_self_nonneg _)
    rw [sqrt_le_left (by positivity)]
    have cs : a * c + b * d ≤ √(a * a + b * b) * √(c * c + d * d) := by
      rw [← sqrt_mul s1]
      refine le_sqrt_of_sq_le ?_
      linarith [sq_nonneg (a * d - b * c), show (a * a + b * b) * (c * c + d * d) - (a * c + b * d) ^ 2 = (a * d - b * c) ^ 2 by ring]
    have e : (√(a * a + b * b) + √(c * c + d * d)) ^ 2 = (a * a + b * b) + (c * c + d * d) + 2 * (√(a * a + b * b) * √(c * c + d * d)) := by
      rw [add_sq, sq_sqrt s1, sq_sqrt s2]; ring
    rw [e]
    linarith
  have := key (p.1 - q.1) (p.2 - q.2) (q.1 - r.1) (q.2 - r.2)
  rw [sub_add_sub_cancel, sub_add_sub_cancel] at this
  exact this

variable {fl : ℝ → ℝ} (R : Rounding fl) {L : Libm} {pw : ℝ → ℝ → ℝ}
include R

/-- Range of the distorted point computed by palPcd, and its error. -/
theorem pcd_range {D x y : ℝ} (h1 : 1 / 10 ^ 8 ≤ |D|) (hl : 1 / 10 ^ 18 ≤ √(x * x + y * y)) (hu : |D| * (x * x + y * y) ≤ 0.4) :
    1 / 10 ^ 19 ≤ √((flPcd fl D x y).1 * (flPcd fl D x y).1 + (flPcd fl D x y).2 * (flPcd fl D x y).2) ∧
    |D| * ((flPcd fl D x y).1 * (flPcd fl D x y).1 + (flPcd fl D x y).2 * (flPcd fl D x y).2) ≤ 1.01 * (|D| * (x * x + y * y)) * (1 + max D 0 * (x * x + y * y)) ^ 2 ∧
    plane (flPcd fl D x y) (palPcd D x y) ≤ 1.2e-15 * √(x * x + y * y) ∧ √(x * x + y * y) ≤ 0.64 * (1 / √|D|) := by
  have D0 : 0 < |D| := lt_of_lt_of_le (by norm_num) h1
  have S0 : 0 ≤ x * x + y * y := add_nonneg (mul_self_nonneg _) (mul_self_nonneg _)
  have xr : |x| ≤ √(x * x + y * y) := abs_le_sqrt (by linarith [mul_self_nonneg y, sq x])
  have yr : |y| ≤ √(x * x + y * y) := abs_le_sqrt (by linarith [mul_self_nonneg x, sq y])
  have ru : √(x * x + y * y) ≤ 10 ^ 4 := by
    rw [sqrt_le_left (by norm_num)]
    have := le_trans (mul_le_mul_of_nonneg_right h1 S0) hu
    norm_num at *; linarith
  have e1 := flPcd_near R (D := D) (s := x) (xr.trans ru) (yr.trans ru) (le_trans (by norm_num) hl) (hu.trans (by norm_num)) xr
  have e2 := flPcd_near R (D := D) (s := y) (xr.trans ru) (yr.trans ru) (le_trans (by norm_num) hl) (hu.trans (by norm_num)) yr
  have hd : plane (flPcd fl D x y) (palPcd D x y) ≤ 1.2e-15 * √(x * x + y * y) := by
    refine (plane_le (e := 8e-16 * √(x * x + y * y)) e1 e2).trans ?_
    have := sqrt_nonneg (x * x + y * y)
    norm_num at *; linarith
  have sD : 0 < √|D| := sqrt_pos.2 D0
  have rI : √(x * x + y * y) ≤ 0.64 * (1 / √|D|) := by
    rw [mul_one_div, le_div_iff₀ sD, ← sqrt_mul S0, sqrt_le_left (by norm_num)]; norm_num at *; linarith
  -- the exact distorted point
  have hf : |D * (x * x + y * y)| ≤ 0.4 := by rw [abs_mul, abs_of_nonneg S0]; exact hu
  have hf' := abs_le.1 hf
  have hP : plane (palPcd D x y) 0 = √(x * x + y * y) * (1 + D * (x * x + y * y)) := by
    unfold plane palPcd
    dsimp only
    rw [Prod.fst_zero, Prod.snd_zero, sub_zero, sub_zero]
    rw [show ∀ f : ℝ, x * f * (x * f) + y * f * (y * f) = (x * x + y * y) * f ^ 2 by intro f; ring, sqrt_mul S0, sqrt_sq (by norm_num at *; linarith)]
  have hQ : plane (flPcd fl D x y) 0 = √((flPcd fl D x y).1 * (flPcd fl D x y).1 + (flPcd fl D x y).2 * (flPcd fl D x y).2) := by
    unfold plane; rw [Prod.fst_zero, Prod.snd_zero, sub_zero, sub_zero]
  have t1 := plane_tri (flPcd fl D x y) (palPcd D x y) 0
  have t2 := plane_tri (palPcd D x y) (flPcd fl D x y) 0
  have sym : plane (palPcd D x y) (flPcd fl D x y) = plane (flPcd fl D x y) (palPcd D x y) := by unfold plane; congr 1; ring
  rw [hP, hQ] at t1 t2
  rw [sym] at t2
  have r0 := sqrt_nonneg (x * x + y * y)
  have sq := mul_self_sqrt S0
  have Q0 : 0 ≤ (flPcd fl D x y).1 * (flPcd fl D x y).1 + (flPcd fl D x y).2 * (flPcd fl D x y).2 := add_nonneg (mul_self_nonneg _) (mul_self_nonneg _)
  refine ⟨?_, ?_, hd, rI⟩
  · have : √(x * x + y * y) * 0.6 ≤ √(x * x + y * y) * (1 + D * (x * x + y * y)) := mul_le_mul_of_nonneg_left (by norm_num at *; linarith) r0
    norm_num at *; linarith
  · have m : D * (x * x + y * y) ≤ max D 0 * (x * x + y * y) := mul_le_mul_of_nonneg_right (le_max_left _ _) S0
    have m0 : 0 ≤ max D 0 * (x * x + y * y) := mul_nonneg (le_max_right _ _) S0
    have : √(x * x + y * y) * (1 + D * (x * x + y * y)) ≤ √(x * x + y * y) * (1 + max D 0 * (x * x + y * y)) := mul_le_mul_of_nonneg_left (by linarith) r0
    have b : √((flPcd fl D x y).1 * (flPcd fl D x y).1 + (flPcd fl D x y).2 * (flPcd fl D x y).2) ≤ √(x * x + y * y) * (1.001 * (1 + max D 0 * (x * x + y * y))) := by
      have := mul_nonneg r0 m0
      norm_num at *; linarith
    have c := mul_self_le_mul_self (sqrt_nonneg _) b
    rw [mul_self_sqrt Q0] at c
    have c2 : √(x * x + y * y) * (1.001 * (1 + max D 0 * (x * x + y * y))) * (√(x * x + y * y) * (1.001 * (1 + max D 0 * (x * x + y * y)))) = 1.002001 * (x * x + y * y) * (1 + max D 0 * (x * x + y * y)) ^ 2 := by
      rw [show ∀ r k : ℝ, r * (1.001 * k) * (r * (1.001 * k)) = 1.002001 * (r * r) * k ^ 2 by intro r k; ring, sq]
    rw [c2] at c
    have d := mul_le_mul_of_nonneg_left c D0.le
    have g : 0 ≤ |D| * ((x * x + y * y) * (1 + max D 0 * (x * x + y * y)) ^ 2) := by positivity
    norm_num at *; linarith

/-- **C122** (pincushion) For every pincushion coefficient from 1e-8 to 1e8 and every point whose distance is at least 1e-19 and at most 1/sqrt(disco), palUnpcd in double precision returns each
coordinate within 3.2e-14/sqrt(disco) of the exact inverse of the distortion. -/
theorem C122_pincushion (hp : PowOK pw) (disco x y : ℝ) (h1 : 1 / 10 ^ 8 ≤ disco) (h2 : disco ≤ 10 ^ 8) (hl : 1 / 10 ^ 19 ≤ √(x * x + y * y)) (hu : disco * (x * x + y * y) ≤ 1) :
    |(flUnpcd fl L pw disco x y).1 - (palUnpcd disco x y).1| ≤ 3.2e-14 / √disco ∧ |(flUnpcd fl L pw disco x y).2 - (palUnpcd disco x y).2| ≤ 3.2e-14 / √disco := by
  have D0 : 0 < disco := lt_of_lt_of_le (by norm_num) h1
  have S0 : 0 ≤ x * x + y * y := add_nonneg (mul_self_nonneg _) (mul_self_nonneg _)
  have xr : |x| ≤ √(x * x + y * y) := abs_le_sqrt (by linarith [mul_self_nonneg y, sq x])
  have yr : |y| ≤ √(x * x + y * y) := abs_le_sqrt (by linarith [mul_self_nonneg x, sq y])
  have hu' : disco * √(x * x + y * y) ^ 2 ≤ 1 := by rw [sq_sqrt S0]; exact hu
  have rp0 : 0 < √(x * x + y * y) := lt_of_lt_of_le (by norm_num) hl
  have ru : √(x * x + y * y) ≤ 10 ^ 4 := by
    have : √(x * x + y * y) ^ 2 ≤ (10 ^ 4) ^ 2 := by
      have := le_trans (mul_le_mul_of_nonneg_right h1 (sq_nonneg (√(x * x + y * y)))) hu'
      norm_num at *; linarith
    exact le_of_sq_le_sq' this (by norm_num)
  have nr := rp_near R hl (ru.trans (by norm_num))
  obtain ⟨w0, hrad⟩ := pin_radius R hp h1 h2 nr hl hu'
  have root := unpcdF_root rp0 D0.ne'
  have sD : 0 < √disco := sqrt_pos.2 D0
  have rD : √(x * x + y * y) ≤ 1 / √disco := by
    rw [le_div_iff₀ sD, ← sqrt_mul S0, sqrt_le_left (by norm_num)]; linarith
  rw [unpcd_eq _ _ _ ⟨rp0.ne', D0.ne'⟩]
  unfold flUnpcd
  dsimp only
  rw [if_pos ⟨nr.xpos.ne', D0.ne'⟩, if_pos w0]
  generalize fl (flCbrt fl pw _ + flCbrt fl pw _) = f at *
  generalize unpcdF disco (√(x * x + y * y)) = F at *
  generalize fl (√(fl (fl (x * x) + fl (y * y)))) = rph at *
  have F0 : 0 ≤ F := by
    by_contra hc
    push Not at hc
    have : F ^ 3 < 0 := by
      rw [show F ^ 3 = F * F ^ 2 by ring]; exact mul_neg_of_neg_of_pos hc (sq_pos_of_neg hc)
    have := mul_neg_of_pos_of_neg D0 this
    linarith
  have Fr : F ≤ √(x * x + y * y) := by
    have : 0 ≤ disco * F ^ 3 := by positivity
    linarith
  generalize √(x * x + y * y) = rp at *
  have s1 : 1 / 10 ^ 4 ≤ √disco := le_sqrt_of_sq_le (by norm_num at *; linarith)
  have s2 : √disco ≤ 10 ^ 4 := by rw [sqrt_le_left (by norm_num)]; norm_num at *; linarith
  have i1 : 1 / √disco ≤ 10 ^ 4 := by rw [div_le_iff₀ sD]; norm_num at *; linarith
  have i2 : 1 / 10 ^ 4 ≤ 1 / √disco := one_div_le_one_div_of_le sD s2
  rw [div_eq_mul_one_div _ (√disco)] at hrad
  rw [div_eq_mul_one_div _ (√disco)]
  generalize 1 / √disco = I at *
  have a := unpcd_coord R xr nr hl (ru.trans (by norm_num)) F0 (by linarith) hrad (by norm_num at *; linarith) (by norm_num at *; linarith)
  have b := unpcd_coord R yr nr hl (ru.trans (by norm_num)) F0 (by linarith) hrad (by norm_num at *; linarith) (by norm_num at *; linarith)
  constructor
  · refine a.trans ?_
    norm_num at *; linarith
  · refine b.trans ?_
    norm_num at *; linarith

/-- **C122** (barrel) For every barrel coefficient from -1e8 to -1e-8 and every point whose distance is at least 1e-19 and at most 0.26/sqrt(-disco) (about two thirds of the largest distance to which
any point is taken), palUnpcd in double precision returns each coordinate within 7e-15/sqrt(-disco) of the exact inverse. -/
theorem C122_barrel (hL : LibmOK L) (disco x y : ℝ) (h1 : 1 / 10 ^ 8 ≤ -disco) (h2 : -disco ≤ 10 ^ 8) (hl : 1 / 10 ^ 19 ≤ √(x * x + y * y)) (hu : -disco * (x * x + y * y) ≤ 0.07) :
    |(flUnpcd fl L pw disco x y).1 - (palUnpcd disco x y).1| ≤ 7e-15 / √(-disco) ∧ |(flUnpcd fl L pw disco x y).2 - (palUnpcd disco x y).2| ≤ 7e-15 / √(-disco) := by
  obtain ⟨D, rfl⟩ : ∃ D, disco = -D := ⟨-disco, by ring⟩
  rw [neg_neg] at *
  have D0 : 0 < D := lt_of_lt_of_le (by norm_num) h1
  have S0 : 0 ≤ x * x + y * y := add_nonneg (mul_self_nonneg _) (mul_self_nonneg _)
  have xr : |x| ≤ √(x * x + y * y) := abs_le_sqrt (by linarith [mul_self_nonneg y, sq x])
  have yr : |y| ≤ √(x * x + y * y) := abs_le_sqrt (by linarith [mul_self_nonneg x, sq y])
  have hu' : D * √(x * x + y * y) ^ 2 ≤ 0.07 := by rw [sq_sqrt S0]; exact hu
  have rp0 : 0 < √(x * x + y * y) := lt_of_lt_of_le (by norm_num) hl
  have ru : √(x * x + y * y) ≤ 10 ^ 4 := by
    have : √(x * x + y * y) ^ 2 ≤ (10 ^ 4) ^ 2 := by
      have := le_trans (mul_le_mul_of_nonneg_right h1 (sq_nonneg (√(x * x + y * y)))) hu'
      norm_num at *; linarith
    exact le_of_sq_le_sq' this (by norm_num)
  have nr := rp_near R hl (ru.trans (by norm_num))
  obtain ⟨w0, hrad, F0, Fr⟩ := barrel_radius R hL h1 h2 nr hl hu'
  have sD : 0 < √D := sqrt_pos.2 D0
  have rD : √(x * x + y * y) ≤ 0.265 * (1 / √D) := by
    rw [mul_one_div, le_div_iff₀ sD, ← sqrt_mul S0, sqrt_le_left (by norm_num)]; norm_num at *; linarith
  rw [unpcd_eq _ _ _ ⟨rp0.ne', by linarith⟩]
  unfold flUnpcd
  dsimp only
  rw [if_pos ⟨nr.xpos.ne', by linarith⟩, if_neg w0]
  generalize flPick fl _ _ _ _ = f at *
  generalize unpcdF (-D) (√(x * x + y * y)) = F at *
  generalize fl (√(fl (fl (x * x) + fl (y * y)))) = rph at *
  generalize √(x * x + y * y) = rp at *
  have s1 : 1 / 10 ^ 4 ≤ √D := le_sqrt_of_sq_le (by norm_num at *; linarith)
  have s2 : √D ≤ 10 ^ 4 := by rw [sqrt_le_left (by norm_num)]; norm_num at *; linarith
  have i1 : 1 / √D ≤ 10 ^ 4 := by rw [div_le_iff₀ sD]; norm_num at *; linarith
  have i2 : 1 / 10 ^ 4 ≤ 1 / √D := one_div_le_one_div_of_le sD s2
  rw [div_eq_mul_one_div _ (√D)] at hrad
  rw [div_eq_mul_one_div _ (√D)]
  generalize 1 / √D = I at *
  have a := unpcd_coord R xr nr hl (ru.trans (by norm_num)) F0 (by linarith) hrad (by norm_num at *; linarith) (by norm_num at *; linarith)
  have b := unpcd_coord R yr nr hl (ru.trans (by norm_num)) F0 (by linarith) hrad (by norm_num at *; linarith) (by norm_num at *; linarith)
  constructor
  · refine a.trans ?_
    norm_num at *; linarith
  · refine b.trans ?_
    norm_num at *; linarith

/-- The undistorted point is at most twice as far from the centre (barrel distortion, moderate distances). -/
theorem unpcd_norm (hL : LibmOK L) {disco x y : ℝ} (h1 : 1 / 10 ^ 8 ≤ -disco) (h2 : -disco ≤ 10 ^ 8) (hl : 1 / 10 ^ 19 ≤ √(x * x + y * y)) (hu : -disco * (x * x + y * y) ≤ 0.07) :
    (palUnpcd disco x y).1 * (palUnpcd disco x y).1 + (palUnpcd disco x y).2 * (palUnpcd disco x y).2 ≤ 4 * (x * x + y * y) := by
  obtain ⟨D, rfl⟩ : ∃ D, disco = -D := ⟨-disco, by ring⟩
  rw [neg_neg] at *
  have S0 : 0 ≤ x * x + y * y := add_nonneg (mul_self_nonneg _) (mul_self_nonneg _)
  have D0 : 0 < D := lt_of_lt_of_le (by norm_num) h1
  have hu' : D * √(x * x + y * y) ^ 2 ≤ 0.07 := by rw [sq_sqrt S0]; exact hu
  have rp0 : 0 < √(x * x + y * y) := lt_of_lt_of_le (by norm_num) hl
  have nr : Near 6e-16 (√(x * x + y * y)) (√(x * x + y * y)) := ⟨rp0, by norm_num, by norm_num, by rw [sub_self, abs_zero]; positivity⟩
  obtain ⟨-, -, F0, Fr⟩ := barrel_radius R hL h1 h2 nr hl hu'
  rw [unpcd_eq _ _ _ ⟨rp0.ne', by linarith⟩]
  dsimp only
  generalize unpcdF (-D) (√(x * x + y * y)) = F at *
  have sq := mul_self_sqrt S0
  have e : x * (F / √(x * x + y * y)) * (x * (F / √(x * x + y * y))) + y * (F / √(x * x + y * y)) * (y * (F / √(x * x + y * y))) = F * F := by
    have : ∀ f : ℝ, x * f * (x * f) + y * f * (y * f) = (x * x + y * y) * (f * f) := by intro f; ring
    rw [this]
    generalize √(x * x + y * y) = rp at *
    rw [← sq]
    field_simp
  rw [e]
  have := mul_self_le_mul_self F0 Fr
  linarith

/-- **C122** (round trip, pincushion) What palPcd distorts, palUnpcd restores within 4.7e-14/sqrt(disco), everything in double precision, for every point no farther out than 0.63/sqrt(disco). -/
theorem C122_pincushion_roundtrip (hp : PowOK pw) (disco x y : ℝ) (h1 : 1 / 10 ^ 8 ≤ disco) (h2 : disco ≤ 10 ^ 8) (hl : 1 / 10 ^ 18 ≤ √(x * x + y * y)) (hu : disco * (x * x + y * y) ≤ 0.4) :
    plane (flUnpcd fl L pw disco (flPcd fl disco x y).1 (flPcd fl disco x y).2) (x, y) ≤ 4.7e-14 / √disco := by
  have D0 : 0 < disco := lt_of_lt_of_le (by norm_num) h1
  obtain ⟨pl, pu, hP, rI⟩ := pcd_range R (D := disco) (x := x) (y := y) (by rw [abs_of_pos D0]; exact h1) hl (by rw [abs_of_pos D0]; exact hu)
  rw [abs_of_pos D0] at rI pu
  obtain ⟨a, b⟩ := C122_pincushion R (L := L) hp disco _ _ h1 h2 pl (by
    refine pu.trans ?_
    rw [max_eq_left D0.le]
    have z0 : 0 ≤ disco * (x * x + y * y) := mul_nonneg D0.le (add_nonneg (mul_self_nonneg _) (mul_self_nonneg _))
    have k : (1 + disco * (x * x + y * y)) ^ 2 ≤ 1.4 ^ 2 := pow_le_pow_left₀ (by linarith) (by norm_num at *; linarith) 2
    calc _ ≤ 1.01 * 0.4 * 1.4 ^ 2 := mul_le_mul (by norm_num at *; linarith) k (sq_nonneg _) (by norm_num)
      _ ≤ 1 := by norm_num)
  have t := plane_tri (flUnpcd fl L pw disco (flPcd fl disco x y).1 (flPcd fl disco x y).2) (palUnpcd disco (flPcd fl disco x y).1 (flPcd fl disco x y).2) (x, y)
  have t1 := plane_le a b
  have inv := C37_pcd_unpcd disco (flPcd fl disco x y).1 (flPcd fl disco x y).2
  dsimp only at inv
  generalize palUnpcd disco (flPcd fl disco x y).1 (flPcd fl disco x y).2 = q at *
  have ex := pcd_expand (D := disco) (a := q.1) (b := q.2) (c := x) (d := y) (k := 1) (by rw [min_eq_right D0.le]; linarith)
  rw [inv] at ex
  have t2 : plane q (x, y) ≤ plane (flPcd fl disco x y) (palPcd disco x y) := by unfold plane; rwa [one_mul] at ex
  rw [div_eq_mul_one_div _ (√disco)] at t1 ⊢
  generalize 1 / √disco = I at *
  norm_num at *; linarith

/-- A concrete case of the hypotheses of the pincushion theorems: AAT triplet, disco 178.585, a point 0.01 radians out. -/
example : 1 / 10 ^ 8 ≤ (178.585 : ℝ) ∧ (178.585 : ℝ) ≤ 10 ^ 8 ∧ 1 / 10 ^ 18 ≤ √((0.008 : ℝ) * 0.008 + 0.006 * 0.006) ∧ (178.585 : ℝ) * (0.008 * 0.008 + 0.006 * 0.006) ≤ 0.4 :=
  ⟨by norm_num, by norm_num, le_sqrt_of_sq_le (by norm_num), by norm_num⟩

/-- **C122** (round trip, barrel) What palPcd distorts, palUnpcd restores within 1.2e-14/sqrt(-disco), everything in double precision, for every point no farther out than 0.254/sqrt(-disco). -/
theorem C122_barrel_roundtrip (hL : LibmOK L) (disco x y : ℝ) (h1 : 1 / 10 ^ 8 ≤ -disco) (h2 : -disco ≤ 10 ^ 8) (hl : 1 / 10 ^ 18 ≤ √(x * x + y * y)) (hu : -disco * (x * x + y * y) ≤ 0.065) :
    plane (flUnpcd fl L pw disco (flPcd fl disco x y).1 (flPcd fl disco x y).2) (x, y) ≤ 1.2e-14 / √(-disco) := by
  have D0 : 0 < -disco := lt_of_lt_of_le (by norm_num) h1
  have Dn : disco ≤ 0 := by linarith
  have S0 : 0 ≤ x * x + y * y := add_nonneg (mul_self_nonneg _) (mul_self_nonneg _)
  obtain ⟨pl, pu, hP, rI⟩ := pcd_range R (D := disco) (x := x) (y := y) (by rw [abs_of_nonpos Dn]; exact h1) hl (by rw [abs_of_nonpos Dn]; exact hu.trans (by norm_num))
  rw [abs_of_nonpos Dn] at rI pu
  rw [max_eq_right Dn, zero_mul, add_zero, one_pow, mul_one] at pu
  have pu' : -disco * ((flPcd fl disco x y).1 * (flPcd fl disco x y).1 + (flPcd fl disco x y).2 * (flPcd fl disco x y).2) ≤ 0.07 := by
    norm_num at *; linarith
  obtain ⟨a, b⟩ := C122_barrel R (pw := pw) hL disco _ _ h1 h2 pl pu'
  have nq := unpcd_norm R hL h1 h2 pl pu'
  have t := plane_tri (flUnpcd fl L pw disco (flPcd fl disco x y).1 (flPcd fl disco x y).2) (palUnpcd disco (flPcd fl disco x y).1 (flPcd fl disco x y).2) (x, y)
  have t1 := plane_le a b
  have inv := C37_pcd_unpcd disco (flPcd fl disco x y).1 (flPcd fl disco x y).2
  dsimp only at inv
  generalize palUnpcd disco (flPcd fl disco x y).1 (flPcd fl disco x y).2 = q at *
  have ex := pcd_expand (D := disco) (a := q.1) (b := q.2) (c := x) (d := y) (k := 0.48) (by
    rw [min_eq_left Dn]
    have := mul_le_mul_of_nonneg_left nq D0.le
    norm_num at *; linarith)
  rw [inv] at ex
  have t2 : 0.48 * plane q (x, y) ≤ plane (flPcd fl disco x y) (palPcd disco x y) := ex
  rw [div_eq_mul_one_div _ (√(-disco))] at t1 ⊢
  generalize 1 / √(-disco) = I at *
  norm_num at *; linarith

/-- A concrete case of the hypotheses of the barrel theorems: Schmidt telescope, disco -0.3333, a point 0.1 radians out. -/
example : 1 / 10 ^ 8 ≤ -(-0.3333 : ℝ) ∧ -(-0.3333 : ℝ) ≤ 10 ^ 8 ∧ 1 / 10 ^ 18 ≤ √((0.08 : ℝ) * 0.08 + 0.06 * 0.06) ∧ -(-0.3333 : ℝ) * (0.08 * 0.08 + 0.06 * 0.06) ≤ 0.065 :=
  ⟨by norm_num, by norm_num, le_sqrt_of_sq_le (by norm_num), by norm_num⟩

/-- Rounding, library and pow meeting the assumptions exist: IEEE arithmetic and exact functions. -/
example : Rounding ieee ∧ PowOK (fun x y => x ^ y) := ⟨ieee_rounding, fun x y hx => by rw [sub_self, abs_zero]; have := rpow_nonneg hx y; positivity⟩

set_option maxHeartbeats 2000000 in
/-- **C122** (small distances) The inverse is not accurate relative to the distance from the centre: with disco = 1 a point at 2^-60 (8.7e-19), which palPcd leaves where it is, is moved by
palUnpcd onto the centre, whatever the rounding of ties, the library functions and pow. -/
theorem C122_small_distance_lost :
    flPcd fl 1 (2 ^ (-60 : ℤ)) 0 = (2 ^ (-60 : ℤ), 0) ∧ flUnpcd fl L pw 1 (2 ^ (-60 : ℤ)) 0 = (0, 0) := by
  have z := R.zero
  have k : ∀ e : ℤ, -1074 ≤ e → e ≤ 100 → fl (2 ^ e) = 2 ^ e := by
    intro e h1 h2
    have := R.keep 1 e (by norm_num) h1 (by
      rw [Int.cast_one, abs_one, one_mul]
      calc (2 : ℝ) ^ e ≤ 2 ^ (100 : ℤ) := zpow_le_zpow_right₀ (by norm_num) h2
        _ ≤ 2 ^ 1000 := by rw [show (100 : ℤ) = ((100 : ℕ) : ℤ) from rfl, zpow_natCast]; exact pow_le_pow_right₀ (by norm_num) (by norm_num))
    simpa using this
  have k60 := k (-60) (by norm_num) (by norm_num)
  have k120 := k (-120) (by norm_num) (by norm_num)
  have k61 := k (-61) (by norm_num) (by norm_num)
  have i1 : fl 1 = 1 := by have := k 0 (by norm_num) (by norm_num); simpa using this
  have i2 : fl 2 = 2 := by have := k 1 (by norm_num) (by norm_num); simpa using this
  have i3 : fl 3 = 3 := by have := R.int 3 (by norm_num); simpa using this
  have sq : (2 : ℝ) ^ (-60 : ℤ) * 2 ^ (-60 : ℤ) = 2 ^ (-120 : ℤ) := by norm_num
  have one : fl (1 + 2 ^ (-120 : ℤ)) = 1 := by
    have := R.eq_best (1 + 2 ^ (-120 : ℤ)) (2 ^ 53) (-53) (by rw [abs_of_pos (by positivity)]; norm_num) (by norm_num) (by norm_num) (by norm_num) (by
      rw [abs_lt]; constructor <;> norm_num)
    rw [this]; norm_num
  constructor
  · unfold flPcd
    dsimp only
    rw [sq, mul_zero, z, add_zero, k120, k120, one_mul, k120, one, mul_one, k60, zero_mul, z]
  · unfold flUnpcd
    dsimp only
    have hr : fl (√(fl (fl (2 ^ (-60 : ℤ) * 2 ^ (-60 : ℤ)) + fl (0 * 0)))) = 2 ^ (-60 : ℤ) := by
      rw [sq, mul_zero, z, add_zero, k120, k120, ← sq, sqrt_mul_self (by positivity), k60]
    rw [hr, if_pos ⟨by positivity, one_ne_zero⟩, mul_one, mul_one, i2, i3, show (2 : ℝ) ^ (-60 : ℤ) / 2 = 2 ^ (-61 : ℤ) by norm_num, k61]
    have hq : |fl (1 / 3) - 1 / 3| ≤ 1 / 10 ^ 10 := (R.err (by norm_num [abs_of_pos])).trans (by rw [abs_of_pos (by norm_num)]; norm_num)
    have q' := abs_le.1 hq
    generalize fl (1 / 3) = q at *
    have qq1 : q * q ≤ 0.112 := by
      calc q * q ≤ 0.3334 * 0.3334 := mul_le_mul (by norm_num at *; linarith) (by norm_num at *; linarith) (by norm_num at *; linarith) (by norm_num)
        _ ≤ _ := by norm_num
    have qq0 : 0.111 ≤ q * q := by
      calc (0.111 : ℝ) ≤ 0.3333 * 0.3333 := by norm_num
        _ ≤ _ := mul_le_mul (by norm_num at *; linarith) (by norm_num at *; linarith) (by norm_num) (by norm_num at *; linarith)
    have r1 := R.err (x := q * q) (abs_le.2 ⟨by norm_num at *; linarith, by norm_num at *; linarith⟩)
    rw [abs_of_nonneg (show 0 ≤ q * q by norm_num at *; linarith)] at r1
    have r1' := abs_le.1 r1
    generalize fl (q * q) = qq at *
    have c1 : qq * q ≤ 0.04 := by
      calc qq * q ≤ 0.113 * 0.3334 := mul_le_mul (by norm_num at *; linarith) (by norm_num at *; linarith) (by norm_num at *; linarith) (by norm_num)
        _ ≤ _ := by norm_num
    have c0 : 0.036 ≤ qq * q := by
      calc (0.036 : ℝ) ≤ 0.11 * 0.3333 := by norm_num
        _ ≤ _ := mul_le_mul (by norm_num at *; linarith) (by norm_num at *; linarith) (by norm_num) (by norm_num at *; linarith)
    have r2 := R.err (x := qq * q) (abs_le.2 ⟨by norm_num at *; linarith, by norm_num at *; linarith⟩)
    rw [abs_of_nonneg (show 0 ≤ qq * q by norm_num at *; linarith)] at r2
    have r2' := abs_le.1 r2
    generalize fl (qq * q) = c at *
    have s2 : fl ((2 : ℝ) ^ (-61 : ℤ) * 2 ^ (-61 : ℤ)) = 2 ^ (-122 : ℤ) := by
      rw [show (2 : ℝ) ^ (-61 : ℤ) * 2 ^ (-61 : ℤ) = 2 ^ (-122 : ℤ) by norm_num]
      exact k _ (by norm_num) (by norm_num)
    rw [s2]
    have d0 : (0 : ℝ) < 2 ^ (-122 : ℤ) := by positivity
    have d1 : (2 : ℝ) ^ (-122 : ℤ) ≤ 1 / 10 ^ 10 := by norm_num
    generalize (2 : ℝ) ^ (-122 : ℤ) = t at *
    have r3 := R.err (x := c + t) (abs_le.2 ⟨by norm_num at *; linarith, by norm_num at *; linarith⟩)
    rw [abs_of_nonneg (show 0 ≤ c + t by norm_num at *; linarith)] at r3
    have r3' := abs_le.1 r3
    generalize fl (c + t) = w at *
    have w1 : 0.035 ≤ w := by norm_num at *; linarith
    have w2 : w ≤ 0.041 := by norm_num at *; linarith
    rw [if_pos (by norm_num at *; linarith)]
    have v1 : 0.18 ≤ √w := le_sqrt_of_sq_le (by norm_num at *; linarith)
    have v2 : √w ≤ 0.21 := by rw [sqrt_le_left (by norm_num)]; norm_num at *; linarith
    have r4 := R.err (x := √w) (abs_le.2 ⟨by norm_num at *; linarith, by norm_num at *; linarith⟩)
    rw [abs_of_nonneg (show 0 ≤ √w by norm_num at *)] at r4
    have r4' := abs_le.1 r4
    have id := R.idem' (x := √w) (abs_le.2 ⟨by norm_num at *; linarith, by norm_num at *; linarith⟩)
    generalize fl (√w) = d at *
    have l1 : 1 / 8 < d := by norm_num at *; linarith
    have l2 : d < 1 / 4 := by norm_num at *; linarith
    have p1 := absorb R id l1 l2 (t := 2 ^ (-61 : ℤ)) (by rw [abs_of_pos (by positivity)]; norm_num)
    have p2 := absorb R id l1 l2 (t := -2 ^ (-61 : ℤ)) (by rw [abs_neg, abs_of_pos (by positivity)]; norm_num)
    rw [add_comm ((2 : ℝ) ^ (-61 : ℤ)) d, p1, show (2 : ℝ) ^ (-61 : ℤ) - d = -(d + -2 ^ (-61 : ℤ)) by ring, R.odd, p2]
    have cb : flCbrt fl pw d + flCbrt fl pw (-d) = 0 := by
      unfold flCbrt
      rw [if_neg (by linarith), if_pos (by linarith), abs_neg]; ring
    rw [cb, z, zero_div, z, mul_zero, mul_zero, z]

end Pal.Props
