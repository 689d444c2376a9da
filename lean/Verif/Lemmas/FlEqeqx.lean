import Verif.Model.FlEqeqx
import Verif.Lemmas.FlNut
import Verif.Lemmas.FlGmst
import Verif.Lemmas.Prenut06
import Verif.Props.FlBear

/-!
# The equation of the equinoxes in double precision: error bounds
-/

namespace Pal
open Real Pal.Spec Pal.Props
variable {fl : ℝ → ℝ} {L : Libm}

/-- Between 1900 and 2100 the precession and nutation matrix is within 0.0247 of the unit matrix. -/
theorem pnm_size (nx : ℝ → ℝ → ℝ × ℝ) {d1 d2 : ℝ} (ht : |cent06 d1 d2| ≤ 1) (b1 : |(nx d1 d2).1| ≤ 1e-4) (b2 : |(nx d1 d2).2| ≤ 6e-5) : Small (eraPnm06a nx d1 d2 - 1) 0.0248 := by
  obtain ⟨s1, s2, s3, s4⟩ := fw_sizes d1 d2 ht
  have A0 := das2r_gt0
  have A1 := das2r_ub
  have e : eraPnm06a nx d1 d2 = eraFw2m (eraPfw06 d1 d2).gamb (eraPfw06 d1 d2).phib ((eraPfw06 d1 d2).psib + (nx d1 d2).1) ((eraPfw06 d1 d2).epsa + (nx d1 d2).2) := rfl
  have n := fw_near (84381.406 * das2r) (eraPfw06 d1 d2).gamb (eraPfw06 d1 d2).phib ((eraPfw06 d1 d2).psib + (nx d1 d2).1) ((eraPfw06 d1 d2).epsa + (nx d1 d2).2)
  have m := eclTurn_small (84381.406 * das2r) ((eraPfw06 d1 d2).psib + (nx d1 d2).1)
  rw [← e] at n
  have a := n.add m
  rw [sub_add_sub_cancel] at a
  refine a.mono ?_
  have h1 := abs_le.1 s1
  have h2 := abs_le.1 s2
  have h3 := abs_le.1 s3
  have h4 := abs_le.1 s4
  have h5 := abs_le.1 b1
  have h6 := abs_le.1 b2
  generalize (eraPfw06 d1 d2).gamb = g at *
  generalize (eraPfw06 d1 d2).phib = f at *
  generalize (eraPfw06 d1 d2).psib = p at *
  generalize (eraPfw06 d1 d2).epsa = q at *
  generalize (nx d1 d2).1 = u at *
  generalize (nx d1 d2).2 = v at *
  generalize das2r = A at *
  have k1 : |g| ≤ 5.4e-5 := by rw [abs_le]; constructor <;> linarith
  have k2 : |f - (q + v)| ≤ 6.1e-5 := by rw [abs_le]; constructor <;> linarith
  have k3 : |q + v - 84381.406 * A| ≤ 2.9e-4 := by rw [abs_le]; constructor <;> linarith
  have k4 : |p + u| ≤ 0.0246 := by rw [abs_le]; constructor <;> linarith
  have k5 := mul_le_mul k3 k4 (abs_nonneg _) (by norm_num)
  linarith

/-- A component of a matrix near the unit matrix. -/
theorem near_one_bd {X : Mat3} (h : ∀ i j, |X i j - (1 : Mat3) i j| ≤ 0.0248) (i j : Fin 3) : |X i j| ≤ if i = j then 1.0248 else 0.0248 := by
  have := h i j
  split_ifs with c
  · rw [c, Matrix.one_apply_eq] at this; rw [c]
    have := abs_sub_abs_le_abs_sub (X j j) 1
    rw [abs_one] at this; linarith
  · rwa [Matrix.one_apply_ne c, sub_zero] at this

set_option maxHeartbeats 1000000 in
/-- The equation of the origins, of a matrix computed with an error of 2.83e-14. -/
theorem flEors_err (R : Rounding fl) (hL : LibmOK L) (nz : Bool) {r X : Mat3} {s S σ : ℝ} (hr : ∀ i j, |r i j - X i j| ≤ 2.83e-14) (hX : ∀ i j, |X i j - (1 : Mat3) i j| ≤ 0.0248)
    (hs : |s - S| ≤ σ) (hσ : σ ≤ 1e-10) (hS : |S| ≤ 0.01) : ∃ k : ℤ, |flEors fl L nz r s - (eraEors X S + k * (2 * π))| ≤ 1.9e-13 + σ ∧ |flEors fl L nz r s| ≤ 3.2 := by
  have b := near_one_bd hX
  have o : |(1 : ℝ)| ≤ 1 := by norm_num
  have b00 : |X 0 0| ≤ 1.0248 := b 0 0
  have b01 : |X 0 1| ≤ 0.0248 := b 0 1
  have b02 : |X 0 2| ≤ 0.0248 := b 0 2
  have b10 : |X 1 0| ≤ 0.0248 := b 1 0
  have b11 : |X 1 1| ≤ 1.0248 := b 1 1
  have b12 : |X 1 2| ≤ 0.0248 := b 1 2
  have b21 : |X 2 1| ≤ 0.0248 := b 2 1
  have b22 : |X 2 2| ≤ 1.0248 := b 2 2
  have x0 := hr 2 0
  have bx : |X 2 0| ≤ 0.0248 := b 2 0
  have d0 := hX 2 2
  rw [Matrix.one_apply_eq] at d0
  have d1 := (R.addB (B := X 2 2) (MB := 1.0248) 2.87e-14 (noerr 1) (hr 2 2) o b22 (by norm_num) (by norm_num)).1
  have dl : 1.9752 ≤ 1 + X 2 2 := by have := abs_le.1 d0; linarith
  have ax : |fl (r 2 0 / fl (1 + r 2 2)) - X 2 0 / (1 + X 2 2)| ≤ 1.46e-14 ∧ |X 2 0 / (1 + X 2 2)| ≤ 0.0126 := by
    have hb : |X 2 0 / (1 + X 2 2)| ≤ 0.0126 := by
      rw [abs_div, abs_of_pos (by linarith : 0 < 1 + X 2 2), div_le_iff₀ (by linarith)]
      linarith
    refine ⟨R.add_err2 (δ := 1.453e-14) _ ?_ hb (by norm_num) (by norm_num), hb⟩
    have dp : 0 < fl (1 + r 2 2) := by have := abs_le.1 d1; linarith
    have dp' : 1.975 ≤ fl (1 + r 2 2) := by have := abs_le.1 d1; linarith
    have e : r 2 0 / fl (1 + r 2 2) - X 2 0 / (1 + X 2 2) = ((r 2 0 - X 2 0) - X 2 0 / (1 + X 2 2) * (fl (1 + r 2 2) - (1 + X 2 2))) / fl (1 + r 2 2) := by
      have : 1 + X 2 2 ≠ 0 := by linarith
      field_simp
      ring
    rw [e, abs_div, abs_of_pos dp, div_le_iff₀ dp]
    refine (abs_sub _ _).trans ?_
    have := mul_bd hb d1
    linarith
  obtain ⟨ax, bax⟩ := ax
  have m1 := R.mulB 7.4e-16 ax x0 bax bx (by norm_num) (by norm_num)
  have bm1 := mul_bd bax bx
  have xs := (R.subB 8.6e-16 (noerr 1) m1 o bm1 (by norm_num) (by norm_num)).1
  have bxs : |1 - X 2 0 / (1 + X 2 2) * X 2 0| ≤ 1.0004 := (abs_sub _ _).trans (by rw [abs_one]; linarith)
  have nax : |-fl (r 2 0 / fl (1 + r 2 2)) - -(X 2 0 / (1 + X 2 2))| ≤ 1.46e-14 := by rw [neg_sub_neg, abs_sub_comm]; exact ax
  have bnax : |-(X 2 0 / (1 + X 2 2))| ≤ 0.0126 := by rwa [abs_neg]
  have ys := R.mulB 7.4e-16 nax (hr 2 1) bnax b21 (by norm_num) (by norm_num)
  have bys := mul_bd bnax b21
  have zs : |-r 2 0 - -X 2 0| ≤ 2.83e-14 := by rw [neg_sub_neg, abs_sub_comm]; exact x0
  have bzs : |-X 2 0| ≤ 0.0248 := by rwa [abs_neg]
  have xsl : 0.9996 ≤ 1 - X 2 0 / (1 + X 2 2) * X 2 0 := by
    have := (abs_le.1 bm1).2
    norm_num at this ⊢; linarith
  unfold flEors eraEors
  dsimp only
  generalize fl (r 2 0 / fl (1 + r 2 2)) = a at *
  generalize X 2 0 / (1 + X 2 2) = A at *
  generalize fl (1 - fl (a * r 2 0)) = u at *
  generalize 1 - A * X 2 0 = U at *
  generalize fl (-a * r 2 1) = v at *
  generalize -A * X 2 1 = V at *
  generalize -r 2 0 = w at *
  generalize -X 2 0 = W at *
  have sum : ∀ (i : Fin 3), |fl (fl (fl (r i 0 * u) + fl (r i 1 * v)) + fl (r i 2 * w)) - (X i 0 * U + X i 1 * V + X i 2 * W)| ≤ 3.21e-14 ∨ i = 2 := by
    intro i
    fin_cases i
    · left
      show |fl (fl (fl (r 0 0 * u) + fl (r 0 1 * v)) + fl (r 0 2 * w)) - (X 0 0 * U + X 0 1 * V + X 0 2 * W)| ≤ _
      have t1 := R.mulB 2.94e-14 (hr 0 0) xs b00 bxs (by norm_num) (by norm_num)
      have t2 := R.mulB 1e-16 (hr 0 1) ys b01 bys (by norm_num) (by norm_num)
      have t3 := R.mulB 1.41e-15 (hr 0 2) zs b02 bzs (by norm_num) (by norm_num)
      obtain ⟨t4, b4⟩ := R.addB 2.97e-14 t1 t2 (mul_bd b00 bxs) (mul_bd b01 bys) (by norm_num) (by norm_num)
      exact (R.addB 3.21e-14 t4 t3 b4 (mul_bd b02 bzs) (by norm_num) (by norm_num)).1
    · left
      show |fl (fl (fl (r 1 0 * u) + fl (r 1 1 * v)) + fl (r 1 2 * w)) - (X 1 0 * U + X 1 1 * V + X 1 2 * W)| ≤ _
      have t1 := R.mulB 2.86e-14 (hr 1 0) xs b10 bxs (by norm_num) (by norm_num)
      have t2 := R.mulB 7.8e-16 (hr 1 1) ys b11 bys (by norm_num) (by norm_num)
      have t3 := R.mulB 1.41e-15 (hr 1 2) zs b12 bzs (by norm_num) (by norm_num)
      obtain ⟨t4, b4⟩ := R.addB 2.94e-14 t1 t2 (mul_bd b10 bxs) (mul_bd b11 bys) (by norm_num) (by norm_num)
      exact (R.addB 3.21e-14 t4 t3 b4 (mul_bd b12 bzs) (by norm_num) (by norm_num)).1
    · right; rfl
  have hp := (sum 0).resolve_right (by decide)
  have hq := (sum 1).resolve_right (by decide)
  have pl : 0.97 ≤ X 0 0 * U + X 0 1 * V + X 0 2 * W := by
    have c0 := hX 0 0
    rw [Matrix.one_apply_eq] at c0
    have c1 : 0.9752 * 0.9996 ≤ X 0 0 * U := mul_le_mul (by have := abs_le.1 c0; linarith) xsl (by norm_num) (by have := abs_le.1 c0; linarith)
    have c2 := abs_le.1 (mul_bd b01 bys)
    have c3 := abs_le.1 (mul_bd b02 bzs)
    norm_num at *; linarith
  have pu : |X 0 0 * U + X 0 1 * V + X 0 2 * W| ≤ 1.03 := by
    have c1 := abs_le.1 (mul_bd b00 bxs)
    have c2 := abs_le.1 (mul_bd b01 bys)
    have c3 := abs_le.1 (mul_bd b02 bzs)
    rw [abs_le]
    generalize X 0 0 * U = q1 at *
    generalize X 0 1 * V = q2 at *
    generalize X 0 2 * W = q3 at *
    clear * - c1 c2 c3
    constructor <;> norm_num at * <;> linarith
  have qu : |X 1 0 * U + X 1 1 * V + X 1 2 * W| ≤ 0.03 := by
    have c1 := abs_le.1 (mul_bd b10 bxs)
    have c2 := abs_le.1 (mul_bd b11 bys)
    have c3 := abs_le.1 (mul_bd b12 bzs)
    rw [abs_le]
    generalize X 1 0 * U = q1 at *
    generalize X 1 1 * V = q2 at *
    generalize X 1 2 * W = q3 at *
    clear * - c1 c2 c3
    constructor <;> norm_num at * <;> linarith
  generalize fl (fl (fl (r 0 0 * u) + fl (r 0 1 * v)) + fl (r 0 2 * w)) = p at *
  generalize fl (fl (fl (r 1 0 * u) + fl (r 1 1 * v)) + fl (r 1 2 * w)) = q at *
  generalize X 0 0 * U + X 0 1 * V + X 0 2 * W = P at *
  generalize X 1 0 * U + X 1 1 * V + X 1 2 * W = Q at *
  clear sum ax x0 m1 bm1 xs ys zs bys bxs bzs nax bnax xsl d0 d1 dl bax bx hr hX b
  have hp0 : p ≠ 0 := by have := abs_le.1 hp; intro h; rw [h] at this; norm_num at *; linarith
  have hP0 : P ≠ 0 := by linarith
  rw [if_pos (Or.inl hp0), if_pos (Or.inl hP0)]
  obtain ⟨T, t1, t2, t3, t4⟩ := flAtan2_spec hL nz q p (Or.inl hp0)
  obtain ⟨hPx, hQx⟩ : P = √(P * P + Q * Q) * cos (atan2 Q P) ∧ Q = √(P * P + Q * Q) * sin (atan2 Q P) := by
    exact ⟨(hyp_cos_atan2 Q P).symm, (hyp_sin_atan2 Q P).symm⟩
  have sρ : 0.97 ≤ √(P * P + Q * Q) := Real.le_sqrt_of_sq_le (by nlinarith [mul_self_nonneg Q])
  have s2 : √(P * P + Q * Q) ≤ 2 := by
    refine sqrt_le_iff.2 ⟨by norm_num, ?_⟩
    nlinarith [abs_le.1 pu, abs_le.1 qu]
  obtain ⟨k, hk⟩ := bearing_close hp hq (sqrt_nonneg _) s2 hPx.symm hQx.symm (sqrt_nonneg _) t2.symm t3.symm t1
  have hat : |flAtan2 L nz q p - (atan2 Q P + k * (2 * π))| ≤ 1.82e-13 := by
    have := mul_le_mul_of_nonneg_right sρ (abs_nonneg (flAtan2 L nz q p - (atan2 Q P + k * (2 * π))))
    norm_num at *; linarith
  have p4 := pi_lt_d4
  have tb : |flAtan2 L nz q p| ≤ 3.1417 := by have := close_range t1 t4; norm_num at *; linarith
  have σ0 := (abs_nonneg _).trans hs
  have sb : |s| ≤ 0.011 := by have := abs_sub_abs_le_abs_sub s S; linarith
  have er := R.add_err2 (B := 3.16) 3.6e-16 (noerr (s - flAtan2 L nz q p)) ((abs_sub _ _).trans (by linarith)) (by norm_num) (by norm_num)
  refine ⟨-k, ?_, ?_⟩
  · have e : fl (s - flAtan2 L nz q p) - (S - atan2 Q P + ((-k : ℤ) : ℝ) * (2 * π)) = (fl (s - flAtan2 L nz q p) - (s - flAtan2 L nz q p)) + (s - S) - (flAtan2 L nz q p - (atan2 Q P + k * (2 * π))) := by push_cast; ring
    rw [e]
    refine (abs_sub _ _).trans ?_
    have := abs_add_le (fl (s - flAtan2 L nz q p) - (s - flAtan2 L nz q p)) (s - S)
    linarith
  · have := abs_sub_abs_le_abs_sub (fl (s - flAtan2 L nz q p)) (s - flAtan2 L nz q p)
    have := abs_sub s (flAtan2 L nz q p)
    linarith

/-- Reduction to ±π of a number of at most 7. -/
theorem flAnpm_near (R : Rounding fl) {a : ℝ} (h : |a| ≤ 7) : (∃ k : ℤ, |flAnpm fl a - (a + k * (2 * π))| ≤ 1.5e-15) ∧ |flAnpm fl a| ≤ 3.2 := by
  have hD := flD2PI_eq R
  have hb := D2_b
  have hp := D2_pi
  obtain ⟨f1, -, f3, f4, f5⟩ := fmod_bounds a D2 (by linarith)
  have fe := (fmod_spec a (y := D2) (by linarith)).2.2.2
  have n1 : |((-(truncR (a / D2)) : ℤ) : ℝ)| ≤ 1.2 := by
    push_cast
    rw [abs_neg]
    by_contra c
    push Not at c
    have := mul_lt_mul_of_pos_right c (by linarith : 0 < D2)
    linarith
  generalize -(truncR (a / D2)) = n at *
  have nd : |fmod a D2 - (a + n * (2 * π))| ≤ 3e-16 := by
    rw [fe, show a + n * D2 - (a + n * (2 * π)) = -(n * (2 * π - D2)) by ring, abs_neg, abs_mul, abs_of_pos hp.1]
    have := mul_le_mul n1 hp.2.le hp.1.le (by norm_num)
    exact this.trans (by norm_num)
  have cp := R.cst 3.141592653589793238462643 (M := 3.15) (by norm_num) (by norm_num) (by norm_num)
  have c1 : 3.141592653 ≤ fl 3.141592653589793238462643 ∧ fl 3.141592653589793238462643 ≤ 3.15 := by
    have := abs_le.1 cp; constructor <;> norm_num at * <;> linarith
  unfold flAnpm
  dsimp only
  rw [hD]
  generalize fl 3.141592653589793238462643 = q at *
  by_cases g : |fmod a D2| ≥ q
  · rw [if_pos g]
    obtain ⟨m, hm, hl⟩ : ∃ m : ℤ, (fmod a D2 - if a < 0 then -D2 else D2) = fmod a D2 + m * D2 ∧ |(m : ℝ)| = 1 ∧ |fmod a D2 + m * D2| ≤ 3.15 := by
      by_cases s : a < 0
      · have := f4 s.le
        rw [abs_of_nonpos this] at g f1
        refine ⟨1, by rw [if_pos s]; push_cast; ring, by simp, ?_⟩
        rw [abs_le]; push_cast; constructor <;> linarith
      · have := f3 (not_lt.1 s)
        rw [abs_of_nonneg this] at g f1
        refine ⟨-1, by rw [if_neg s]; push_cast; ring, by simp, ?_⟩
        rw [abs_le]; push_cast; constructor <;> linarith
    rw [hm]
    have r := R.add_err2 3.6e-16 (noerr (fmod a D2 + m * D2)) hl.2 (by norm_num) (by norm_num)
    refine ⟨⟨n + m, ?_⟩, ?_⟩
    · have e : fl (fmod a D2 + m * D2) - (a + ((n + m : ℤ) : ℝ) * (2 * π)) = (fl (fmod a D2 + m * D2) - (fmod a D2 + m * D2)) + (fmod a D2 - (a + n * (2 * π))) - m * (2 * π - D2) := by push_cast; ring
      rw [e]
      have u : |(m : ℝ) * (2 * π - D2)| ≤ 2.45e-16 := by rw [abs_mul, hl.1, one_mul, abs_of_pos hp.1]; exact hp.2.le
      have := abs_sub ((fl (fmod a D2 + m * D2) - (fmod a D2 + m * D2)) + (fmod a D2 - (a + n * (2 * π)))) (m * (2 * π - D2))
      have := abs_add_le (fl (fmod a D2 + m * D2) - (fmod a D2 + m * D2)) (fmod a D2 - (a + n * (2 * π)))
      norm_num at *; linarith
    · have := abs_sub_abs_le_abs_sub (fl (fmod a D2 + m * D2)) (fmod a D2 + m * D2)
      have := hl.2
      norm_num at *; linarith
  · rw [if_neg g]
    push Not at g
    exact ⟨⟨n, nd.trans (by norm_num)⟩, by linarith [c1.2]⟩

/-- The Earth rotation angle of the date 0, only its range. -/
theorem flEra00_zero (R : Rounding fl) : |flEra00 fl 0 0| ≤ 6.29 := by
  have hb := D2_b
  have c1 := R.cst 0.7790572732640 (M := 0.78) (by norm_num) (by norm_num) (by norm_num)
  have c2 := R.cst 0.00273781191135448 (M := 0.00274) (by norm_num) (by norm_num) (by norm_num)
  have f0 : fmod (0 : ℝ) 1 = 0 := by have := (fmod_bounds 0 1 one_pos).2.1; rw [abs_zero] at this; exact abs_nonpos_iff.1 this
  have t0 := R.add_err2 (B := 2451545) 3e-10 (noerr ((0 : ℝ) - 2451545)) (by norm_num) (by norm_num) (by norm_num)
  have t1 := R.addB 6e-10 (MA := 0) (MB := 2451545) (noerr (0 : ℝ)) t0 (by norm_num) (by norm_num) (by norm_num) (by norm_num)
  have s0 := R.addB 1e-30 (MA := 0) (MB := 0) (noerr (0 : ℝ)) (noerr (0 : ℝ)) (by norm_num) (by norm_num) (by norm_num) (by norm_num)
  have s1 := R.addB 1e-10 s0.1 c1 s0.2 (by norm_num : |(0.7790572732640 : ℝ)| ≤ 0.78) (by norm_num) (by norm_num)
  have s2 := R.mulB 1e-10 c2 t1.1 (by norm_num : |(0.00273781191135448 : ℝ)| ≤ 0.00274) t1.2 (by norm_num) (by norm_num)
  have s3 := R.addB 1e-9 s1.1 s2 s1.2 (mul_bd (by norm_num : |(0.00273781191135448 : ℝ)| ≤ 0.00274) t1.2) (by norm_num) (by norm_num)
  have dd : |flD2PI fl - D2| ≤ 0 := by rw [flD2PI_eq R, sub_self, abs_zero]
  have d2 : |D2| ≤ 6.29 := by rw [abs_of_pos (by linarith)]; linarith
  have P := R.mulB 1e-7 dd s3.1 d2 s3.2 (by norm_num) (by norm_num)
  have Q := mul_bd d2 s3.2
  have eq : flEra00 fl 0 0 = flAnp fl (fl (flD2PI fl * fl (fl (fl (0 + 0) + fl 0.7790572732640) + fl (fl 0.00273781191135448 * fl (0 + fl ((0 : ℝ) - 2451545)))))) := by
    unfold flEra00
    dsimp only
    rw [if_neg (lt_irrefl _), f0]
  have sz : |flD2PI fl * fl (fl (fl (0 + 0) + fl 0.7790572732640) + fl (fl 0.00273781191135448 * fl (0 + fl ((0 : ℝ) - 2451545))))| ≤ 10 ^ 20 := by
    have u1 : |flD2PI fl| ≤ 7 := by rw [flD2PI_eq R]; linarith
    have u2 := abs_sub_abs_le_abs_sub (fl (fl (fl (0 + 0) + fl 0.7790572732640) + fl (fl 0.00273781191135448 * fl (0 + fl ((0 : ℝ) - 2451545))))) (0 + 0 + 0.7790572732640 + 0.00273781191135448 * (0 + (0 - 2451545)))
    refine (mul_bd u1 (MB := 10000) ?_).trans (by norm_num)
    have := s3.1; have := s3.2
    norm_num at *; linarith
  rw [eq]
  rcases flAnp_near R P Q (by norm_num) with ⟨v1, v2, -⟩ | v
  · rw [abs_of_nonneg v1]
    rw [flD2PI_eq R] at v2
    rw [flD2PI_eq R]
    linarith
  · exact absurd sz v

end Pal
