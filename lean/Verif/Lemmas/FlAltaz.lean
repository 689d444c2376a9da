import Verif.Model.FlAltaz
import Verif.Lemmas.Altaz
import Verif.Lemmas.FlAop
import Verif.Lemmas.FlRefr
import Verif.Props.FlBear
import Verif.Props.FlSphere
import Verif.Props.Altaz
import Verif.Props.FlPolmo

/-!
# palAltaz in double precision: error bounds
-/

namespace Pal
open Real Pal.Spec Pal.Props

variable {fl : ℝ → ℝ} {L : Libm}

theorem flAltazVec_eq (R : Rounding fl) (h d p : ℝ) :
    flAltazVec fl L h d p = ![fl (fl (fl (-L.cos h * L.cos d) * L.sin p) + fl (L.sin d * L.cos p)), fl (-L.sin h * L.cos d), fl (fl (fl (L.cos h * L.cos d) * L.cos p) + fl (L.sin d * L.sin p))] := by
  unfold flAltazVec
  dsimp only
  rw [neg_mul (L.cos h), R.odd]

/-- The square root of a double that is not zero does not round to zero. -/
theorem flSqrt_zero (R : Rounding fl) {x : ℝ} (hx : |x| ≤ 10 ^ 30) (h : fl (√(fl x)) = 0) (h0 : 0 ≤ fl x) : fl x = 0 := by
  have hb : (10 : ℝ) ^ 30 ≤ 2 ^ 1000 := calc
    (10 : ℝ) ^ 30 ≤ 2 ^ 100 := by norm_num
    _ ≤ 2 ^ 1000 := pow_le_pow_right₀ (by norm_num) (by norm_num)
  obtain ⟨m, e, hm, he, hr⟩ := R.rep x (hx.trans hb)
  by_contra hne
  have hpos : 0 < fl x := lt_of_le_of_ne h0 (Ne.symm hne)
  have p2 : (0 : ℝ) < 2 ^ e := by positivity
  have m1 : 1 ≤ m := by
    rw [hr] at hpos
    have : (0 : ℝ) < m := by
      by_contra hc
      push Not at hc
      nlinarith
    exact_mod_cast this
  have low : (2 : ℝ) ^ (-1074 : ℤ) ≤ fl x := by
    rw [hr]
    have : (2 : ℝ) ^ (-1074 : ℤ) ≤ 2 ^ e := zpow_le_zpow_right₀ (by norm_num) he
    have : (1 : ℝ) ≤ m := by exact_mod_cast m1
    nlinarith
  have hs : (2 : ℝ) ^ (-537 : ℤ) ≤ √(fl x) := by
    refine Real.le_sqrt_of_sq_le (le_trans (le_of_eq ?_) low)
    rw [← zpow_natCast, ← zpow_mul]; norm_num
  have k := R.keep 1 (-537) (by norm_num) (by norm_num) (by
    rw [Int.cast_one, abs_one, one_mul, ← zpow_natCast]
    exact zpow_le_zpow_right₀ (by norm_num) (by norm_num))
  rw [Int.cast_one, one_mul] at k
  have fb : fl x ≤ 10 ^ 31 := by
    have e1 := (abs_le.1 (R.err hx)).2
    have e2 := (abs_le.1 hx).2
    have h3 : (1 : ℝ) / 10 ^ 200 ≤ 1 := by norm_num
    have h4 : (10 : ℝ) ^ 31 = 10 * 10 ^ 30 := by norm_num
    have h5 : (1 : ℝ) ≤ 10 ^ 30 := by norm_num
    rw [h4]
    generalize (1 : ℝ) / 10 ^ 200 = q at *
    generalize (10 : ℝ) ^ 30 = b at *
    linarith
  have sb : √(fl x) ≤ 10 ^ 16 := by
    refine Real.sqrt_le_iff.2 ⟨by norm_num, fb.trans (by norm_num)⟩
  have hb2 : (10 : ℝ) ^ 16 ≤ 2 ^ 1000 := (by norm_num : (10 : ℝ) ^ 16 ≤ 10 ^ 30).trans hb
  have q0 : (0 : ℝ) < 2 ^ (-537 : ℤ) := by positivity
  have mo := R.mono _ _ (by rw [abs_of_pos q0]; exact (hs.trans sb).trans hb2) (by rw [abs_of_nonneg (Real.sqrt_nonneg _)]; exact sb.trans hb2) hs
  rw [k, h] at mo
  linarith

/-- Azimuth and elevation are those of palDe2h. -/
theorem flAltaz_de2h (R : Rounding fl) (hL : LibmOK L) (nz1 nz2 : Bool) (h d p : ℝ) :
    (flAltaz fl L nz1 nz2 h d p).az = (flDe2h fl L nz1 h d p).1 ∧ (flAltaz fl L nz1 nz2 h d p).el = (flDe2h fl L nz1 h d p).2 := by
  have he : ∀ i, |flAltazVec fl L h d p i - horizonVec h d p i| ≤ 1.64e-15 := by rw [flAltazVec_eq R]; exact horizon_err R hL h d p
  have e := flAltazVec_eq (L := L) R h d p
  have e0 := congrFun e 0
  have e1 := congrFun e 1
  have e2 := congrFun e 2
  simp only [Matrix.cons_val_zero, Matrix.cons_val_one, Matrix.cons_val] at e0 e1 e2
  have hb : ∀ i, |flAltazVec fl L h d p i| ≤ 2 := fun i => by
    have a := comp_le_len (horizonVec h d p) i
    rw [show len (horizonVec h d p) = 1 from horizon_len h d p] at a
    have b := abs_add_le (flAltazVec fl L h d p i - horizonVec h d p i) (horizonVec h d p i)
    rw [sub_add_cancel] at b
    have := he i
    norm_num at *; linarith
  unfold flAltaz flDe2h
  dsimp only
  rw [← e0, ← e1, ← e2]
  generalize flAltazVec fl L h d p = v at *
  refine ⟨?_, rfl⟩
  have hiff : fl (fl (v 0 * v 0) + fl (v 1 * v 1)) = 0 ↔ fl (√(fl (fl (v 0 * v 0) + fl (v 1 * v 1)))) = 0 := by
    constructor
    · intro h0; rw [h0, Real.sqrt_zero, R.zero]
    · intro h0
      have nn : ∀ i, 0 ≤ fl (v i * v i) := fun i => by
        have := R.mono 0 (v i * v i) (by simp) (le_trans (b := 2 ^ 2) (by rw [abs_mul]; nlinarith [hb i, abs_nonneg (v i)]) (pow_le_pow_right₀ (by norm_num) (by norm_num))) (mul_self_nonneg _)
        rwa [R.zero] at this
      have up : ∀ i, fl (v i * v i) ≤ 5 := fun i => by
        have q : |v i * v i| ≤ 4 := by rw [abs_mul]; nlinarith [hb i, abs_nonneg (v i)]
        have := (abs_le.1 (R.err (x := v i * v i) (q.trans (by norm_num)))).2
        have := (abs_le.1 q).2
        have h3 : (1 : ℝ) / 10 ^ 200 ≤ 0.1 := by norm_num
        generalize (1 : ℝ) / 10 ^ 200 = z at *
        linarith
      have hs : |fl (v 0 * v 0) + fl (v 1 * v 1)| ≤ 10 := by rw [abs_of_nonneg (add_nonneg (nn 0) (nn 1))]; linarith [up 0, up 1]
      refine flSqrt_zero R (hs.trans (by norm_num)) h0 ?_
      have := R.mono 0 (fl (v 0 * v 0) + fl (v 1 * v 1)) (by simp) (hs.trans (by
        calc (10 : ℝ) ≤ 2 ^ 4 := by norm_num
          _ ≤ 2 ^ 1000 := pow_le_pow_right₀ (by norm_num) (by norm_num))) (add_nonneg (nn 0) (nn 1))
      rwa [R.zero] at this
  by_cases h0 : fl (fl (v 0 * v 0) + fl (v 1 * v 1)) = 0
  · rw [if_pos h0, if_pos (hiff.1 h0)]
  · rw [if_neg h0, if_neg (fun hh => h0 (hiff.2 hh))]

/-- The distance from the zenith. -/
theorem flAltaz_base (R : Rounding fl) {p P : Vec3} {ρ w : ℝ} (hp : ∀ i, |p i - P i| ≤ 1.64e-15) (hP : dot P P = 1)
    (hρ : ρ = √(P 0 * P 0 + P 1 * P 1)) (r0 : 1e-6 ≤ ρ) (hw : w = 1 / ρ) :
    let rsq := fl (fl (p 0 * p 0) + fl (p 1 * p 1))
    let r := fl (√rsq)
    1e-13 ≤ rsq ∧ |rsq - ρ * ρ| ≤ 4.9e-15 * ρ ∧ Near (4.9e-15 * w) rsq (ρ * ρ) ∧ Near (5.1e-15 * w) r ρ ∧ 0 < ρ ∧ ρ ≤ 1 ∧ (∀ i, |P i| ≤ 1) ∧ |P 0| ≤ ρ ∧ |P 1| ≤ ρ := by
  intro rsq r
  rw [dot_eq] at hP
  have S0 : 0 ≤ P 0 * P 0 + P 1 * P 1 := add_nonneg (mul_self_nonneg _) (mul_self_nonneg _)
  have hsq : ρ * ρ = P 0 * P 0 + P 1 * P 1 := by rw [hρ]; exact Real.mul_self_sqrt S0
  have rp : 0 < ρ := lt_of_lt_of_le (by norm_num) r0
  have r1 : ρ ≤ 1 := by nlinarith [mul_self_nonneg (P 2)]
  have b1 : ∀ i, |P i| ≤ 1 := fun i => by
    have := comp_le_len P i
    rwa [len_one (by rw [dot_eq]; exact hP)] at this
  have bρ : ∀ i, i = 0 ∨ i = 1 → |P i| ≤ ρ := by
    intro i hi
    rw [hρ]
    refine Real.le_sqrt_of_sq_le ?_
    rw [sq_abs]
    rcases hi with rfl | rfl <;> nlinarith [mul_self_nonneg (P 0), mul_self_nonneg (P 1)]
  have sum : |P 0| + |P 1| ≤ 1.41422 * ρ := by
    have := sq_abs (P 0)
    have := sq_abs (P 1)
    refine le_of_sq_le_sq' ?_ (by positivity)
    nlinarith [sq_nonneg (|P 0| - |P 1|)]
  have bp : ∀ i, |p i| ≤ 1.1 := fun i => by
    have := abs_add_le (p i - P i) (P i)
    rw [sub_add_cancel] at this
    have := hp i
    have := b1 i
    norm_num at *; linarith
  have sqd : ∀ i, |p i * p i - P i * P i| ≤ 1.64e-15 * (2 * |P i| + 1.64e-15) := fun i => by
    rw [show p i * p i - P i * P i = (p i - P i) * (2 * P i + (p i - P i)) by ring, abs_mul]
    have : |2 * P i + (p i - P i)| ≤ 2 * |P i| + 1.64e-15 := by
      have := abs_add_le (2 * P i) (p i - P i)
      rw [abs_mul, abs_of_pos (by norm_num : (0 : ℝ) < 2)] at this
      have := hp i
      linarith
    exact mul_le_mul (hp i) this (abs_nonneg _) (by norm_num)
  have rr := fl_sumsq R (p 0) (p 1) ((bp 0).trans (by norm_num)) ((bp 1).trans (by norm_num))
  have D : |rsq - ρ * ρ| ≤ 4.9e-15 * ρ := by
    have t1 := sqd 0
    have t2 := sqd 1
    have t3 := abs_add_le (p 0 * p 0 - P 0 * P 0) (p 1 * p 1 - P 1 * P 1)
    have t4 := abs_sub_le rsq (p 0 * p 0 + p 1 * p 1) (ρ * ρ)
    have t5 : p 0 * p 0 + p 1 * p 1 - ρ * ρ = p 0 * p 0 - P 0 * P 0 + (p 1 * p 1 - P 1 * P 1) := by rw [hsq]; ring
    have t6 : |p 0 * p 0 + p 1 * p 1 - ρ * ρ| ≤ 4.65e-15 * ρ := by rw [t5]; norm_num at *; linarith
    have t7 := (abs_le.1 t6).2
    have t8 : ρ * ρ ≤ ρ := by nlinarith
    have t9 : |rsq - (p 0 * p 0 + p 1 * p 1)| ≤ 2.3e-16 * (p 0 * p 0 + p 1 * p 1) + 4 / 10 ^ 200 := rr
    have z : (4 : ℝ) / 10 ^ 200 ≤ 1e-40 := by norm_num
    generalize (4 : ℝ) / 10 ^ 200 = q at *
    clear_value rsq
    norm_num at *; linarith
  have wr : ρ * w = 1 := by rw [hw]; field_simp
  have w1 : 1 ≤ w := by rw [hw, le_div_iff₀ rp]; linarith
  have w6 : w ≤ 1000000 := by rw [hw, div_le_iff₀ rp]; have := r0; norm_num at this; linarith
  have w0 : 0 < w := by linarith
  have rw2 : ρ * w ^ 2 = w := by rw [pow_two, ← mul_assoc, wr, one_mul]
  have d1 : w ≤ w ^ 2 := by nlinarith only [w1]
  have d2 : w ^ 2 ≤ w ^ 3 := by rw [pow_succ w 2]; nlinarith only [w1, w6, sq_nonneg w]
  have d3 : w ^ 3 ≤ 1000000 * w ^ 2 := by rw [pow_succ w 2]; nlinarith only [w1, w6, sq_nonneg w]
  have d4 : w ^ 4 ≤ 1000000 * w ^ 3 := by rw [pow_succ w 3]; nlinarith only [w1, w6, pow_pos w0 3]
  have d5 : w ^ 5 ≤ 1000000 * w ^ 4 := by rw [pow_succ w 4]; nlinarith only [w1, w6, pow_pos w0 4]
  have d6 : w ^ 2 ≤ 1000000 * w := by nlinarith only [w0, w6]
  have n1 : Near (4.9e-15 * w) rsq (ρ * ρ) := by
    refine ⟨by positivity, by positivity, by norm_num; linarith only [w1, w6, d1, d2, d3, d4, d5, d6], D.trans (le_of_eq ?_)⟩
    linear_combination (-4.9e-15 * ρ) * wr
  have n2 : Near (5.1e-15 * w) r ρ := by
    have a := n1.sqrt
    rw [Real.sqrt_mul_self rp.le] at a
    exact a.fl R _ (le_trans (by norm_num : (1 : ℝ) / 10 ^ 90 ≤ 1e-6) r0) (r1.trans (by norm_num)) (by norm_num; linarith only [w1, w6, d1, d2, d3, d4, d5, d6]) (by norm_num; linarith only [w1, w6, d1, d2, d3, d4, d5, d6])
  have low : 1e-13 ≤ rsq := by
    have q1 := (abs_le.1 D).1
    have q2 : 1e-6 * 1e-6 ≤ ρ * ρ := by nlinarith
    have q := r1
    clear_value rsq
    generalize ρ * ρ = g at *
    clear * - q1 q2 q
    norm_num at *; linarith
  exact ⟨low, D, n1, n2, rp, r1, b1, bρ 0 (Or.inl rfl), bρ 1 (Or.inr rfl)⟩

set_option maxHeartbeats 1000000 in
/-- The rates. -/
theorem flAltaz_rates (R : Rounding fl) {x y z X Y Z rsq r s S c C ρ w qd ad ed edr QD AD ED : ℝ} (ex : |x - X| ≤ 1.64e-15) (ey : |y - Y| ≤ 1.64e-15) (ez0 : |z - Z| ≤ 1.64e-15) (hs : |s - S| ≤ 2.3e-16) (hc : |c - C| ≤ 2.3e-16)
    (bS : |S| ≤ 1) (bC : |C| ≤ 1) (b1x : |X| ≤ 1) (b1y : |Y| ≤ 1) (b1z : |Z| ≤ 1) (bx : |X| ≤ ρ) (by' : |Y| ≤ ρ) (D : |rsq - ρ * ρ| ≤ 4.9e-15 * ρ) (n1 : Near (4.9e-15 * w) rsq (ρ * ρ)) (n2 : Near (5.1e-15 * w) r ρ)
    (rp : 0 < ρ) (r1 : ρ ≤ 1) (r0 : 1e-6 ≤ ρ) (hw : w = 1 / ρ)
    (hqd : qd = fl (fl (-x * c) / rsq)) (had : ad = fl (s + fl (z * qd))) (hed : ed = fl (fl (c * y) / r)) (hedr : edr = fl (ed / r))
    (hQD : QD = -X * C / (ρ * ρ)) (hAD : AD = S + Z * QD) (hED : ED = C * Y / ρ) :
    |qd - QD| ≤ 8e-15 * w ^ 2 ∧ |ad - AD| ≤ 1.1e-14 * w ^ 2 ∧ |ed - ED| ≤ 8e-15 * w ∧
    |fl (edr * fl (fl (z * s) + fl (fl (2 - rsq) * qd))) - ED / ρ * (Z * S + (2 - ρ * ρ) * QD)| ≤ 8e-14 * w ^ 3 ∧
    |fl (fl (-r * qd) * ad) - -ρ * QD * AD| ≤ 4.5e-14 * w ^ 2 ∧
    |fl (edr * fl (s + fl (fl (2 * z) * qd))) - ED / ρ * (S + 2 * Z * QD)| ≤ 8e-14 * w ^ 3 := by
  have wr : ρ * w = 1 := by rw [hw]; field_simp
  have w1 : 1 ≤ w := by rw [hw, le_div_iff₀ rp]; linarith
  have w6 : w ≤ 1000000 := by rw [hw, div_le_iff₀ rp]; norm_num at r0; linarith
  have w0 : 0 < w := by linarith
  have rw2 : ρ * w ^ 2 = w := by rw [pow_two, ← mul_assoc, wr, one_mul]
  have d1 : w ≤ w ^ 2 := by nlinarith only [w1]
  have d2 : w ^ 2 ≤ w ^ 3 := by rw [pow_succ w 2]; nlinarith only [w1, w6, sq_nonneg w]
  have d3 : w ^ 3 ≤ 1000000 * w ^ 2 := by rw [pow_succ w 2]; nlinarith only [w1, w6, sq_nonneg w]
  have d4 : w ^ 4 ≤ 1000000 * w ^ 3 := by rw [pow_succ w 3]; nlinarith only [w1, w6, pow_pos w0 3]
  have d5 : w ^ 5 ≤ 1000000 * w ^ 4 := by rw [pow_succ w 4]; nlinarith only [w1, w6, pow_pos w0 4]
  have d6 : w ^ 2 ≤ 1000000 * w := by nlinarith only [w0, w6]
  have m1 : ∀ {A B : ℝ}, |A| ≤ 1 → |B| ≤ ρ → |A * B| ≤ ρ := fun {A B} h h' => by
    rw [abs_mul]; calc |A| * |B| ≤ 1 * ρ := mul_le_mul h h' (abs_nonneg _) zero_le_one
      _ = ρ := one_mul _
  -- the numerators
  have N1 : |fl (-x * c) - -X * C| ≤ 2e-15 := R.mulB _ (neg_err ex) hc ((abs_neg _).trans_le b1x) bC (by norm_num) (by norm_num)
  have N2 : |fl (c * y) - C * Y| ≤ 2e-15 := R.mulB _ hc ey bC b1y (by norm_num) (by norm_num)
  have B1 : |-X * C| ≤ ρ := by rw [mul_comm]; exact m1 bC ((abs_neg _).trans_le bx)
  have B2 : |C * Y| ≤ ρ := m1 bC by'
  have bQ : |QD| ≤ w := by
    rw [hQD, abs_div, abs_of_pos (mul_pos rp rp), div_le_iff₀ (mul_pos rp rp)]
    calc |-X * C| ≤ ρ := B1
      _ = w * (ρ * ρ) := by linear_combination (-ρ) * wr
  have bE : |ED| ≤ 1 := by
    rw [hED, abs_div, abs_of_pos rp, div_le_one rp]; exact B2
  have inv : ∀ x : ℝ, x / ρ = x * w := fun x => by rw [hw]; field_simp
  have inv2 : ∀ x : ℝ, x / (ρ * ρ) = x * w ^ 2 := fun x => by rw [hw]; field_simp
  have eq : |qd - QD| ≤ 8e-15 * w ^ 2 := by
    rw [hqd, hQD]
    refine R.divN _ N1 n1 (mul_pos rp rp) le_rfl (hQD ▸ bQ) ?_ ?_
    · rw [inv2]; norm_num; linarith only [w1, w6, d1, d2, d3, d4, d5, d6]
    · rw [inv2]; norm_num; linarith only [w1, w6, d1, d2, d3, d4, d5, d6]
  have ee : |ed - ED| ≤ 8e-15 * w := by
    rw [hed, hED]
    refine R.divN _ N2 n2 rp le_rfl (hED ▸ bE) ?_ ?_
    · rw [inv]; norm_num; linarith only [w1, w6, d1, d2, d3, d4, d5, d6]
    · rw [inv]; norm_num; linarith only [w1, w6, d1, d2, d3, d4, d5, d6]
  have bEr : |ED / ρ| ≤ w := by
    rw [abs_div, abs_of_pos rp, inv]; exact mul_le_of_le_one_left w0.le bE
  have er : |edr - ED / ρ| ≤ 1.4e-14 * w ^ 2 := by
    rw [hedr]
    refine R.divN _ ee n2 rp le_rfl bEr ?_ ?_
    · rw [inv]; norm_num; linarith only [w1, w6, d1, d2, d3, d4, d5, d6]
    · rw [inv]; norm_num; linarith only [w1, w6, d1, d2, d3, d4, d5, d6]
  have ez : |fl (z * qd) - Z * QD| ≤ 1e-14 * w ^ 2 := R.mulB _ ez0 eq b1z bQ (by norm_num; linarith only [w1, w6, d1, d2, d3, d4, d5, d6]) (by norm_num; linarith only [w1, w6, d1, d2, d3, d4, d5, d6])
  have bZ : |Z * QD| ≤ w := by
    rw [abs_mul]; calc |Z| * |QD| ≤ 1 * w := mul_le_mul b1z bQ (abs_nonneg _) zero_le_one
      _ = w := one_mul _
  have ea := R.addB (1.1e-14 * w ^ 2) hs ez bS bZ (by norm_num; linarith only [w1, w6, d1, d2, d3, d4, d5, d6]) (by norm_num; linarith only [w1, w6, d1, d2, d3, d4, d5, d6])
  have bz : |Z * S| ≤ 1 := by rw [abs_mul]; exact mul_le_one₀ b1z (abs_nonneg _) bS
  have ezs : |fl (z * s) - Z * S| ≤ 2e-15 := R.mulB _ ez0 hs b1z bS (by norm_num) (by norm_num)
  have rr1 : ρ * ρ ≤ 1 := by nlinarith only [rp, r1]
  have e2 := R.subB (a := 2) (A := 2) (α := 0) (MA := 2) (MB := 1) 5.4e-15 (by simp) (D.trans (by linarith : 4.9e-15 * ρ ≤ 4.9e-15)) (by norm_num) (by rw [abs_of_pos (mul_pos rp rp)]; exact rr1) (by norm_num) (by norm_num)
  have b2 : |2 - ρ * ρ| ≤ 2 := by rw [abs_le]; constructor <;> nlinarith only [rp, r1]
  have e2q : |fl (fl (2 - rsq) * qd) - (2 - ρ * ρ) * QD| ≤ 2.2e-14 * w ^ 2 := R.mulB _ e2.1 eq b2 bQ (by norm_num; linarith only [w1, w6, d1, d2, d3, d4, d5, d6]) (by norm_num; linarith only [w1, w6, d1, d2, d3, d4, d5, d6])
  have b2q : |(2 - ρ * ρ) * QD| ≤ 2 * w := by rw [abs_mul]; exact mul_le_mul b2 bQ (abs_nonneg _) (by norm_num)
  have ei := R.addB (2.5e-14 * w ^ 2) ezs e2q bz b2q (by norm_num; linarith only [w1, w6, d1, d2, d3, d4, d5, d6]) (by norm_num; linarith only [w1, w6, d1, d2, d3, d4, d5, d6])
  have ei2 := ei.2.trans (by linarith only [w1] : 1 + 2 * w ≤ 3 * w)
  have bρ' : |ρ| ≤ ρ := (abs_of_pos rp).le
  have er' : |r - ρ| ≤ 5.1e-15 := n2.err.trans (le_of_eq (by linear_combination 5.1e-15 * wr))
  have erq : |fl (-r * qd) - -ρ * QD| ≤ 1.35e-14 * w := R.mulB _ (neg_err er') eq ((abs_neg _).trans_le bρ') bQ (by norm_num; nlinarith only [w1, w6, d1, d2, d6, wr, rw2, rp, r1]) (by norm_num; nlinarith only [w1, w6, d1, d2, d6, wr, rw2, rp, r1])
  have brq : |-ρ * QD| ≤ 1 := by
    rw [abs_mul, abs_neg, abs_of_pos rp, ← wr]; exact mul_le_mul_of_nonneg_left bQ rp.le
  have e22 : |fl (2 * z) - 2 * Z| ≤ 3.6e-15 := R.mulB (a := 2) (A := 2) (α := 0) (MA := 2) _ (by simp) ez0 (by norm_num) b1z (by norm_num) (by norm_num)
  have b22 : |2 * Z| ≤ 2 := by rw [abs_mul, abs_of_pos (by norm_num : (0 : ℝ) < 2)]; linarith [b1z]
  have e2z : |fl (fl (2 * z) * qd) - 2 * Z * QD| ≤ 2e-14 * w ^ 2 := R.mulB _ e22 eq b22 bQ (by norm_num; linarith only [w1, w6, d1, d2, d3, d4, d5, d6]) (by norm_num; linarith only [w1, w6, d1, d2, d3, d4, d5, d6])
  have b2z : |2 * Z * QD| ≤ 2 * w := by rw [abs_mul]; exact mul_le_mul b22 bQ (abs_nonneg _) (by norm_num)
  have ej := R.addB (2.1e-14 * w ^ 2) hs e2z bS b2z (by norm_num; linarith only [w1, w6, d1, d2, d3, d4, d5, d6]) (by norm_num; linarith only [w1, w6, d1, d2, d3, d4, d5, d6])
  have ej2 := ej.2.trans (by linarith only [w1] : 1 + 2 * w ≤ 3 * w)
  rw [← had, ← hAD] at ea
  refine ⟨eq, ea.1, ee, ?_, ?_, ?_⟩
  · exact R.mulB _ er ei.1 bEr ei2 (by norm_num; linarith only [w1, w6, d1, d2, d3, d4, d5, d6]) (by norm_num; linarith only [w1, w6, d1, d2, d3, d4, d5, d6])
  · exact R.mulB _ erq ea.1 brq (ea.2.trans (by linarith only [w1] : 1 + w ≤ 2 * w)) (by norm_num; linarith only [w1, w6, d1, d2, d3, d4, d5, d6]) (by norm_num; linarith only [w1, w6, d1, d2, d3, d4, d5, d6])
  · exact R.mulB _ er ej.1 bEr ej2 (by norm_num; linarith only [w1, w6, d1, d2, d3, d4, d5, d6]) (by norm_num; linarith only [w1, w6, d1, d2, d3, d4, d5, d6])


/-- The parallactic angle. -/
theorem flAltaz_pa (R : Rounding fl) (hL : LibmOK L) (nz2 : Bool) (h d p g q : ℝ) (g0 : 0 ≤ g) (g1 : g ≤ 1) (hc : g * cos q = azC d p h) (hs : g * sin q = azS p h) :
    let c := fl (fl (L.cos d * L.sin p) - fl (L.cos h * fl (L.sin d * L.cos p)))
    let s := fl (L.sin h * L.cos p)
    let o := if fl (fl (c * c) + fl (s * s)) > 0 then flAtan2 L nz2 s c else fl (flPalPI fl - h)
    (∃ k : ℤ, g * |o - (q + k * (2 * π))| ≤ 1e-14) ∧ (1e-6 ≤ g → |o| ≤ π + 4.5e-16) := by
  intro c s o
  have mm : ∀ x y : ℝ, |sin x * cos y| ≤ 1 := fun x y => by rw [abs_mul]; exact mul_le_one₀ (abs_sin_le_one _) (abs_nonneg _) (abs_cos_le_one _)
  have a1 : |fl (L.cos d * L.sin p) - cos d * sin p| ≤ 5.72e-16 := R.mul _ (hL.cos _) (hL.sin _) (abs_cos_le_one _) (abs_sin_le_one _) (by norm_num) (by norm_num) (by norm_num)
  have a2 : |fl (L.sin d * L.cos p) - sin d * cos p| ≤ 5.72e-16 := R.mul _ (hL.sin _) (hL.cos _) (abs_sin_le_one _) (abs_cos_le_one _) (by norm_num) (by norm_num) (by norm_num)
  have a3 : |fl (L.cos h * fl (L.sin d * L.cos p)) - cos h * (sin d * cos p)| ≤ 9.14e-16 := R.mul _ (hL.cos _) a2 (abs_cos_le_one _) (mm _ _) (by norm_num) (by norm_num) (by norm_num)
  have bc : |cos d * sin p - cos h * (sin d * cos p)| ≤ 1 := by
    have e : cos d * sin p - cos h * (sin d * cos p) = g * cos q := by rw [hc]; rfl
    rw [e, abs_mul, abs_of_nonneg g0]; exact mul_le_one₀ g1 (abs_nonneg _) (abs_cos_le_one _)
  have ec : |c - azC d p h| ≤ 1.6e-15 := sub_err R _ a1 a3 bc (by norm_num) (by norm_num) (by norm_num)
  have es : |s - azS p h| ≤ 5.72e-16 := R.mul _ (hL.sin _) (hL.cos _) (abs_sin_le_one _) (abs_cos_le_one _) (by norm_num) (by norm_num) (by norm_num)
  have es' := es.trans (by norm_num : (5.72e-16 : ℝ) ≤ 1.6e-15)
  have cs := sin_sq_add_cos_sq q
  by_cases h0 : fl (fl (c * c) + fl (s * s)) > 0
  · have ho : o = flAtan2 L nz2 s c := if_pos h0
    have hne : c ≠ 0 ∨ s ≠ 0 := by
      by_contra hh
      push Not at hh
      rw [hh.1, hh.2, mul_zero, R.zero, add_zero, R.zero] at h0
      exact lt_irrefl _ h0
    obtain ⟨T, t1, t2, t3, t4⟩ := flAtan2_spec hL nz2 s c hne
    rw [ho]
    refine ⟨?_, fun _ => close_range t1 t4⟩
    obtain ⟨k, hk⟩ := bearing_close ec es' g0 (g1.trans one_le_two) hc hs (Real.sqrt_nonneg _) t2.symm t3.symm t1
    exact ⟨k, hk.trans (by norm_num)⟩
  · have bb : ∀ x X : ℝ, |X| ≤ 1 → |x - X| ≤ 1.6e-15 → |x| ≤ 10 ^ 14 := fun x X h1 h2 => by
      have := abs_add_le (x - X) X
      rw [sub_add_cancel] at this
      norm_num at *; linarith
    have bs : |azS p h| ≤ 1 := mm _ _
    have sq := fl_sumsq R c s (bb _ _ bc ec) (bb _ _ bs es')
    have small : c * c + s * s ≤ 1e-190 := by
      have := (abs_le.1 sq).1
      have z : (4 : ℝ) / 10 ^ 200 ≤ 4e-200 := by norm_num
      push Not at h0
      generalize (4 : ℝ) / 10 ^ 200 = y at *
      generalize fl (fl (c * c) + fl (s * s)) = f at *
      generalize c * c + s * s = t at *
      clear * - this z h0
      norm_num at *; linarith
    have gs : g ≤ 2.5e-15 := by
      have l1 : |c| ≤ 1e-90 := by
        refine abs_le_of_sq_le_sq ?_ (by norm_num)
        nlinarith only [small, mul_self_nonneg s]
      have l2 : |s| ≤ 1e-90 := by
        refine abs_le_of_sq_le_sq ?_ (by norm_num)
        nlinarith only [small, mul_self_nonneg c]
      have k1 : |azC d p h| ≤ 1.601e-15 := by
        have := abs_add_le (azC d p h - c) c
        rw [sub_add_cancel, abs_sub_comm] at this
        clear * - this l1 ec
        norm_num at *; linarith
      have k2 : |azS p h| ≤ 1.601e-15 := by
        have := abs_add_le (azS p h - s) s
        rw [sub_add_cancel, abs_sub_comm] at this
        clear * - this l2 es'
        norm_num at *; linarith
      have e : g ^ 2 = azC d p h ^ 2 + azS p h ^ 2 := by rw [← hc, ← hs]; linear_combination (-g ^ 2) * cs
      have j1 := sq_le_sq' (abs_le.1 k1).1 (abs_le.1 k1).2
      have j2 := sq_le_sq' (abs_le.1 k2).1 (abs_le.1 k2).2
      refine le_of_sq_le_sq' ?_ (by norm_num)
      rw [e]
      refine (add_le_add j1 j2).trans (by norm_num)
    refine ⟨⟨round ((o - q) / (2 * π)), ?_⟩, fun hg => absurd hg ?_⟩
    · have hr := abs_sub_round ((o - q) / (2 * π))
      have p0 := pi_pos
      have p4 := pi_lt_d4
      have e : o - (q + round ((o - q) / (2 * π)) * (2 * π)) = ((o - q) / (2 * π) - round ((o - q) / (2 * π))) * (2 * π) := by field_simp; ring
      rw [e, abs_mul, abs_of_pos (by positivity : (0 : ℝ) < 2 * π)]
      have y0 := abs_nonneg ((o - q) / (2 * π) - round ((o - q) / (2 * π)))
      generalize |(o - q) / (2 * π) - round ((o - q) / (2 * π))| = y at *
      have y1 : y * (2 * π) ≤ 3.1416 := by nlinarith only [hr, p0, p4]
      calc g * (y * (2 * π)) ≤ 2.5e-15 * 3.1416 := mul_le_mul gs y1 (mul_nonneg y0 (by positivity)) (by norm_num)
        _ ≤ 1e-14 := by norm_num
    · norm_num at *; linarith

end Pal
