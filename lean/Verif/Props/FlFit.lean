import Verif.Lemmas.FlFit
import Verif.Lemmas.FlAngle

/-!
# Plate models in double precision

The reference is the model over an ordered field, whose own meaning is C24 (`palXy2xy`, `palInvf`).
-/

namespace Pal.Props
open Pal

/-- C127: palXy2xy in double precision: each coordinate is that of exact arithmetic to 3 units of rounding of the sum of the magnitudes of its three terms. -/
theorem C127_xy2xy {fl : ℝ → ℝ} (R : Rounding fl) (c : Fin 6 → ℝ) (x y : ℝ) (hc : ∀ i, |c i| ≤ 10 ^ 100) (hx : |x| ≤ 10 ^ 100) (hy : |y| ≤ 10 ^ 100) :
    |(flXy2xy fl x y c).1 - (palXy2xy x y c).1| ≤ 3.34e-16 * (|c 0| + |c 1 * x| + |c 2 * y|) + 1 / 10 ^ 199 ∧
    |(flXy2xy fl x y c).2 - (palXy2xy x y c).2| ≤ 3.34e-16 * (|c 3| + |c 4 * x| + |c 5 * y|) + 1 / 10 ^ 199 := by
  have m : ∀ i z, |z| ≤ (10 : ℝ) ^ 100 → |c i * z| ≤ 10 ^ 240 := fun i z hz => by
    rw [abs_mul]
    exact (mul_le_mul (hc i) hz (abs_nonneg _) (by norm_num)).trans (by norm_num)
  have b : ∀ i, |c i| ≤ (10 : ℝ) ^ 240 := fun i => (hc i).trans (by norm_num)
  have h1 := flLin_err R (c 0) (c 1) (c 2) x y (b _) (m _ _ hx) (m _ _ hy)
  have h2 := flLin_err R (c 3) (c 4) (c 5) x y (b _) (m _ _ hx) (m _ _ hy)
  have e : ∀ S : ℝ, 0 ≤ S → 3.3312e-16 * S + 1 / 10 ^ 199 ≤ 3.34e-16 * S + 1 / 10 ^ 199 := fun S hS => by
    have := mul_le_mul_of_nonneg_right (by norm_num : (3.3312e-16 : ℝ) ≤ 3.34e-16) hS
    linarith
  exact ⟨h1.trans (e _ (by positivity)), h2.trans (e _ (by positivity))⟩

/-- C127: palInvf in double precision reports status -1, and leaves the output alone, for every model without inverse. -/
theorem C127_singular {fl : ℝ → ℝ} (R : Rounding fl) (c old : Fin 6 → ℝ) (h : c 1 * c 5 = c 2 * c 4) : flInvf fl c old = (-1, old) := by
  unfold flInvf
  dsimp only
  rw [h, sub_self, R.zero, if_neg (by simp)]

set_option exponentiation.threshold 1100 in
/-- C127: the converse fails: two models made of doubles that have an inverse, one with coefficients all close to 1 and one a plain change of scale, for which palInvf reports that there is none. -/
theorem C127_missed {fl : ℝ → ℝ} (R : Rounding fl) (old : Fin 6 → ℝ) :
    (∃ c : Fin 6 → ℝ, (∀ i, fl (c i) = c i) ∧ (∀ i, |c i| ≤ 1.1) ∧ c 1 * c 5 - c 2 * c 4 ≠ 0 ∧ flInvf fl c old = (-1, old)) ∧
    (∃ c : Fin 6 → ℝ, (∀ i, fl (c i) = c i) ∧ c 1 = c 5 ∧ c 2 = 0 ∧ c 4 = 0 ∧ 0 < c 1 ∧ flInvf fl c old = (-1, old)) := by
  constructor
  · have k1 : fl (1 + 1 / 2 ^ 52) = 1 + 1 / 2 ^ 52 := by
      have := R.keep (2 ^ 52 + 1) (-52) (by norm_num) (by norm_num) (by norm_num)
      norm_num at this ⊢; exact this
    have k2 : fl (1 + 1 / 2 ^ 51) = 1 + 1 / 2 ^ 51 := by
      have := R.keep (2 ^ 51 + 1) (-51) (by norm_num) (by norm_num) (by norm_num)
      norm_num at this ⊢; exact this
    have k3 : fl 1 = 1 := by exact_mod_cast R.int 1 (by norm_num)
    have k4 : fl ((1 + 1 / 2 ^ 52) * (1 + 1 / 2 ^ 52)) = 1 + 1 / 2 ^ 51 := by
      rw [R.eq_best ((1 + 1 / 2 ^ 52) * (1 + 1 / 2 ^ 52)) (2 ^ 52 + 2) (-52) (by norm_num [abs_le]) (by norm_num) (by norm_num) (by norm_num) (by norm_num [abs_lt])]
      norm_num
    refine ⟨![0, 1 + 1 / 2 ^ 52, 1 + 1 / 2 ^ 51, 0, 1, 1 + 1 / 2 ^ 52], ?_, ?_, ?_, ?_⟩
    · intro i; fin_cases i
      · exact R.zero
      · exact k1
      · exact k2
      · exact R.zero
      · exact k3
      · exact k1
    · intro i; fin_cases i <;> norm_num [abs_le]
    · show (1 + 1 / 2 ^ 52 : ℝ) * (1 + 1 / 2 ^ 52) - (1 + 1 / 2 ^ 51) * 1 ≠ 0
      norm_num
    · have d : fl (fl ((1 + 1 / 2 ^ 52) * (1 + 1 / 2 ^ 52)) - fl ((1 + 1 / 2 ^ 51) * 1)) = 0 := by rw [k4, mul_one, k2, sub_self, R.zero]
      unfold flInvf
      dsimp only
      exact if_neg (not_not.2 d)
  · have k1 : fl (2 ^ (-600 : ℤ)) = 2 ^ (-600 : ℤ) := by
      have := R.keep 1 (-600) (by norm_num) (by norm_num) (by
        rw [Int.cast_one, abs_one, one_mul]
        exact (zpow_le_zpow_right₀ (by norm_num : (1 : ℝ) ≤ 2) (by norm_num : (-600 : ℤ) ≤ 0)).trans (by rw [zpow_zero]; exact one_le_pow₀ (by norm_num)))
      rwa [Int.cast_one, one_mul] at this
    have k2 : fl ((2 : ℝ) ^ (-600 : ℤ) * 2 ^ (-600 : ℤ)) = 0 := by
      have e : (2 : ℝ) ^ (-600 : ℤ) * 2 ^ (-600 : ℤ) = 2 ^ (-1200 : ℤ) := by rw [← zpow_add₀ (by norm_num)]; norm_num
      rw [e]
      have xp : (0 : ℝ) < 2 ^ (-1200 : ℤ) := by positivity
      have x1 : (2 : ℝ) ^ (-1200 : ℤ) ≤ 2 ^ 1000 := by
        have : (2 : ℝ) ^ (-1200 : ℤ) ≤ 2 ^ (1000 : ℤ) := zpow_le_zpow_right₀ (by norm_num) (by norm_num)
        exact_mod_cast this
      have hx : |(2 : ℝ) ^ (-1200 : ℤ)| ≤ 2 ^ 1000 := by rw [abs_of_pos xp]; exact x1
      obtain ⟨m, e, hm, he, h⟩ := R.rep _ hx
      have b := R.best _ hx 0 0 (by norm_num) (by norm_num)
      rw [h, Int.cast_zero, zero_mul, zero_sub, abs_neg, abs_of_pos xp] at b
      rw [h]
      by_contra hne
      have m0 : m ≠ 0 := fun h0 => hne (by rw [h0]; simp)
      have m1 : (1 : ℝ) ≤ |(m : ℝ)| := by exact_mod_cast Int.one_le_abs m0
      have ep : (2 : ℝ) ^ (-1074 : ℤ) ≤ 2 ^ e := zpow_le_zpow_right₀ (by norm_num) he
      have big : (2 : ℝ) ^ (-1074 : ℤ) ≤ |(m : ℝ) * 2 ^ e| := by
        rw [abs_mul, abs_of_pos (by positivity : (0 : ℝ) < 2 ^ e)]
        exact ep.trans (le_mul_of_one_le_left (by positivity) m1)
      have t := abs_sub_abs_le_abs_sub ((m : ℝ) * 2 ^ e) (2 ^ (-1200 : ℤ))
      rw [abs_of_pos xp] at t
      have l : (2 : ℝ) * 2 ^ (-1200 : ℤ) < 2 ^ (-1074 : ℤ) := by
        rw [← zpow_one_add₀ (by norm_num)]
        exact zpow_lt_zpow_right₀ (by norm_num) (by norm_num)
      linarith
    refine ⟨![0, 2 ^ (-600 : ℤ), 0, 0, 0, 2 ^ (-600 : ℤ)], ?_, rfl, rfl, rfl, ?_, ?_⟩
    · intro i; fin_cases i
      · exact R.zero
      · exact k1
      · exact R.zero
      · exact R.zero
      · exact R.zero
      · exact k1
    · show (0 : ℝ) < 2 ^ (-600 : ℤ)
      positivity
    · have d : fl (fl ((2 : ℝ) ^ (-600 : ℤ) * 2 ^ (-600 : ℤ)) - fl (0 * 0)) = 0 := by rw [k2, mul_zero, R.zero, sub_self, R.zero]
      unfold flInvf
      dsimp only
      exact if_neg (not_not.2 d)

/-- C127: if the determinant is at least 1e-12 of the products it is the difference of, palInvf reports status 0, and the six coefficients are those of exact arithmetic, to a relative error (with respect
to the magnitudes of the terms) of 6e-16 times the factor `K` by which the products exceed the determinant. -/
theorem C127_invf {fl : ℝ → ℝ} (R : Rounding fl) (c old : Fin 6 → ℝ) (hc : ∀ i, |c i| ≤ 10 ^ 30) {K : ℝ} (hK : |c 1 * c 5| + |c 2 * c 4| ≤ K * |c 1 * c 5 - c 2 * c 4|) (hK1 : K ≤ 10 ^ 12)
    (hD : 1 / 10 ^ 60 ≤ |c 1 * c 5 - c 2 * c 4|) :
    let D := |c 1 * c 5 - c 2 * c 4|
    let b := (flInvf fl c old).2
    let B := (palInvf c old).2
    (flInvf fl c old).1 = 0 ∧ (palInvf c old).1 = 0 ∧
    |b 0 - B 0| ≤ 6e-16 * K * ((|c 2 * c 3| + |c 0 * c 5|) / D) + 1 / 10 ^ 130 ∧
    |b 3 - B 3| ≤ 6e-16 * K * ((|c 0 * c 4| + |c 1 * c 3|) / D) + 1 / 10 ^ 130 ∧
    ∀ i ∈ ({1, 2, 4, 5} : Finset (Fin 6)), |b i - B i| ≤ 4e-16 * K * |B i| + 1 / 10 ^ 130 := by
  have m : ∀ i j, |c i * c j| ≤ (10 : ℝ) ^ 60 := fun i j => by
    rw [abs_mul]
    exact (mul_le_mul (hc i) (hc j) (abs_nonneg _) (by norm_num)).trans (by norm_num)
  have s : ∀ i, |c i| ≤ (10 : ℝ) ^ 60 := fun i => (hc i).trans (by norm_num)
  have s' : ∀ i, |-c i| ≤ (10 : ℝ) ^ 60 := fun i => by rw [abs_neg]; exact s i
  obtain ⟨k1, hd, d0, D0⟩ := flDet_err R (m 1 5) (m 2 4) hK hK1 hD
  intro D b B
  have e1 : flInvf fl c old = (0, ![fl (fl (fl (c 2 * c 3) - fl (c 0 * c 5)) / fl (fl (c 1 * c 5) - fl (c 2 * c 4))), fl (c 5 / fl (fl (c 1 * c 5) - fl (c 2 * c 4))),
      fl (-c 2 / fl (fl (c 1 * c 5) - fl (c 2 * c 4))), fl (fl (fl (c 0 * c 4) - fl (c 1 * c 3)) / fl (fl (c 1 * c 5) - fl (c 2 * c 4))), fl (-c 4 / fl (fl (c 1 * c 5) - fl (c 2 * c 4))),
      fl (c 1 / fl (fl (c 1 * c 5) - fl (c 2 * c 4)))]) := if_pos d0
  have e2 : palInvf c old = (0, ![(c 2 * c 3 - c 0 * c 5) / (c 1 * c 5 - c 2 * c 4), c 5 / (c 1 * c 5 - c 2 * c 4), -c 2 / (c 1 * c 5 - c 2 * c 4), (c 0 * c 4 - c 1 * c 3) / (c 1 * c 5 - c 2 * c 4),
      -c 4 / (c 1 * c 5 - c 2 * c 4), c 1 / (c 1 * c 5 - c 2 * c 4)]) := if_pos D0
  have eb : b = _ := congrArg Prod.snd e1
  have eB : B = _ := congrArg Prod.snd e2
  refine ⟨congrArg Prod.fst e1, congrArg Prod.fst e2, ?_, ?_, ?_⟩
  · rw [eb, eB]
    exact coefA R hd k1 hK1 hD (m 2 3) (m 0 5)
  · rw [eb, eB]
    exact coefA R hd k1 hK1 hD (m 0 4) (m 1 3)
  · intro i hi
    rw [eb, eB]
    fin_cases hi
    · exact coefB R hd k1 hK1 hD (s 5)
    · exact coefB R hd k1 hK1 hD (s' 2)
    · exact coefB R hd k1 hK1 hD (s' 4)
    · exact coefB R hd k1 hK1 hD (s 1)

/-- C127: forward with palXy2xy and back with the coefficients from palInvf, all in double precision, returns every point, to an error of 2.1e-15 `K` times the sum of the magnitudes of the terms that
make up the returned coordinate. -/
theorem C127_roundtrip {fl : ℝ → ℝ} (R : Rounding fl) (c old : Fin 6 → ℝ) (x y : ℝ) (hc : ∀ i, |c i| ≤ 10 ^ 30) (hx : |x| ≤ 10 ^ 30) (hy : |y| ≤ 10 ^ 30) {K : ℝ}
    (hK : |c 1 * c 5| + |c 2 * c 4| ≤ K * |c 1 * c 5 - c 2 * c 4|) (hK1 : K ≤ 10 ^ 12) (hD : 1 / 10 ^ 60 ≤ |c 1 * c 5 - c 2 * c 4|) :
    let D := |c 1 * c 5 - c 2 * c 4|
    let Sx := |c 0| + |c 1 * x| + |c 2 * y|
    let Sy := |c 3| + |c 4 * x| + |c 5 * y|
    let p := flXy2xy fl x y c
    let q := flXy2xy fl p.1 p.2 (flInvf fl c old).2
    |q.1 - x| ≤ 2.1e-15 * K * ((|c 5| * Sx + |c 2| * Sy) / D) + 1 / 10 ^ 60 ∧
    |q.2 - y| ≤ 2.1e-15 * K * ((|c 4| * Sx + |c 1| * Sy) / D) + 1 / 10 ^ 60 := by
  intro D Sx Sy p q
  have Dp : 0 < D := lt_of_lt_of_le (by norm_num) hD
  have D0 : c 1 * c 5 - c 2 * c 4 ≠ 0 := abs_pos.1 Dp
  obtain ⟨-, -, b0, b3, bi⟩ := C127_invf R c old hc hK hK1 hD
  obtain ⟨f1, f2⟩ := C127_xy2xy R c x y (fun i => (hc i).trans (by norm_num)) (hx.trans (by norm_num)) (hy.trans (by norm_num))
  have k1 : 1 ≤ K := by
    by_contra hk
    push Not at hk
    have := (abs_sub (c 1 * c 5) (c 2 * c 4)).trans hK
    have := mul_lt_mul_of_pos_right hk Dp
    linarith
  have e2 : (palInvf c old).2 = ![(c 2 * c 3 - c 0 * c 5) / (c 1 * c 5 - c 2 * c 4), c 5 / (c 1 * c 5 - c 2 * c 4), -c 2 / (c 1 * c 5 - c 2 * c 4), (c 0 * c 4 - c 1 * c 3) / (c 1 * c 5 - c 2 * c 4),
      -c 4 / (c 1 * c 5 - c 2 * c 4), c 1 / (c 1 * c 5 - c 2 * c 4)] := congrArg Prod.snd (if_pos D0)
  have m : ∀ i z, |z| ≤ (10 : ℝ) ^ 30 → |c i * z| ≤ 10 ^ 60 := fun i z hz => by
    rw [abs_mul]
    exact (mul_le_mul (hc i) hz (abs_nonneg _) (by norm_num)).trans (by norm_num)
  have Sx1 : Sx ≤ 10 ^ 61 := by
    have h1 := hc 0; have h2 := m 1 x hx; have h3 := m 2 y hy
    show |c 0| + |c 1 * x| + |c 2 * y| ≤ _
    linarith
  have Sy1 : Sy ≤ 10 ^ 61 := by
    have h1 := hc 3; have h2 := m 4 x hx; have h3 := m 5 y hy
    show |c 3| + |c 4 * x| + |c 5 * y| ≤ _
    linarith
  have X1 : |(palXy2xy x y c).1| ≤ Sx := abs_add_three _ _ _
  have Y1 : |(palXy2xy x y c).2| ≤ Sy := abs_add_three _ _ _
  have r : ∀ z : ℝ, |z| ≤ 10 ^ 30 → |z / (c 1 * c 5 - c 2 * c 4)| ≤ 10 ^ 91 := fun z hz => by
    rw [abs_div, div_le_iff₀ Dp]
    have := mul_le_mul_of_nonneg_left hD (by norm_num : (0 : ℝ) ≤ 10 ^ 91)
    linarith
  have q5 := bi 1 (by simp)
  have q2 := bi 2 (by simp)
  have q4 := bi 4 (by simp)
  have q1 := bi 5 (by simp)
  rw [e2] at b0 b3 q5 q2 q4 q1
  have n2 : |-c 2| ≤ (10 : ℝ) ^ 30 := by rw [abs_neg]; exact hc 2
  have n4 : |-c 4| ≤ (10 : ℝ) ^ 30 := by rw [abs_neg]; exact hc 4
  have Px : |(c 2 * c 3 - c 0 * c 5) / (c 1 * c 5 - c 2 * c 4)| ≤ (|c 2 * c 3| + |c 0 * c 5|) / D := by
    rw [abs_div]; exact div_le_div_of_nonneg_right (abs_sub _ _) Dp.le
  have Py : |(c 0 * c 4 - c 1 * c 3) / (c 1 * c 5 - c 2 * c 4)| ≤ (|c 0 * c 4| + |c 1 * c 3|) / D := by
    rw [abs_div]; exact div_le_div_of_nonneg_right (abs_sub _ _) Dp.le
  have tx : |c 5 / (c 1 * c 5 - c 2 * c 4)| * Sx + |-c 2 / (c 1 * c 5 - c 2 * c 4)| * Sy = (|c 5| * Sx + |c 2| * Sy) / D := by
    rw [abs_div, abs_div, abs_neg]; ring
  have ty : |-c 4 / (c 1 * c 5 - c 2 * c 4)| * Sx + |c 1 / (c 1 * c 5 - c 2 * c 4)| * Sy = (|c 4| * Sx + |c 1| * Sy) / D := by
    rw [abs_div, abs_div, abs_neg]; ring
  have g := fun i z => mul_nonneg (abs_nonneg (c i)) (abs_nonneg z)
  have ux : (|c 2 * c 3| + |c 0 * c 5|) / D ≤ |c 5 / (c 1 * c 5 - c 2 * c 4)| * Sx + |-c 2 / (c 1 * c 5 - c 2 * c 4)| * Sy := by
    rw [tx]
    refine div_le_div_of_nonneg_right ?_ Dp.le
    show _ ≤ |c 5| * (|c 0| + |c 1 * x| + |c 2 * y|) + |c 2| * (|c 3| + |c 4 * x| + |c 5 * y|)
    have a1 := g 5 (c 1 * x); have a2 := g 5 (c 2 * y); have a3 := g 2 (c 4 * x); have a4 := g 2 (c 5 * y)
    have a5 := abs_mul (c 2) (c 3); have a6 := abs_mul (c 0) (c 5)
    linarith
  have uy : (|c 0 * c 4| + |c 1 * c 3|) / D ≤ |-c 4 / (c 1 * c 5 - c 2 * c 4)| * Sx + |c 1 / (c 1 * c 5 - c 2 * c 4)| * Sy := by
    rw [ty]
    refine div_le_div_of_nonneg_right ?_ Dp.le
    show _ ≤ |c 4| * (|c 0| + |c 1 * x| + |c 2 * y|) + |c 1| * (|c 3| + |c 4 * x| + |c 5 * y|)
    have a1 := g 4 (c 1 * x); have a2 := g 4 (c 2 * y); have a3 := g 1 (c 4 * x); have a4 := g 1 (c 5 * y)
    have a5 := abs_mul (c 0) (c 4); have a6 := abs_mul (c 1) (c 3)
    linarith
  have hx' := flBack_err R k1 hK1 Px ux b0 q5 q2 f1 X1 f2 Y1 (r _ (hc 5)) (r _ n2) Sx1 Sy1
  have hy' := flBack_err R k1 hK1 Py uy b3 q4 q1 f1 X1 f2 Y1 (r _ n4) (r _ (hc 1)) Sx1 Sy1
  rw [tx] at hx'
  rw [ty] at hy'
  have ex : (c 2 * c 3 - c 0 * c 5) / (c 1 * c 5 - c 2 * c 4) + c 5 / (c 1 * c 5 - c 2 * c 4) * (palXy2xy x y c).1 + -c 2 / (c 1 * c 5 - c 2 * c 4) * (palXy2xy x y c).2 = x := by
    unfold palXy2xy
    generalize hd : c 1 * c 5 - c 2 * c 4 = d at D0
    field_simp
    rw [← hd]; ring
  have ey : (c 0 * c 4 - c 1 * c 3) / (c 1 * c 5 - c 2 * c 4) + -c 4 / (c 1 * c 5 - c 2 * c 4) * (palXy2xy x y c).1 + c 1 / (c 1 * c 5 - c 2 * c 4) * (palXy2xy x y c).2 = y := by
    unfold palXy2xy
    generalize hd : c 1 * c 5 - c 2 * c 4 = d at D0
    field_simp
    rw [← hd]; ring
  exact ⟨by rw [← ex]; exact hx', by rw [← ey]; exact hy'⟩

/-- A plate turned, stretched and skewed by a few per cent. -/
example : let c : Fin 6 → ℝ := ![0.3, 1.01, -0.02, -0.7, 0.03, 0.98]
    let p := flXy2xy ieee 0.25 0.5 c
    let q := flXy2xy ieee p.1 p.2 (flInvf ieee c 0).2
    (flInvf ieee c 0).1 = 0 ∧ |q.1 - 0.25| ≤ 1e-14 := by
  intro c p q
  have hc : ∀ i, |c i| ≤ (10 : ℝ) ^ 30 := by intro i; fin_cases i <;> norm_num [c, abs_le]
  have hK : |c 1 * c 5| + |c 2 * c 4| ≤ 1.1 * |c 1 * c 5 - c 2 * c 4| := by
    show |(1.01 : ℝ) * 0.98| + |(-0.02 : ℝ) * 0.03| ≤ 1.1 * |(1.01 : ℝ) * 0.98 - (-0.02) * 0.03|
    norm_num [abs_of_pos, abs_of_neg]
  have hD : (1 : ℝ) / 10 ^ 60 ≤ |c 1 * c 5 - c 2 * c 4| := by
    show (1 : ℝ) / 10 ^ 60 ≤ |(1.01 : ℝ) * 0.98 - (-0.02) * 0.03|
    norm_num [abs_of_pos]
  refine ⟨(C127_invf ieee_rounding c 0 hc hK (by norm_num) hD).1, ?_⟩
  refine (C127_roundtrip ieee_rounding c 0 0.25 0.5 hc (by norm_num [abs_le]) (by norm_num [abs_le]) hK (by norm_num) hD).1.trans ?_
  show 2.1e-15 * 1.1 * ((|(0.98 : ℝ)| * (|(0.3 : ℝ)| + |(1.01 : ℝ) * 0.25| + |(-0.02 : ℝ) * 0.5|) + |(-0.02 : ℝ)| * (|(-0.7 : ℝ)| + |(0.03 : ℝ) * 0.25| + |(0.98 : ℝ) * 0.5|)) / |(1.01 : ℝ) * 0.98 - (-0.02) * 0.03|) +
    1 / 10 ^ 60 ≤ 1e-14
  norm_num [abs_of_pos, abs_of_neg]

end Pal.Props
