import Verif.Lemmas.FlHip

/-! # FK5 and Hipparcos in double precision: position and velocity -/

namespace Pal
open Real Pal.Spec Pal.Props Matrix

variable {fl : ℝ → ℝ} {L : Libm}

/-- Angles computed from a vector that is nearly a unit vector, the longitude brought into its range. -/
theorem flAnpCore_unit (R : Rounding fl) (hL : LibmOK L) (nz : Bool) {v V : Vec3} {e : ℝ} (hv : len (fun i => v i - V i) ≤ e) (he : e ≤ 1e-10) (hV : len V = 1) (θ φ : ℝ)
    (hθ : (fl (√(fl (fl (v 0 * v 0) + fl (v 1 * v 1)))) = 0 ∧ θ = 0) ∨ ((v 0 ≠ 0 ∨ v 1 ≠ 0) ∧ θ = flAtan2 L nz (v 1) (v 0)))
    (hφ : 0 ≤ fl (√(fl (fl (v 0 * v 0) + fl (v 1 * v 1)))) → |φ - atan2 (v 2) (fl (√(fl (fl (v 0 * v 0) + fl (v 1 * v 1)))))| ≤ 4.5e-16) :
    0 ≤ flAnp fl θ ∧ flAnp fl θ ≤ flD2PI fl ∧ |φ| ≤ π / 2 + 4.5e-16 ∧ len (fun i => dir (flAnp fl θ) φ i - V i) ≤ 2 * e + 3e-15 := by
  have hr := abs_le.1 ((len_rev_tri v V).trans hv)
  rw [hV] at hr
  have e0 := (len_nonneg _).trans hv
  have n1 : 1 / 10 ^ 70 ≤ len v := le_trans (by norm_num : (1 : ℝ) / 10 ^ 70 ≤ 0.98) (by norm_num at *; linarith)
  have n2 : len v ≤ 1.0001 := by norm_num at *; linarith
  obtain ⟨T, P, t1, t2, t3, t4, t5⟩ := flC2s_core R hL nz v n1 (n2.trans (by norm_num)) θ φ hθ hφ
  have p1 := pi_lt_d4
  have hT : |θ| ≤ 3.15 := (close_range t1 t3).trans (by norm_num at *; linarith)
  obtain ⟨a1, a2, k, a3⟩ := flAnp_small R _ hT
  refine ⟨a1, a2, close_range t2 t4, ?_⟩
  have c1 : len (fun i => dir (flAnp fl θ) φ i - dir T P i) ≤ 9.6e-16 + 4.5e-16 + 4.5e-16 := by
    have := chord (flAnp fl θ) φ (T + k * (2 * π)) P
    rw [dir_add_turn] at this
    refine this.trans ?_
    have g1 : |flAnp fl θ - (T + k * (2 * π))| ≤ 9.6e-16 + 4.5e-16 := by
      have := abs_sub_le (flAnp fl θ) (θ + k * (2 * π)) (T + k * (2 * π))
      rw [show θ + k * (2 * π) - (T + k * (2 * π)) = θ - T by ring] at this
      linarith
    linarith
  have q1 := len_tri (dir (flAnp fl θ) φ) (dir T P) V
  have q2 := len_tri (dir T P) (fun i => len v * dir T P i) V
  have q3 := len_tri (fun i => len v * dir T P i) v V
  have q4 : len (fun i => dir T P i - len v * dir T P i) = |1 - len v| := by
    have : (fun i => dir T P i - len v * dir T P i) = fun i => (1 - len v) * dir T P i := by funext i; ring
    rw [this, len_smul, len_one (dot_dir _ _), mul_one]
  have q5 : |1 - len v| ≤ e := by rw [abs_sub_comm]; exact abs_le.2 hr
  have q6 : (1.05e-15 : ℝ) * len v ≤ 1.05e-15 * 1.0001 := mul_le_mul_of_nonneg_left n2 (by norm_num)
  rw [q4] at q2
  clear hθ hφ
  norm_num at *
  linarith

/-- For nearly unit vectors eraPv2s does not replace the position. -/
theorem flPv2s_eq (R : Rounding fl) (nz : Bool) {p P : Vec3} {e : ℝ} (v : Vec3) (hv : len (fun i => p i - P i) ≤ e) (he : e ≤ 1e-10) (hV : len P = 1) :
    flPv2s fl L nz p v = if fl (fl (p 0 * p 0) + fl (p 1 * p 1)) ≠ 0 then
      ((flAtan2 L nz (p 1) (p 0), L.atan2 (p 2) (fl (√(fl (fl (p 0 * p 0) + fl (p 1 * p 1)))))),
       (fl (fl (fl (p 0 * v 1) - fl (p 1 * v 0)) / fl (fl (p 0 * p 0) + fl (p 1 * p 1))),
        fl (fl (fl (v 2 * fl (fl (p 0 * p 0) + fl (p 1 * p 1))) - fl (p 2 * fl (fl (p 0 * v 0) + fl (p 1 * v 1)))) /
          fl (fl (fl (fl (p 0 * p 0) + fl (p 1 * p 1)) + fl (p 2 * p 2)) * fl (√(fl (fl (p 0 * p 0) + fl (p 1 * p 1))))))))
      else ((0, if p 2 ≠ 0 then L.atan2 (p 2) (fl (√(fl (fl (p 0 * p 0) + fl (p 1 * p 1))))) else 0), (0, 0)) := by
  have hr := abs_le.1 ((len_rev_tri p P).trans hv)
  rw [hV] at hr
  have n2 : len p ≤ 1.0001 := by norm_num at *; linarith
  have n1 : 0.9 ≤ len p := by norm_num at *; linarith
  have m := flPm_err R p (n2.trans (by norm_num))
  have hz : ¬ fl (√(fl (fl (fl (p 0 * p 0) + fl (p 1 * p 1)) + fl (p 2 * p 2)))) = 0 := by
    intro h0
    have m2 := m.2
    unfold flPm at m2
    rw [h0, zero_sub, abs_neg, abs_of_nonneg (len_nonneg _)] at m2
    have : (1 : ℝ) / 10 ^ 96 ≤ 1e-20 := by norm_num
    generalize (1 : ℝ) / 10 ^ 96 = q at *
    norm_num at *; linarith
  unfold flPv2s
  simp only [if_neg hz]

/-- Its angles. -/
theorem flPv2s_dir (R : Rounding fl) (hL : LibmOK L) (nz : Bool) {p P : Vec3} {e : ℝ} (v : Vec3) (hv : len (fun i => p i - P i) ≤ e) (he : e ≤ 1e-10) (hV : len P = 1) :
    let s := flPv2s fl L nz p v
    0 ≤ flAnp fl s.1.1 ∧ flAnp fl s.1.1 ≤ flD2PI fl ∧ |s.1.2| ≤ π / 2 + 4.5e-16 ∧ len (fun i => dir (flAnp fl s.1.1) s.1.2 i - P i) ≤ 2 * e + 3e-15 := by
  intro s
  have hs : s = _ := flPv2s_eq R nz v hv he hV
  refine flAnpCore_unit R hL nz hv he hV s.1.1 s.1.2 ?_ ?_
  · rw [hs]
    by_cases h0 : fl (fl (p 0 * p 0) + fl (p 1 * p 1)) = 0
    · left
      rw [if_neg (not_not.2 h0), h0, Real.sqrt_zero, R.zero]; exact ⟨rfl, rfl⟩
    · right
      rw [if_pos h0]
      refine ⟨?_, rfl⟩
      by_contra hc
      push Not at hc
      apply h0
      rw [hc.1, hc.2]; simp [R.zero]
  · intro k
    rw [hs]
    by_cases h0 : fl (fl (p 0 * p 0) + fl (p 1 * p 1)) = 0
    · rw [if_neg (not_not.2 h0)]
      dsimp only
      by_cases h2 : p 2 = 0
      · rw [if_neg (not_not.2 h2), h2, atan2_zero_pos k]; norm_num
      · rw [if_pos h2]; exact hL.atan2 _ _
    · rw [if_pos h0]; exact hL.atan2 _ _

set_option maxHeartbeats 1600000 in
/-- Rates from a position and a velocity that are slightly wrong. -/
theorem hip_rates (R : Rounding fl) {p P v V : Vec3} {ρ : ℝ} (hp : ∀ i, |p i - P i| ≤ 3.9e-14) (hv : ∀ i, |v i - V i| ≤ 5.4e-22) (hP : dot P P = 1) (hV : ∀ i, |V i| ≤ 4.8e-9) (hρ : ρ = √(P 0 * P 0 + P 1 * P 1))
    (r0 : 1e-6 ≤ ρ) :
    fl (fl (p 0 * p 0) + fl (p 1 * p 1)) ≠ 0 ∧
    |fl (fl (fl (p 0 * v 1) - fl (p 1 * v 0)) / fl (fl (p 0 * p 0) + fl (p 1 * p 1))) - (P 0 * V 1 - P 1 * V 0) / (ρ * ρ)| ≤ 3e-21 / (ρ * ρ) ∧
    |fl (fl (fl (v 2 * fl (fl (p 0 * p 0) + fl (p 1 * p 1))) - fl (p 2 * fl (fl (p 0 * v 0) + fl (p 1 * v 1)))) /
          fl (fl (fl (fl (p 0 * p 0) + fl (p 1 * p 1)) + fl (p 2 * p 2)) * fl (√(fl (fl (p 0 * p 0) + fl (p 1 * p 1)))))) -
      (V 2 * (ρ * ρ) - P 2 * (P 0 * V 0 + P 1 * V 1)) / ((ρ * ρ + P 2 * P 2) * ρ)| ≤ 7.5e-21 / ρ := by
  rw [dot_eq] at hP
  have S0 : 0 ≤ P 0 * P 0 + P 1 * P 1 := add_nonneg (mul_self_nonneg _) (mul_self_nonneg _)
  have hsq : ρ * ρ = P 0 * P 0 + P 1 * P 1 := by rw [hρ]; exact Real.mul_self_sqrt S0
  have rp : 0 < ρ := lt_of_lt_of_le (by norm_num) r0
  have r1 : ρ ≤ 1 := by nlinarith [mul_self_nonneg (P 2)]
  have b1 : ∀ i, |P i| ≤ 1 := fun i => by
    have := comp_le_len P i
    rwa [len_one (by rw [dot_eq]; exact hP)] at this
  have bρ : ∀ i, i = 0 ∨ i = 1 → |P i| ≤ ρ := by
    intro i hi
    rw [hρ]
    refine Real.le_sqrt_of_sq_le ?_
    rw [sq_abs]
    rcases hi with rfl | rfl <;> nlinarith [mul_self_nonneg (P 0), mul_self_nonneg (P 1)]
  have sum : |P 0| + |P 1| ≤ 1.41422 * ρ := by
    have := sq_abs (P 0)
    have := sq_abs (P 1)
    refine le_of_sq_le_sq' ?_ (by positivity)
    nlinarith [sq_nonneg (|P 0| - |P 1|)]
  have bp : ∀ i, |p i| ≤ 1.1 := fun i => by
    have := abs_add_le (p i - P i) (P i)
    rw [sub_add_cancel] at this
    have := hp i
    have := b1 i
    norm_num at *; linarith
  -- the square of the distance from the axis
  have sqd : ∀ i, |p i * p i - P i * P i| ≤ 3.9e-14 * (2 * |P i| + 3.9e-14) := fun i => by
    rw [show p i * p i - P i * P i = (p i - P i) * (2 * P i + (p i - P i)) by ring, abs_mul]
    have : |2 * P i + (p i - P i)| ≤ 2 * |P i| + 3.9e-14 := by
      have := abs_add_le (2 * P i) (p i - P i)
      rw [abs_mul, abs_of_pos (by norm_num : (0 : ℝ) < 2)] at this
      have := hp i
      linarith
    exact mul_le_mul (hp i) this (abs_nonneg _) (by norm_num)
  have rr := fl_sumsq R (p 0) (p 1) ((bp 0).trans (by norm_num)) ((bp 1).trans (by norm_num))
  have D : |fl (fl (p 0 * p 0) + fl (p 1 * p 1)) - ρ * ρ| ≤ 1.11e-13 * ρ := by
    have t1 := sqd 0
    have t2 := sqd 1
    have t3 := abs_add_le (p 0 * p 0 - P 0 * P 0) (p 1 * p 1 - P 1 * P 1)
    have t4 := abs_sub_le (fl (fl (p 0 * p 0) + fl (p 1 * p 1))) (p 0 * p 0 + p 1 * p 1) (ρ * ρ)
    have t5 : p 0 * p 0 + p 1 * p 1 - ρ * ρ = p 0 * p 0 - P 0 * P 0 + (p 1 * p 1 - P 1 * P 1) := by rw [hsq]; ring
    have t6 : |p 0 * p 0 + p 1 * p 1 - ρ * ρ| ≤ 1.1032e-13 * ρ := by rw [t5]; norm_num at *; linarith
    have t7 := (abs_le.1 t6).2
    have t8 : ρ * ρ ≤ ρ := by nlinarith
    have z : (4 : ℝ) / 10 ^ 200 ≤ 1e-40 := by norm_num
    generalize (4 : ℝ) / 10 ^ 200 = q at *
    norm_num at *; linarith
  have n1 : Near (1.11e-13 / ρ) (fl (fl (p 0 * p 0) + fl (p 1 * p 1))) (ρ * ρ) := by
    refine ⟨by positivity, by positivity, ?_, D.trans (le_of_eq ?_)⟩
    · rw [div_le_iff₀ rp]; norm_num at *; linarith
    · field_simp
  have rhop : 1 / ρ ≥ 1 := by rw [ge_iff_le, le_div_iff₀ rp]; linarith
  have small : 1 / ρ ≤ 1e6 := by rw [div_le_iff₀ rp]; norm_num at *; linarith
  have n2 : Near (1.115e-13 / ρ) (fl (√(fl (fl (p 0 * p 0) + fl (p 1 * p 1))))) ρ := by
    have a := n1.sqrt
    rw [Real.sqrt_mul_self rp.le] at a
    refine a.fl R _ (le_trans (by norm_num : (1 : ℝ) / 10 ^ 90 ≤ 1e-6) r0) (r1.trans (by norm_num)) ?_ ?_
    · rw [div_eq_mul_one_div, div_eq_mul_one_div 1.115e-13]; norm_num at *; linarith
    · rw [div_eq_mul_one_div]; norm_num at *; linarith
  have one : ρ * ρ + P 2 * P 2 = 1 := by rw [hsq]; exact hP
  have n3 : Near (1.12e-13 + 8e-14) (fl (fl (fl (p 0 * p 0) + fl (p 1 * p 1)) + fl (p 2 * p 2))) (ρ * ρ + P 2 * P 2) := by
    refine ⟨by rw [one]; norm_num, by norm_num, by norm_num, ?_⟩
    have z := R.mulB 7.82e-14 (hp 2) (hp 2) (b1 2) (b1 2) (by norm_num) (by norm_num)
    have D' : |fl (fl (p 0 * p 0) + fl (p 1 * p 1)) - ρ * ρ| ≤ 1.11e-13 := D.trans (by norm_num at *; linarith)
    have := (R.addB (1.12e-13 + 8e-14) D' z (MA := 1) (MB := 1) (by rw [abs_of_pos (by positivity)]; nlinarith) (by rw [abs_mul]; exact mul_le_one₀ (b1 2) (abs_nonneg _) (b1 2)) (by norm_num) (by norm_num)).1
    rw [one] at this ⊢
    linarith
  have n4 : Near (3.1e-13 / ρ) (fl (fl (fl (fl (p 0 * p 0) + fl (p 1 * p 1)) + fl (p 2 * p 2)) * fl (√(fl (fl (p 0 * p 0) + fl (p 1 * p 1)))))) ((ρ * ρ + P 2 * P 2) * ρ) := by
    have a := n3.mul (3.05e-13 / ρ) n2 (by rw [div_eq_mul_one_div, div_eq_mul_one_div 3.05e-13]; norm_num at *; linarith) (by rw [div_eq_mul_one_div]; norm_num at *; linarith)
    refine a.fl R _ ?_ ?_ ?_ ?_
    · rw [one, one_mul]; exact le_trans (by norm_num : (1 : ℝ) / 10 ^ 90 ≤ 1e-6) r0
    · rw [one, one_mul]; exact r1.trans (by norm_num)
    · rw [div_eq_mul_one_div, div_eq_mul_one_div 3.1e-13]; norm_num at *; linarith
    · rw [div_eq_mul_one_div]; norm_num at *; linarith
  -- products
  have pr : ∀ i j, |fl (p i * v j) - P i * V j| ≤ 7.3e-22 := fun i j => R.mulB _ (hp i) (hv j) (b1 i) (hV j) (by norm_num) (by norm_num)
  have pb : ∀ i j, |P i * V j| ≤ 4.8e-9 * |P i| := fun i j => by
    rw [abs_mul, mul_comm]; exact mul_le_mul_of_nonneg_right (hV j) (abs_nonneg _)
  have pb1 : ∀ i j, |P i * V j| ≤ 4.8e-9 := fun i j => (pb i j).trans (by have := b1 i; norm_num at *; linarith)
  have c1 := (R.subB 1.48e-21 (pr 0 1) (pr 1 0) (pb1 0 1) (pb1 1 0) (by norm_num) (by norm_num)).1
  have c2 := (R.addB 1.48e-21 (pr 0 0) (pr 1 1) (pb1 0 0) (pb1 1 1) (by norm_num) (by norm_num)).1
  have N1 : |P 0 * V 1 - P 1 * V 0| ≤ 6.79e-9 * ρ := by
    have t := abs_add_le (P 0 * V 1) (-(P 1 * V 0))
    rw [abs_neg, ← sub_eq_add_neg] at t
    have := pb 0 1
    have := pb 1 0
    norm_num at *; linarith
  have N2 : |P 0 * V 0 + P 1 * V 1| ≤ 6.79e-9 * ρ := by
    have t := abs_add_le (P 0 * V 0) (P 1 * V 1)
    have := pb 0 0
    have := pb 1 1
    norm_num at *; linarith
  refine ⟨n1.xpos.ne', ?_, ?_⟩
  · have q := R.quot c1 (by rw [abs_of_pos n1.pos]; exact n1.err) n1.e1 n1.pos.ne' (by
      rw [abs_of_pos n1.pos, div_le_iff₀ n1.pos]
      have : 1e-12 ≤ ρ * ρ := by nlinarith
      have : (10 : ℝ) ^ 240 * 1e-12 ≤ 10 ^ 240 * (ρ * ρ) := mul_le_mul_of_nonneg_left this (by positivity)
      refine le_trans ?_ this
      refine le_trans (b := 1) ?_ (by norm_num)
      norm_num at *; linarith)
    refine q.trans ?_
    rw [abs_of_pos n1.pos]
    have h1 : (1.11e-13 / ρ + 1.1104e-16) * |P 0 * V 1 - P 1 * V 0| ≤ 7.6e-22 := by
      have a : (1.11e-13 / ρ + 1.1104e-16) * |P 0 * V 1 - P 1 * V 0| ≤ (1.11e-13 / ρ + 1.1104e-16) * (6.79e-9 * ρ) := mul_le_mul_of_nonneg_left N1 (by positivity)
      have : (1.11e-13 / ρ + 1.1104e-16) * (6.79e-9 * ρ) = 1.11e-13 * 6.79e-9 + 1.1104e-16 * 6.79e-9 * ρ := by field_simp
      rw [this] at a
      norm_num at *; linarith
    have h2 : (1 : ℝ) / 10 ^ 200 ≤ 1e-30 / (ρ * ρ) := by
      rw [le_div_iff₀ n1.pos]
      have := mul_le_mul_of_nonneg_left (by nlinarith : ρ * ρ ≤ 1) (by positivity : (0 : ℝ) ≤ 1 / 10 ^ 200)
      refine this.trans (by norm_num)
    refine (add_le_add le_rfl h2).trans ?_
    rw [← add_div]
    refine div_le_div_of_nonneg_right ?_ n1.pos.le
    generalize (1.11e-13 / ρ + 1.1104e-16) * |P 0 * V 1 - P 1 * V 0| = z at *
    norm_num at *; linarith
  · have e1 := R.mulB (1.08e-21) (hv 2) D (hV 2) (by rw [abs_of_pos n1.pos] : |ρ * ρ| ≤ ρ * ρ) (by norm_num at *; nlinarith) (by norm_num at *; nlinarith)
    have e2 := R.mulB (1.8e-21) (hp 2) c2 (b1 2) N2 (by norm_num at *; nlinarith) (by norm_num at *; nlinarith)
    have B1 : |V 2 * (ρ * ρ)| ≤ 4.8e-9 * ρ := by
      rw [abs_mul, abs_of_pos n1.pos]
      have := mul_le_mul_of_nonneg_right (hV 2) n1.pos.le
      norm_num at *; nlinarith
    have B2 : |P 2 * (P 0 * V 0 + P 1 * V 1)| ≤ 6.79e-9 * ρ := by
      rw [abs_mul]
      have := mul_le_of_le_one_left (abs_nonneg (P 0 * V 0 + P 1 * V 1)) (b1 2)
      linarith
    have e3 := R.subB 2.9e-21 e1 e2 B1 B2 (by norm_num at *; linarith) (by norm_num at *; linarith)
    have N3 : |V 2 * (ρ * ρ) - P 2 * (P 0 * V 0 + P 1 * V 1)| ≤ 1.16e-8 * ρ := e3.2.trans (by norm_num at *; linarith)
    have np := n4.pos
    rw [one, one_mul] at n4 np ⊢
    have q := R.quot e3.1 (by rw [abs_of_pos np]; exact n4.err) n4.e1 np.ne' (by
      rw [abs_of_pos np, div_le_iff₀ np]
      have : (10 : ℝ) ^ 240 * 1e-6 ≤ 10 ^ 240 * ρ := mul_le_mul_of_nonneg_left r0 (by positivity)
      refine le_trans ?_ this
      refine le_trans (b := 1) ?_ (by norm_num)
      norm_num at *; linarith)
    refine q.trans ?_
    rw [abs_of_pos np]
    have h1 : (3.1e-13 / ρ + 1.1104e-16) * |V 2 * (ρ * ρ) - P 2 * (P 0 * V 0 + P 1 * V 1)| ≤ 3.61e-21 := by
      have a : (3.1e-13 / ρ + 1.1104e-16) * |V 2 * (ρ * ρ) - P 2 * (P 0 * V 0 + P 1 * V 1)| ≤ (3.1e-13 / ρ + 1.1104e-16) * (1.16e-8 * ρ) := mul_le_mul_of_nonneg_left N3 (by positivity)
      have : (3.1e-13 / ρ + 1.1104e-16) * (1.16e-8 * ρ) = 3.1e-13 * 1.16e-8 + 1.1104e-16 * 1.16e-8 * ρ := by field_simp
      rw [this] at a
      norm_num at *; linarith
    have h2 : (1 : ℝ) / 10 ^ 200 ≤ 1e-30 / ρ := by
      rw [le_div_iff₀ rp]
      have := mul_le_mul_of_nonneg_left r1 (by positivity : (0 : ℝ) ≤ 1 / 10 ^ 200)
      refine this.trans (by norm_num)
    refine (add_le_add le_rfl h2).trans ?_
    rw [← add_div]
    refine div_le_div_of_nonneg_right ?_ rp.le
    generalize (3.1e-13 / ρ + 1.1104e-16) * |V 2 * (ρ * ρ) - P 2 * (P 0 * V 0 + P 1 * V 1)| = z at *
    norm_num at *; linarith

/-- Position and velocity in palHfk5z. -/
theorem flHfk5zPv_err (R : Rounding fl) (hL : LibmOK L) (rh dh epoch : ℝ) (h : |epoch - 2000| ≤ 1000) :
    let r5 := eraRv2m fk5hipEp
    let rs := eraRv2m (fun i => (epoch - 2000) * fk5hipOm i)
    len (fun i => (flHfk5zPv fl L rh dh epoch).1 i - ((r5 * rs).transpose *ᵥ dir rh dh) i) ≤ 3.81e-14 ∧ len ((r5 * rs).transpose *ᵥ dir rh dh) = 1 ∧
    len (fun i => (flHfk5zPv fl L rh dh epoch).2 i - ((r5 * rs).transpose *ᵥ eraPxp (r5 *ᵥ fk5hipOm) (dir rh dh)) i) ≤ 5.4e-22 ∧ len (eraPxp (r5 *ᵥ fk5hipOm) (dir rh dh)) ≤ 4.8e-9 := by
  intro r5 rs
  have q5 : IsRotation r5 := (C74_rotation fk5hipEp).1
  have qs : IsRotation rs := (C74_rotation fun i => (epoch - 2000) * fk5hipOm i).1
  obtain ⟨d1, d2⟩ := flHipDays_err R epoch h
  obtain ⟨s1, s2, s3⟩ := flHipSpin R d1 d2 rfl h
  have m5 := flHip_r5h R hL
  have ms := flRv2m_small R hL s1 s2 s3
  have mm := flRxr_small R q5 qs m5 ms (by norm_num) (by norm_num)
  have pos := flTrxp_near R (rot_mul q5 qs) mm (by norm_num) (flS2c_len R hL (r := rh) (d := dh) (r' := rh) (d' := dh) (δ := 0) (by simp [len])) (by norm_num) (len_one (dot_dir rh dh))
  have ol := hipOm_len
  -- the spin in the Hipparcos frame
  have od := len_le_of_comp (flHipOm_err R)
  have olf : len (flHipOm fl) ≤ 4.81e-9 := by have := (abs_le.1 ((len_rev_tri _ _).trans od)).2; norm_num at *; linarith
  have sh1 := flRxp_scaled R q5 m5 (by norm_num) (flHipOm fl) (olf.trans (by norm_num))
  have sh2 : len (fun i => (r5 *ᵥ flHipOm fl) i - (r5 *ᵥ fk5hipOm) i) ≤ 1.7321 * 1.5e-24 := by
    rw [show (fun i => (r5 *ᵥ flHipOm fl) i - (r5 *ᵥ fk5hipOm) i) = r5 *ᵥ (fun i => flHipOm fl i - fk5hipOm i) by rw [show (fun i => flHipOm fl i - fk5hipOm i) = flHipOm fl - fk5hipOm from rfl, Matrix.mulVec_sub]; rfl, rot_len q5]
    exact od
  have z : (1 : ℝ) / 10 ^ 198 ≤ 1e-40 := by norm_num
  have sh : len (fun i => flRxp fl (flRv2m fl L (flHipEp fl)) (flHipOm fl) i - (r5 *ᵥ fk5hipOm) i) ≤ 9.2e-23 := by
    have := len_tri (flRxp fl (flRv2m fl L (flHipEp fl)) (flHipOm fl)) (r5 *ᵥ flHipOm fl) (r5 *ᵥ fk5hipOm)
    have := len_nonneg (flHipOm fl)
    generalize (1 : ℝ) / 10 ^ 198 = q at *
    generalize len (flHipOm fl) = l at *
    clear s1 s2 s3 od
    norm_num at *; linarith
  have sc : ∀ i, |flRxp fl (flRv2m fl L (flHipEp fl)) (flHipOm fl) i - (r5 *ᵥ fk5hipOm) i| ≤ 9.2e-23 := fun i => (comp_le_len _ i).trans sh
  have sb : len (r5 *ᵥ fk5hipOm) ≤ 4.8e-9 := by rw [rot_len q5]; exact ol
  have sb' : ∀ i, |(r5 *ᵥ fk5hipOm) i| ≤ 4.8e-9 := fun i => (comp_le_len _ i).trans sb
  have pe := flS2c_err R hL rh dh
  have pl := dir_le rh dh
  have cl : len (eraPxp (r5 *ᵥ fk5hipOm) (dir rh dh)) ≤ 4.8e-9 := by
    have hh := cross_sq (r5 *ᵥ fk5hipOm) (dir rh dh)
    rw [← len_sq, ← len_sq, ← len_sq, len_one (dot_dir rh dh)] at hh
    have := mul_self_nonneg (dot (r5 *ᵥ fk5hipOm) (dir rh dh))
    have := len_nonneg (r5 *ᵥ fk5hipOm)
    have := len_nonneg (eraPxp (r5 *ᵥ fk5hipOm) (dir rh dh))
    nlinarith
  have pr : ∀ i j, |fl (flRxp fl (flRv2m fl L (flHipEp fl)) (flHipOm fl) i * flS2c fl L rh dh j) - (r5 *ᵥ fk5hipOm) i * dir rh dh j| ≤ 9.6e-23 :=
    fun i j => R.mulB _ (sc i) (pe j) (sb' i) (pl j) (by norm_num) (by norm_num)
  have pb : ∀ i j, |(r5 *ᵥ fk5hipOm) i * dir rh dh j| ≤ 4.8e-9 := fun i j => (mul_bd (sb' i) (pl j)).trans (by norm_num)
  have cr : ∀ i, |flPxp fl (flRxp fl (flRv2m fl L (flHipEp fl)) (flHipOm fl)) (flS2c fl L rh dh) i - eraPxp (r5 *ᵥ fk5hipOm) (dir rh dh) i| ≤ 1.95e-22 := by
    intro i
    fin_cases i
    · exact (R.subB _ (pr 1 2) (pr 2 1) (pb 1 2) (pb 2 1) (by norm_num) (by norm_num)).1
    · exact (R.subB _ (pr 2 0) (pr 0 2) (pb 2 0) (pb 0 2) (by norm_num) (by norm_num)).1
    · exact (R.subB _ (pr 0 1) (pr 1 0) (pb 0 1) (pb 1 0) (by norm_num) (by norm_num)).1
  have cd := len_le_of_comp cr
  refine ⟨pos.2.trans (by norm_num), pos.1, ?_, cl⟩
  show len (fun i => flTrxp fl (flRxr fl (flRv2m fl L (flHipEp fl)) _) (flPxp fl (flRxp fl (flRv2m fl L (flHipEp fl)) (flHipOm fl)) (flS2c fl L rh dh)) i - _) ≤ _
  have vl : len (flPxp fl (flRxp fl (flRv2m fl L (flHipEp fl)) (flHipOm fl)) (flS2c fl L rh dh)) ≤ 4.81e-9 := by
    have := (abs_le.1 ((len_rev_tri _ _).trans cd)).2; clear s1 s2 s3 d1 d2 sc pr cr pe; norm_num at *; linarith
  have qt := rot_transpose (rot_mul q5 qs)
  have v1 := flRxp_scaled R qt mm.transp (by norm_num) _ (vl.trans (by norm_num))
  have v2 : len (fun i => ((r5 * rs).transpose *ᵥ flPxp fl (flRxp fl (flRv2m fl L (flHipEp fl)) (flHipOm fl)) (flS2c fl L rh dh)) i - ((r5 * rs).transpose *ᵥ eraPxp (r5 *ᵥ fk5hipOm) (dir rh dh)) i) ≤ 1.7321 * 1.95e-22 := by
    generalize flPxp fl (flRxp fl (flRv2m fl L (flHipEp fl)) (flHipOm fl)) (flS2c fl L rh dh) = a at *
    generalize eraPxp (r5 *ᵥ fk5hipOm) (dir rh dh) = b at *
    rw [show (fun i => ((r5 * rs).transpose *ᵥ a) i - ((r5 * rs).transpose *ᵥ b) i) = (r5 * rs).transpose *ᵥ (fun i => a i - b i) by rw [show (fun i => a i - b i) = a - b from rfl, Matrix.mulVec_sub]; rfl, rot_len qt]
    exact cd
  unfold flTrxp
  rw [eraTr_eq]
  refine (len_tri _ _ _).trans ((add_le_add v1 v2).trans ?_)
  generalize (1 : ℝ) / 10 ^ 198 = q at *
  generalize len (flPxp fl (flRxp fl (flRv2m fl L (flHipEp fl)) (flHipOm fl)) (flS2c fl L rh dh)) = l at *
  clear s1 s2 s3 d1 d2 sc pr cr pe cd v1 v2
  norm_num at *; linarith

end Pal
