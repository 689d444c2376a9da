import Verif.Model.FlAop
import Verif.Lemmas.FlRefz
import Verif.Lemmas.FlGmst

/-! # palAopqk and palOapqk in double precision: errors -/

namespace Pal
open Real Pal.Spec

variable {fl : ℝ → ℝ} {L : Libm}

/-- Angles computed from a vector that is nearly V. -/
theorem core_dir (R : Rounding fl) (hL : LibmOK L) (nz : Bool) {v V u : Vec3} {e : ℝ} (hv : ∀ i, |v i - V i| ≤ e) (he : e ≤ 1e-11) (h1 : 0.99 ≤ len V) (h2 : len V ≤ 1.01)
    (hu : (fun i => len V * u i) = V) (θ φ : ℝ)
    (hθ : (fl (√(fl (fl (v 0 * v 0) + fl (v 1 * v 1)))) = 0 ∧ θ = 0) ∨ ((v 0 ≠ 0 ∨ v 1 ≠ 0) ∧ θ = flAtan2 L nz (v 1) (v 0)))
    (hφ : 0 ≤ fl (√(fl (fl (v 0 * v 0) + fl (v 1 * v 1)))) → |φ - atan2 (v 2) (fl (√(fl (fl (v 0 * v 0) + fl (v 1 * v 1)))))| ≤ 4.5e-16) :
    ∃ T P, |θ - T| ≤ 4.5e-16 ∧ |φ - P| ≤ 4.5e-16 ∧ |T| ≤ π ∧ |P| ≤ π / 2 ∧ len (fun i => dir T P i - u i) ≤ 3.5 * e + 1.1e-15 := by
  have hd := len_le_of_comp hv
  have e0 := (abs_nonneg _).trans (hv 0)
  have hr := abs_le.1 ((len_rev_tri v V).trans hd)
  have n1 : 0.98 ≤ len v := by norm_num at *; linarith
  have n2 : len v ≤ 1.02 := by norm_num at *; linarith
  obtain ⟨T, P, t1, t2, t3, t4, t5⟩ := flC2s_core R hL nz v (le_trans (by norm_num) n1) (n2.trans (by norm_num)) θ φ hθ hφ
  refine ⟨T, P, t1, t2, t3, t4, ?_⟩
  have c2 : len V * len (fun i => dir T P i - u i) ≤ 1.05e-15 * 1.02 + 2 * (1.7321 * e) := by
    have ee : (fun i => len V * (dir T P i - u i)) = fun i => (len V * dir T P i - V i) := by
      funext i; have := congrFun hu i; rw [mul_sub, this]
    have e9 : len V * len (fun i => dir T P i - u i) = len (fun i => len V * dir T P i - V i) := by
      rw [← ee, len_smul (len V) (fun i => dir T P i - u i), abs_of_nonneg (len_nonneg V)]
    rw [e9]
    have q1 := len_tri (fun i => len V * dir T P i) (fun i => len v * dir T P i) V
    have q2 := len_tri (fun i => len v * dir T P i) v V
    have q3 : len (fun i => len V * dir T P i - len v * dir T P i) = |len V - len v| := by
      have : (fun i => len V * dir T P i - len v * dir T P i) = fun i => (len V - len v) * dir T P i := by funext i; ring
      rw [this, len_smul, len_one (dot_dir _ _), mul_one]
    have q4 : |len V - len v| ≤ 1.7321 * e := by rw [abs_sub_comm]; exact abs_le.2 hr
    have q5 : (1.05e-15 : ℝ) * len v ≤ 1.05e-15 * 1.02 := mul_le_mul_of_nonneg_left n2 (by norm_num)
    linarith
  have h0 := len_nonneg (fun i => dir T P i - u i)
  by_contra hc
  push Not at hc
  have : 0.99 * (3.5 * e + 1.1e-15) < len V * len (fun i => dir T P i - u i) := by nlinarith
  norm_num at *
  linarith

/-- The same for palDcc2s. -/
theorem flC2s_wide (R : Rounding fl) (hL : LibmOK L) (nz : Bool) {v V u : Vec3} {e : ℝ} (hv : ∀ i, |v i - V i| ≤ e) (he : e ≤ 1e-11) (h1 : 0.99 ≤ len V) (h2 : len V ≤ 1.01)
    (hu : (fun i => len V * u i) = V) :
    let s := flC2s fl L nz v
    |s.1| ≤ π + 4.5e-16 ∧ |s.2| ≤ π / 2 + 4.5e-16 ∧ len (fun i => dir s.1 s.2 i - u i) ≤ 3.5 * e + 2e-15 := by
  intro s
  have hd := len_le_of_comp hv
  have e0 := (abs_nonneg _).trans (hv 0)
  have hr := abs_le.1 ((len_rev_tri v V).trans hd)
  have n1 : 0.98 ≤ len v := by norm_num at *; linarith
  have n2 : len v ≤ 1.02 := by norm_num at *; linarith
  obtain ⟨T, P, t1, t2, t3, t4, t5⟩ := core_dir R hL nz hv he h1 h2 hu s.1 s.2 (by
    show _ ∨ (_ ∧ (flC2s fl L nz v).1 = _)
    unfold flC2s
    dsimp only
    by_cases h0 : fl (fl (v 0 * v 0) + fl (v 1 * v 1)) = 0
    · left
      refine ⟨by rw [h0, Real.sqrt_zero]; exact R.zero, ?_⟩
      show (flC2s fl L nz v).1 = 0
      unfold flC2s
      dsimp only
      rw [if_pos h0]
    · right
      rw [if_neg h0]
      refine ⟨?_, rfl⟩
      by_contra hc
      push Not at hc
      apply h0
      rw [hc.1, hc.2]; simp [R.zero]) (by
    intro hr0
    show |(flC2s fl L nz v).2 - _| ≤ _
    unfold flC2s
    dsimp only
    by_cases h0 : v 2 = 0
    · rw [if_pos h0, h0, atan2_zero_pos hr0]; norm_num
    · rw [if_neg h0]; exact hL.atan2 _ _)
  refine ⟨close_range t1 t3, close_range t2 t4, ?_⟩
  have c := chord s.1 s.2 T P
  have := len_tri (dir s.1 s.2) (dir T P) u
  norm_num at *
  linarith


/-- Two nearby directions have nearby latitudes and, away from the poles, nearby longitudes. -/
theorem dir_split {T P T0 P0 d : ℝ} (hP : |P| ≤ π / 2) (hP0 : |P0| ≤ π / 2) (h : len (fun i => dir T P i - dir T0 P0 i) ≤ d) (hd : d ≤ 1e-6) :
    |P - P0| ≤ 1.001 * d ∧ |cos P0 * (cos T - cos T0)| ≤ 2.001 * d ∧ |cos P0 * (sin T - sin T0)| ≤ 2.001 * d := by
  have d0 : 0 ≤ d := (len_nonneg _).trans h
  have c := fun i => (comp_le_len (fun i => dir T P i - dir T0 P0 i) i).trans h
  have c0 : |cos P * cos T - cos P0 * cos T0| ≤ d := c 0
  have c1 : |cos P * sin T - cos P0 * sin T0| ≤ d := c 1
  have cp : 0 ≤ cos P := cos_nonneg_of_neg_pi_div_two_le_of_le (abs_le.1 hP).1 (abs_le.1 hP).2
  have cp0 : 0 ≤ cos P0 := cos_nonneg_of_neg_pi_div_two_le_of_le (abs_le.1 hP0).1 (abs_le.1 hP0).2
  have sq : len (fun i => dir T P i - dir T0 P0 i) ^ 2 = 2 - 2 * cos (P - P0) + 2 * cos P * cos P0 * (1 - cos (T - T0)) := by
    rw [pow_two, len_sq, dot_eq]
    simp only [dir, Matrix.cons_val_zero, Matrix.cons_val_one, Matrix.cons_val]
    rw [cos_sub, cos_sub]
    have := sin_sq_add_cos_sq T; have := sin_sq_add_cos_sq P; have := sin_sq_add_cos_sq T0; have := sin_sq_add_cos_sq P0
    grind
  have key : 2 - 2 * cos (P - P0) ≤ d ^ 2 := by
    have a := pow_le_pow_left₀ (len_nonneg _) h 2
    have b : 0 ≤ 2 * cos P * cos P0 * (1 - cos (T - T0)) := mul_nonneg (mul_nonneg (by linarith) cp0) (by linarith [cos_le_one (T - T0)])
    linarith
  have pd : |P - P0| ≤ 1.001 * d := by
    have e : cos (P - P0) = 1 - 2 * sin (|P - P0| / 2) ^ 2 := by
      rw [← Real.cos_abs]
      conv_lhs => rw [show |P - P0| = 2 * (|P - P0| / 2) by ring, Real.cos_two_mul, Real.cos_sq']
      ring
    have x0 : 0 ≤ |P - P0| / 2 := by positivity
    have x1 : |P - P0| / 2 ≤ π / 2 := by have := abs_sub P P0; linarith
    have s0 : 0 ≤ sin (|P - P0| / 2) := sin_nonneg_of_nonneg_of_le_pi x0 (by linarith [pi_pos])
    have s1 : sin (|P - P0| / 2) ≤ d / 2 := by
      refine le_of_pow_le_pow_left₀ (n := 2) (by norm_num) (by linarith) ?_
      rw [e] at key; nlinarith
    have s2 := Real.mul_le_sin x0 x1
    have e2 : |P - P0| = 2 * (|P - P0| / 2) := by ring
    rw [e2]
    generalize |P - P0| / 2 = x at *
    have p1 := pi_lt_d4
    have p0 := pi_pos
    have x2 : x ≤ 1e-6 := by
      have : 2 / π * x ≤ d / 2 := s2.trans s1
      have h3 : (0.636 : ℝ) ≤ 2 / π := by rw [le_div_iff₀ p0]; norm_num at *; linarith
      have := mul_le_mul_of_nonneg_right h3 x0
      norm_num at *; linarith
    rcases x0.eq_or_lt with rfl | x3
    · norm_num; exact d0
    have := Real.sin_gt_sub_cube x3
    have : x ^ 3 ≤ 1e-6 * x := by
      have : x ^ 2 ≤ 1e-6 := by nlinarith
      nlinarith
    norm_num at *; linarith
  have cc := (Real.abs_cos_sub_cos_le P P0).trans pd
  refine ⟨pd, ?_, ?_⟩
  · rw [show cos P0 * (cos T - cos T0) = (cos P * cos T - cos P0 * cos T0) - (cos P - cos P0) * cos T by ring]
    have := mul_bd cc (abs_cos_le_one T)
    refine (abs_sub _ _).trans ?_
    norm_num at *; linarith
  · rw [show cos P0 * (sin T - sin T0) = (cos P * sin T - cos P0 * sin T0) - (cos P - cos P0) * sin T by ring]
    have := mul_bd cc (abs_sin_le_one T)
    refine (abs_sub _ _).trans ?_
    norm_num at *; linarith


theorem cos_75 {X : ℝ} (h : |X| ≤ 1.3122) : 0.254 ≤ cos X := by
  have p1 := Real.pi_gt_d20
  have p2 := Real.pi_lt_d20
  rw [← Real.cos_abs]
  have h2 := Real.cos_le_cos_of_nonneg_of_le_pi (abs_nonneg X) (by norm_num at *; linarith) h
  refine le_trans ?_ h2
  rw [← Real.sin_pi_div_two_sub]
  have := Real.sin_gt_sub_cube (x := π / 2 - 1.3122) (by norm_num at *; linarith)
  have a0 : 0 ≤ π / 2 - 1.3122 := by norm_num at *; linarith
  have a1 : π / 2 - 1.3122 ≤ 0.2586 := by norm_num at *; linarith
  have := pow_le_pow_left₀ a0 a1 3
  norm_num at *; linarith

set_option maxHeartbeats 1000000 in
/-- The terms of a Newton step of palRefz within 75 degrees of the zenith, from a zenith distance that is slightly wrong. -/
theorem flRefz_parts75 (R : Rounding fl) (hL : LibmOK L) {x X refa refb : ℝ} (hx : |x - X| ≤ 4e-14) (hX : |X| ≤ 1.3122) (ha : |refa| ≤ 5e-4) (hb : |refb| ≤ 5e-7) :
    let t := fl (L.sin x / L.cos x)
    let T := sin X / cos X
    |fl (refa * t) - refa * T| ≤ 4.01e-16 ∧ |refa * T| ≤ 1.97e-3 * |sin X| ∧ |fl (refb * fl (t * fl (t * t))) - refb * (T * (T * T))| ≤ 2e-17 ∧ |refb * (T * (T * T))| ≤ 3.1e-5 * |sin X| ∧
    Near 3.1e-15 (flRefzDen fl refa refb (L.cos x) (fl (t * t))) (1 + (refa + 3 * refb * (T * T)) / (cos X * cos X)) ∧ 0.991 ≤ 1 + (refa + 3 * refb * (T * T)) / (cos X * cos X) := by
  intro t T
  have c0 := cos_75 hX
  have c1 := Real.cos_le_one X
  have s1 := abs_sin_le_one X
  have C0 : 0 < cos X := lt_of_lt_of_le (by norm_num) c0
  have hc : |L.cos x - cos X| ≤ 4.03e-14 := by
    have := hL.cos x
    have := Real.abs_cos_sub_cos_le x X
    have := abs_sub_le (L.cos x) (cos x) (cos X)
    norm_num at *; linarith
  have hs : |L.sin x - sin X| ≤ 4.03e-14 := by
    have := hL.sin x
    have := Real.abs_sin_sub_sin_le x X
    have := abs_sub_le (L.sin x) (sin x) (sin X)
    norm_num at *; linarith
  have nc : Near 1.6e-13 (L.cos x) (cos X) := ⟨C0, by norm_num, by norm_num, by norm_num at *; linarith⟩
  have QTs : |T| ≤ 3.938 * |sin X| := by
    show |sin X / cos X| ≤ _
    rw [abs_div, abs_of_pos C0, div_le_iff₀ C0]
    have := mul_le_mul_of_nonneg_left c0 (abs_nonneg (sin X))
    have s0 := abs_nonneg (sin X)
    generalize |sin X| = S at *
    norm_num at *; linarith
  have QT : |T| ≤ 3.938 := QTs.trans (by norm_num at *; linarith)
  have tT : |t - T| ≤ 8e-13 := R.divN 8e-13 hs nc (by norm_num : (0 : ℝ) < 0.254) c0 QT (by norm_num) (by norm_num)
  have TT := mul_bd QT QT
  have A2 : |refa * T| ≤ 1.97e-3 * |sin X| := (mul_bd ha QTs).trans (by have s0 := abs_nonneg (sin X); generalize |sin X| = S at *; norm_num at *; linarith)
  have A4 : |refb * (T * (T * T))| ≤ 3.1e-5 * |sin X| := by
    refine (mul_bd hb (mul_bd QTs TT)).trans ?_
    have s0 := abs_nonneg (sin X)
    generalize |sin X| = S at *
    norm_num at *; linarith
  clear_value t T
  have q1 := R.mulB 6.31e-12 tT tT QT QT (by norm_num) (by norm_num)
  have q2 := R.mulB 3.74e-11 tT q1 QT TT (by norm_num) (by norm_num)
  have q2' := mul_bd QT TT
  have a1 := R.mulB 4.01e-16 (noerr refa) tT ha QT (by norm_num) (by norm_num)
  have b1 := R.mulB 2e-17 (noerr refb) q2 hb q2' (by norm_num) (by norm_num)
  have b3 := R.mulB 1.7e-22 (noerr 3) (noerr refb) (by norm_num : |(3 : ℝ)| ≤ 3) hb (by norm_num) (by norm_num)
  have b3' := mul_bd (by norm_num : |(3 : ℝ)| ≤ 3) hb
  have b4 := R.mulB 9.6e-18 b3 q1 b3' TT (by norm_num) (by norm_num)
  have b4' := mul_bd b3' TT
  obtain ⟨b5, b5'⟩ := R.addB 9.7e-18 (noerr refa) b4 ha b4' (by norm_num) (by norm_num)
  have C2l : 0.0645 ≤ cos X * cos X := by have := mul_le_mul c0 c0 (by norm_num) C0.le; norm_num at *; linarith
  have C2u : cos X * cos X ≤ 1 := by nlinarith
  have ncc : Near 3.22e-13 (fl (L.cos x * L.cos x)) (cos X * cos X) := (nc.mul 3.21e-13 nc (by norm_num) (by norm_num)).fl R 3.22e-13 (le_trans (by norm_num) C2l) (C2u.trans (by norm_num)) (by norm_num) (by norm_num)
  have Q : |(refa + 3 * refb * (T * T)) / (cos X * cos X)| ≤ 0.0082 := by
    rw [abs_div, abs_of_pos ncc.pos, div_le_iff₀ ncc.pos]; norm_num at *; linarith
  have g := R.divN 2.82e-15 b5 ncc (by norm_num : (0 : ℝ) < 0.0645) C2l Q (by norm_num) (by norm_num)
  obtain ⟨g2, -⟩ := R.addB 3e-15 (noerr 1) g (by norm_num : |(1 : ℝ)| ≤ 1) Q (by norm_num) (by norm_num)
  have D0 : 0.991 ≤ 1 + (refa + 3 * refb * (T * T)) / (cos X * cos X) := by have := (abs_le.1 Q).1; norm_num at *; linarith
  refine ⟨?_, A2, b1, A4, ⟨lt_of_lt_of_le (by norm_num) D0, by norm_num, by norm_num, ?_⟩, D0⟩
  · exact a1
  unfold flRefzDen
  refine g2.trans ?_
  norm_num at *; linarith

set_option maxHeartbeats 1000000 in
/-- palRefz within 75 degrees of the zenith, from a zenith distance that is slightly wrong. -/
theorem flRefz_75 (R : Rounding fl) (hL : LibmOK L) {x X refa refb δ : ℝ} (hx : |x - X| ≤ δ) (hδ : δ ≤ 3.5e-14) (h0 : 0 ≤ X) (hX : X ≤ 1.3091) (ha : |refa| ≤ 5e-4) (hb : |refb| ≤ 5e-7) :
    |flRefz fl L x refa refb - palRefz X refa refb| ≤ δ + 2.3e-15 ∧ |palRefz X refa refb - X| ≤ 0.007 * sin X := by
  have p1 := Real.pi_gt_d20
  have p2 := Real.pi_lt_d20
  have d0 := (abs_nonneg _).trans hx
  have X1 : |X| ≤ 1.3091 := by rw [abs_of_nonneg h0]; exact hX
  have s0 : 0 ≤ sin X := sin_nonneg_of_nonneg_of_le_pi h0 (by norm_num at *; linarith)
  have s1 := sin_le_one X
  have le1 : ∀ k : ℝ, 0 ≤ k → k * sin X ≤ k := fun k hk => mul_le_of_le_one_right hk s1
  -- which branch
  have c := R.cst 0.017453292519943295769236907684886127134428718885417 (M := 0.0175) (by norm_num) (by norm_num) (by norm_num)
  have z83 := R.mulB 1e-12 (noerr 83) c (by norm_num : |(83 : ℝ)| ≤ 83) (by norm_num : |(0.017453292519943295769236907684886127134428718885417 : ℝ)| ≤ 0.0175) (by norm_num) (by norm_num)
  have lt : x < fl (83 * flDd2r fl) := by
    have := (abs_le.1 z83).1
    have := (abs_le.1 hx).2
    unfold flDd2r
    norm_num at *; linarith
  have eM : palRefz X refa refb = X - (X - (X - refzStep X refa refb X) + refzStep X refa refb (X - refzStep X refa refb X)) := by
    unfold palRefz
    dsimp only
    rw [min_eq_left (by norm_num at *; linarith : X ≤ 83 * (π / 180)), if_neg (lt_irrefl X)]
  have eF : flRefz fl L x refa refb = fl (x - flRefzSecond fl L x refa refb (flRefzFirst fl L x refa refb)) := by
    unfold flRefz
    dsimp only
    rw [if_pos lt, if_neg (lt_irrefl x)]
  rw [eM, eF]
  clear c z83 lt eM eF
  -- first step
  obtain ⟨a1, a2, a3, a4, a5, a6⟩ := flRefz_parts75 R hL (hx.trans (by norm_num at *; linarith)) (X1.trans (by norm_num)) ha hb
  have e1 : refzStep X refa refb X = (refa * (sin X / cos X) + refb * (sin X / cos X * (sin X / cos X * (sin X / cos X)))) / (1 + (refa + 3 * refb * (sin X / cos X * (sin X / cos X))) / (cos X * cos X)) := by
    unfold refzStep; dsimp only; rw [sub_self, zero_add]
  rw [abs_of_nonneg s0] at a2 a4
  obtain ⟨n1, n2⟩ := R.addB 4.22e-16 a1 a3 (a2.trans (le1 _ (by norm_num))) (a4.trans (le1 _ (by norm_num))) (by norm_num) (by norm_num)
  have Qs : |(refa * (sin X / cos X) + refb * (sin X / cos X * (sin X / cos X * (sin X / cos X)))) / (1 + (refa + 3 * refb * (sin X / cos X * (sin X / cos X))) / (cos X * cos X))| ≤ 2.02e-3 * sin X := by
    rw [abs_div, abs_of_pos a5.pos, div_le_iff₀ a5.pos]
    have := abs_add_le (refa * (sin X / cos X)) (refb * (sin X / cos X * (sin X / cos X * (sin X / cos X))))
    have := mul_le_mul_of_nonneg_left a6 s0
    linarith
  have Q1 := Qs.trans (le1 _ (by norm_num))
  have r1 := R.divN 4.4e-16 n1 a5 (by norm_num : (0 : ℝ) < 0.991) a6 Q1 (by norm_num) (by norm_num)
  rw [← e1] at r1 Q1 Qs
  obtain ⟨ρ, hρ⟩ : ∃ ρ, ρ = fl (fl (fl (refa * fl (L.sin x / L.cos x)) + fl (refb * fl (fl (L.sin x / L.cos x) * fl (fl (L.sin x / L.cos x) * fl (L.sin x / L.cos x))))) / flRefzDen fl refa refb (L.cos x) (fl (fl (L.sin x / L.cos x) * fl (L.sin x / L.cos x)))) := ⟨_, rfl⟩
  have hz : flRefzFirst fl L x refa refb = fl (x - ρ) := by rw [hρ]; rfl
  rw [← hρ] at r1
  have xb : |x - ρ| ≤ 1.32 := by
    have := abs_le.1 hx
    have := abs_le.1 r1
    have := abs_le.1 Q1
    rw [abs_le]; constructor <;> norm_num at * <;> linarith
  have z1 : |fl (x - ρ) - (x - ρ)| ≤ 1.5e-16 := R.add_err2 (δ := 0) (B := 1.32) 1.5e-16 (noerr _) xb (by norm_num) (by norm_num)
  rw [hz]
  clear a1 a2 a3 a4 a5 a6 e1 n1 n2 hρ hz
  generalize refzStep X refa refb X = S at *
  obtain ⟨z, hz⟩ : ∃ z, z = fl (x - ρ) := ⟨_, rfl⟩
  obtain ⟨Z, hZ⟩ : ∃ Z, Z = X - S := ⟨_, rfl⟩
  rw [← hz] at z1 ⊢
  have eS : X - (X - S) = S := by ring
  have zZ : |z - Z| ≤ 4e-14 := by
    rw [hZ, show z - (X - S) = (z - (x - ρ)) + (x - X) - (ρ - S) by ring]
    have := abs_sub (z - (x - ρ) + (x - X)) (ρ - S)
    have := abs_add_le (z - (x - ρ)) (x - X)
    norm_num at z1 r1 hx hδ ⊢; linarith
  have Zb : |Z| ≤ 1.3122 := by
    rw [hZ]; have := abs_sub X S; norm_num at Q1 X1 ⊢; linarith
  have m : |(x - z) - S| ≤ 5.9e-16 := by
    rw [show (x - z) - S = (ρ - S) - (z - (x - ρ)) by ring]
    have := abs_sub (ρ - S) (z - (x - ρ))
    norm_num at z1 r1 ⊢; linarith
  have m1 := R.add_err2 (B := 2.02e-3) 6e-16 m Q1 (by norm_num) (by norm_num)
  have m2 := R.add_err2 (x := z - x) (X := -S) (δ := 5.9e-16) (B := 2.02e-3) 6e-16 (by rw [show z - x - -S = -((x - z) - S) by ring, abs_neg]; exact m) (by rw [abs_neg]; exact Q1) (by norm_num) (by norm_num)
  obtain ⟨a1, a2, a3, a4, a5, a6⟩ := flRefz_parts75 R hL zZ Zb ha hb
  have sZ : |sin Z| ≤ 1.00202 * sin X := by
    have := Real.abs_sin_sub_sin_le Z X
    have e : |Z - X| ≤ 2.02e-3 * sin X := by rw [hZ, show X - S - X = -S by ring, abs_neg]; exact Qs
    have := abs_sub_abs_le_abs_sub (sin Z) (sin X)
    rw [abs_of_nonneg s0] at this
    linarith
  have a2' : |refa * (sin Z / cos Z)| ≤ 1.98e-3 * sin X := a2.trans (by linarith)
  have a4' : |refb * (sin Z / cos Z * (sin Z / cos Z * (sin Z / cos Z)))| ≤ 3.2e-5 * sin X := a4.trans (by linarith)
  obtain ⟨k1, k1'⟩ := R.addB 1.01e-15 m2 a1 ((abs_neg S).le.trans Q1) (a2'.trans (le1 _ (by norm_num))) (by norm_num) (by norm_num)
  obtain ⟨k2, k2'⟩ := R.addB 1.04e-15 k1 a3 k1' (a4'.trans (le1 _ (by norm_num))) (by norm_num) (by norm_num)
  have NN : |-S + refa * (sin Z / cos Z) + refb * (sin Z / cos Z * (sin Z / cos Z * (sin Z / cos Z)))| ≤ 4.032e-3 * sin X := by
    have := abs_add_le (-S + refa * (sin Z / cos Z)) (refb * (sin Z / cos Z * (sin Z / cos Z * (sin Z / cos Z))))
    have := abs_add_le (-S) (refa * (sin Z / cos Z))
    rw [abs_neg] at this
    linarith
  have eR : refzStep X refa refb Z = (-S + refa * (sin Z / cos Z) + refb * (sin Z / cos Z * (sin Z / cos Z * (sin Z / cos Z)))) / (1 + (refa + 3 * refb * (sin Z / cos Z * (sin Z / cos Z))) / (cos Z * cos Z)) := by
    unfold refzStep; dsimp only; rw [show Z - X = -S by rw [hZ]; ring]
  rw [← hZ, eR]
  unfold flRefzSecond
  dsimp only
  have eX : X - Z = S := by rw [hZ]; ring
  rw [eX]
  generalize flRefzDen fl refa refb (L.cos z) (fl (fl (L.sin z / L.cos z) * fl (L.sin z / L.cos z))) = den at *
  generalize 1 + (refa + 3 * refb * (sin Z / cos Z * (sin Z / cos Z))) / (cos Z * cos Z) = D at *
  generalize fl (fl (fl (z - x) + fl (refa * fl (L.sin z / L.cos z))) + fl (refb * fl (fl (L.sin z / L.cos z) * fl (fl (L.sin z / L.cos z) * fl (L.sin z / L.cos z))))) = n at *
  generalize -S + refa * (sin Z / cos Z) + refb * (sin Z / cos Z * (sin Z / cos Z * (sin Z / cos Z))) = N at *
  have Q2s : |N / D| ≤ 4.08e-3 * sin X := by
    rw [abs_div, abs_of_pos a5.pos, div_le_iff₀ a5.pos]
    have := mul_le_mul_of_nonneg_left a6 s0
    linarith
  have Q2 := Q2s.trans (le1 _ (by norm_num))
  have r := R.divN 1.07e-15 k2 a5 (by norm_num : (0 : ℝ) < 0.991) a6 Q2 (by norm_num) (by norm_num)
  obtain ⟨f1, f2⟩ := R.addB 1.68e-15 m1 r Q1 Q2 (by norm_num) (by norm_num)
  generalize fl (fl (x - z) + fl (n / den)) = q at *
  constructor
  · refine R.add_err2 (δ := δ + 1.68e-15) (B := 1.32) _ ?_ ?_ (by norm_num at *; linarith) (by norm_num at hδ ⊢; linarith)
    · rw [show x - q - (X - (S + N / D)) = (x - X) - (q - (S + N / D)) by ring]
      have := abs_sub (x - X) (q - (S + N / D))
      linarith
    · have := abs_sub X (S + N / D)
      norm_num at f2 X1 ⊢; linarith
  · rw [show X - (S + N / D) - X = -(S + N / D) by ring, abs_neg]
    have := abs_add_le S (N / D)
    linarith

/-- A sum of two products, when the factors are nearly a sine and a cosine. -/
theorem turn_err (R : Rounding fl) {s c x z X Z g : ℝ} (hsc : |s * s + c * c - 1| ≤ 1e-6) (hx : |x - X| ≤ g) (hz : |z - Z| ≤ g) (hg : g ≤ 1e-11) (hX : |X| ≤ 1.001) (hZ : |Z| ≤ 1.001) :
    |fl (fl (s * x) + fl (c * z)) - (s * X + c * Z)| ≤ 1.41424 * g + 4e-16 := by
  have g0 := (abs_nonneg _).trans hx
  have hs : |s| ≤ 1.000001 := by
    refine abs_le_of_sq_le_sq ?_ (by norm_num)
    have := (abs_le.1 hsc).2; nlinarith [mul_self_nonneg c]
  have hc : |c| ≤ 1.000001 := by
    refine abs_le_of_sq_le_sq ?_ (by norm_num)
    have := (abs_le.1 hsc).2; nlinarith [mul_self_nonneg s]
  have xb : |x| ≤ 1.00101 := by have := abs_sub_abs_le_abs_sub x X; norm_num at *; linarith
  have zb : |z| ≤ 1.00101 := by have := abs_sub_abs_le_abs_sub z Z; norm_num at *; linarith
  have m1 := R.mulB 1.113e-16 (noerr s) (noerr x) hs xb (by norm_num) (by norm_num)
  have m2 := R.mulB 1.113e-16 (noerr c) (noerr z) hc zb (by norm_num) (by norm_num)
  have cs : ∀ {a b k : ℝ}, |a| ≤ k → |b| ≤ k → |s * a + c * b| ≤ 1.41424 * k := fun {a b k} ha hb => by
    have k0 := (abs_nonneg _).trans ha
    refine abs_le_of_sq_le_sq ?_ (by positivity)
    have a2 : a ^ 2 ≤ k ^ 2 := by rw [← sq_abs a]; exact pow_le_pow_left₀ (abs_nonneg _) ha 2
    have b2 : b ^ 2 ≤ k ^ 2 := by rw [← sq_abs b]; exact pow_le_pow_left₀ (abs_nonneg _) hb 2
    have e : (s * a + c * b) ^ 2 = (s * s + c * c) * (a ^ 2 + b ^ 2) - (s * b - c * a) ^ 2 := by ring
    have := (abs_le.1 hsc).2
    have n : 0 ≤ a ^ 2 + b ^ 2 := by positivity
    have : (s * s + c * c) * (a ^ 2 + b ^ 2) ≤ (1 + 1e-6) * (a ^ 2 + b ^ 2) := mul_le_mul_of_nonneg_right (by linarith) n
    nlinarith [sq_nonneg (s * b - c * a)]
  have d := cs hx hz
  have b := cs hX hZ
  refine R.add_err2 (δ := 1.41424 * g + 2.226e-16) (B := 1.41424 * 1.001) _ ?_ b (by norm_num at *; linarith) (by norm_num at hg ⊢; linarith)
  rw [show fl (s * x) + fl (c * z) - (s * X + c * Z) = (s * (x - X) + c * (z - Z)) + ((fl (s * x) - s * x) + (fl (c * z) - c * z)) by ring]
  have := abs_add_le (s * (x - X) + c * (z - Z)) ((fl (s * x) - s * x) + (fl (c * z) - c * z))
  have := abs_add_le (fl (s * x) - s * x) (fl (c * z) - c * z)
  norm_num at m1 m2 d ⊢
  linarith

/-- The same for a difference. -/
theorem turn_err' (R : Rounding fl) {s c x z X Z g : ℝ} (hsc : |s * s + c * c - 1| ≤ 1e-6) (hx : |x - X| ≤ g) (hz : |z - Z| ≤ g) (hg : g ≤ 1e-11) (hX : |X| ≤ 1.001) (hZ : |Z| ≤ 1.001) :
    |fl (fl (s * x) - fl (c * z)) - (s * X - c * Z)| ≤ 1.41424 * g + 4e-16 := by
  have := turn_err R (s := s) (c := -c) (by rw [neg_mul_neg]; exact hsc) hx hz hg hX hZ
  rw [neg_mul, R.odd, neg_mul, ← sub_eq_add_neg, ← sub_eq_add_neg] at this
  exact this

/-- Turning about the east axis nearly keeps the length. -/
theorem turn_len {s c : ℝ} (hsc : |s * s + c * c - 1| ≤ 1e-6) {V W : Vec3} (h1 : V 1 = W 1) (h0 : V 0 * V 0 + V 2 * V 2 = (s * s + c * c) * (W 0 * W 0 + W 2 * W 2)) (l1 : 0.999 ≤ len W) (l2 : len W ≤ 1.001) :
    0.9989 ≤ len V ∧ len V ≤ 1.0011 := by
  have eV : len V ^ 2 = V 0 * V 0 + V 1 * V 1 + V 2 * V 2 := by rw [pow_two, len_sq, dot_eq]
  have eW : len W ^ 2 = W 0 * W 0 + W 1 * W 1 + W 2 * W 2 := by rw [pow_two, len_sq, dot_eq]
  have n := len_nonneg V
  have b := abs_le.1 hsc
  have w0 : 0 ≤ W 0 * W 0 + W 2 * W 2 := add_nonneg (mul_self_nonneg _) (mul_self_nonneg _)
  have w1 := mul_self_nonneg (W 1)
  have k1 := pow_le_pow_left₀ (by norm_num) l1 2
  have k2 := pow_le_pow_left₀ (len_nonneg W) l2 2
  have u1 : (1 - 1e-6) * (W 0 * W 0 + W 2 * W 2) ≤ (s * s + c * c) * (W 0 * W 0 + W 2 * W 2) := mul_le_mul_of_nonneg_right (by linarith) w0
  have u2 : (s * s + c * c) * (W 0 * W 0 + W 2 * W 2) ≤ (1 + 1e-6) * (W 0 * W 0 + W 2 * W 2) := mul_le_mul_of_nonneg_right (by linarith) w0
  rw [← h0] at u1 u2
  rw [← h1] at eW w1
  constructor
  · refine le_of_pow_le_pow_left₀ (n := 2) (by norm_num) n ?_
    rw [eV]; norm_num at *; linarith
  · refine le_of_pow_le_pow_left₀ (n := 2) (by norm_num) (by norm_num) ?_
    rw [eV]; norm_num at *; linarith

/-- Diurnal aberration in double precision. -/
theorem diurnal_err (R : Rounding fl) {a g : ℝ} {v D : Vec3} (ha : |a| ≤ 1e-5) (hg : g ≤ 1e-11) (hv : ∀ i, |v i - D i| ≤ g) (hD : ∀ i, |D i| ≤ 1.01) (i : Fin 3) :
    |(![fl (fl (1 - fl (a * v 1)) * v 0), fl (fl (1 - fl (a * v 1)) * fl (v 1 + a)), fl (fl (1 - fl (a * v 1)) * v 2)] : Vec3) i -
      (![(1 - a * D 1) * D 0, (1 - a * D 1) * (D 1 + a), (1 - a * D 1) * D 2] : Vec3) i| ≤ 1.0001 * g + 4e-16 := by
  have g0 := (abs_nonneg _).trans (hv 0)
  have m := R.mulB (1.0001e-5 * g + 2e-21) (noerr a) (hv 1) ha (hD 1) (by norm_num at *; linarith) (by norm_num at hg ⊢; linarith)
  obtain ⟨f, F⟩ := R.subB (1.0002e-5 * g + 1.12e-16) (noerr 1) m (by norm_num : |(1 : ℝ)| ≤ 1) (mul_bd ha (hD 1)) (by norm_num at *; linarith) (by norm_num at hg ⊢; linarith)
  obtain ⟨y, Y⟩ := R.addB (g + 1.14e-16) (hv 1) (noerr a) (hD 1) ha (by norm_num at *; linarith) (by norm_num at hg ⊢; linarith)
  fin_cases i
  · exact R.mulB _ f (hv 0) F (hD 0) (by norm_num at *; nlinarith) (by norm_num at hg ⊢; nlinarith)
  · exact R.mulB _ f y F Y (by norm_num at *; nlinarith) (by norm_num at hg ⊢; nlinarith)
  · exact R.mulB _ f (hv 2) F (hD 2) (by norm_num at *; nlinarith) (by norm_num at hg ⊢; nlinarith)

/-- Diurnal aberration nearly keeps the length. -/
theorem diurnal_len {a : ℝ} {D : Vec3} (ha : |a| ≤ 1e-5) {l u : ℝ} (h0 : 0 ≤ l) (h1 : l ≤ len D) (h2 : len D ≤ u) (hu : u ≤ 1.01) :
    l - 3e-5 ≤ len (![(1 - a * D 1) * D 0, (1 - a * D 1) * (D 1 + a), (1 - a * D 1) * D 2] : Vec3) ∧ len (![(1 - a * D 1) * D 0, (1 - a * D 1) * (D 1 + a), (1 - a * D 1) * D 2] : Vec3) ≤ u + 3e-5 := by
  have d1 : |D 1| ≤ 1.01 := (comp_le_len D 1).trans (h2.trans hu)
  have e : (![(1 - a * D 1) * D 0, (1 - a * D 1) * (D 1 + a), (1 - a * D 1) * D 2] : Vec3) = fun i => (1 - a * D 1) * (fun i => D i + (![0, a, 0] : Vec3) i) i := by
    funext i; fin_cases i <;> simp
  have la : len (![0, a, 0] : Vec3) = |a| := by
    unfold len; rw [Fin.sum_univ_three]; simp [Real.sqrt_sq_eq_abs]
  have t1 := len_rev_tri (fun i => D i + (![0, a, 0] : Vec3) i) D
  simp only [add_sub_cancel_left] at t1
  have t1' : |len (fun i => D i + (![0, a, 0] : Vec3) i) - len D| ≤ 1e-5 := by
    refine t1.trans ?_
    change len (![0, a, 0] : Vec3) ≤ _
    rw [la]; exact ha
  have am := mul_bd ha d1
  rw [e, len_smul]
  generalize len (fun i => D i + (![0, a, 0] : Vec3) i) = q at *
  have b := abs_le.1 t1'
  have b2 := abs_le.1 am
  rw [abs_of_pos (by norm_num at *; linarith)]
  have q0 : 0 ≤ len D := len_nonneg D
  have q1 : |a * D 1 * q| ≤ 1.04e-5 := by
    have : |q| ≤ 1.011 := by rw [abs_le]; constructor <;> norm_num at * <;> linarith
    exact (mul_bd am this).trans (by norm_num)
  have q2 := abs_le.1 q1
  have : (1 - a * D 1) * q = q - a * D 1 * q := by ring
  rw [this]
  constructor <;> norm_num at * <;> linarith

end Pal
