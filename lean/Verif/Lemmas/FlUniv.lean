import Verif.Model.FlUniv
import Verif.Lemmas.FlSphere
import Verif.Lemmas.FlRel
import Verif.Lemmas.FlMap
import Verif.Lemmas.FlSmall
import Verif.Lemmas.FlPcd5
import Verif.Props.Orbit

/-!
# Universal elements in double precision: error bounds
-/

namespace Pal
open Real Pal.Spec

variable {fl : ℝ → ℝ}

/-- Rounded scalar products, relative to the sum of the absolute values. -/
theorem flDot_rel (R : Rounding fl) {a b : Vec3} {q : Vec3} {e τ : ℝ} (he : e ≤ 1e-14) (τ0 : 0 ≤ τ) (τ1 : τ ≤ 1) (h : ∀ i, |a i * b i - q i| ≤ e * |q i| + τ) (hT : |q 0| + |q 1| + |q 2| ≤ 10 ^ 28) :
    |flPdp fl a b - (q 0 + q 1 + q 2)| ≤ (e + 3.4e-16) * (|q 0| + |q 1| + |q 2|) + 3.01 * τ + 10 / 10 ^ 200 := by
  have t0 : (0 : ℝ) < 1 / 10 ^ 200 := by positivity
  have t1 : (1 : ℝ) / 10 ^ 200 ≤ 1 := by norm_num
  have hten : (10 : ℝ) / 10 ^ 200 = 10 * (1 / 10 ^ 200) := by ring
  have hb : (10 : ℝ) ^ 30 = 100 * 10 ^ 28 := by norm_num
  have hb1 : (1 : ℝ) ≤ 10 ^ 28 := by norm_num
  have er : ∀ {x : ℝ}, |x| ≤ 100 * 10 ^ 28 → |fl x - x| ≤ 1.1103e-16 * |x| + 1 / 10 ^ 200 := fun {x} hx => R.err (by rw [hb]; exact hx)
  rw [hten]
  generalize (1 : ℝ) / 10 ^ 200 = t at *
  generalize (10 : ℝ) ^ 28 = M at *
  have m := fun i => abs_nonneg (q i)
  have g : ∀ i, e * |q i| ≤ 1e-14 * |q i| := fun i => mul_le_mul_of_nonneg_right he (m i)
  have pb : ∀ i, |a i * b i| ≤ 1.0001 * |q i| + τ := fun i => by
    have := abs_add_le (a i * b i - q i) (q i)
    rw [sub_add_cancel] at this
    have := h i
    have := g i
    have := m i
    linarith
  have tri : ∀ x y z : ℝ, |x - z| ≤ |x - y| + |y - z| := abs_sub_le
  have f : ∀ i, |q i| ≤ M → |fl (a i * b i) - q i| ≤ e * |q i| + 1.1105e-16 * |q i| + 1.0001 * τ + t := fun i hi => by
    have h1 := er (x := a i * b i) (by have := pb i; linarith)
    have h2 := tri (fl (a i * b i)) (a i * b i) (q i)
    have h3 := h i
    have h4 := pb i
    have := m i
    linarith
  have m0 := m 0
  have m1 := m 1
  have m2 := m 2
  have f0 := f 0 (by linarith)
  have f1 := f 1 (by linarith)
  have f2 := f 2 (by linarith)
  have e1 : (e + 3.4e-16) * (|q 0| + |q 1| + |q 2|) = e * |q 0| + e * |q 1| + e * |q 2| + 3.4e-16 * (|q 0| + |q 1| + |q 2|) := by ring
  have g0 := g 0
  have g1 := g 1
  have g2 := g 2
  rw [e1]
  unfold flPdp
  clear pb f h m g e1 hten
  generalize fl (a 0 * b 0) = y0 at *
  generalize fl (a 1 * b 1) = y1 at *
  generalize fl (a 2 * b 2) = y2 at *
  generalize e * |q 0| = c0 at *
  generalize e * |q 1| = c1 at *
  generalize e * |q 2| = c2 at *
  have k1 : |y0 + y1 - (q 0 + q 1)| ≤ |y0 - q 0| + |y1 - q 1| := by
    rw [show y0 + y1 - (q 0 + q 1) = (y0 - q 0) + (y1 - q 1) by ring]; exact abs_add_le _ _
  have k2 : |y0 + y1| ≤ |y0 - q 0| + |y1 - q 1| + (|q 0| + |q 1|) := by
    have := abs_add_le (y0 + y1 - (q 0 + q 1)) (q 0 + q 1)
    rw [sub_add_cancel] at this
    have := abs_add_le (q 0) (q 1)
    linarith
  have r1 := er (x := y0 + y1) (by linarith)
  generalize fl (y0 + y1) = s1 at *
  have k3 := tri s1 (y0 + y1) (q 0 + q 1)
  have k4 : |s1 + y2 - (q 0 + q 1 + q 2)| ≤ |s1 - (q 0 + q 1)| + |y2 - q 2| := by
    rw [show s1 + y2 - (q 0 + q 1 + q 2) = (s1 - (q 0 + q 1)) + (y2 - q 2) by ring]; exact abs_add_le _ _
  have k5 : |s1 + y2| ≤ |s1 - (q 0 + q 1)| + |y2 - q 2| + (|q 0| + |q 1| + |q 2|) := by
    have := abs_add_le (s1 + y2 - (q 0 + q 1 + q 2)) (q 0 + q 1 + q 2)
    rw [sub_add_cancel] at this
    have := abs_add_three (q 0) (q 1) (q 2)
    linarith
  have r2 := er (x := s1 + y2) (by linarith)
  have k6 := tri (fl (s1 + y2)) (s1 + y2) (q 0 + q 1 + q 2)
  linarith

/-- The loop of halvings ends: a power of two bounds the number of passes. -/
theorem flUeHalve_ends (R : Rounding fl) : ∀ (m k n : ℕ) (psj psj2 beta : ℝ), m ≤ 500 → |beta| ≤ 2 ^ (2 * m) → m + 1 ≤ k → ∃ h, flUeHalve fl k n psj psj2 beta = some h ∧ n ≤ h.1 ∧ h.1 ≤ n + m + 1 ∧ |h.2.2.2| ≤ fl 0.7 := by
  have quarter : ∀ (e : ℤ) (x : ℝ), -1074 ≤ e → e ≤ 1000 → |x| ≤ 2 ^ e → |fl x| ≤ 2 ^ e := by
    intro e x h0 h1 hx
    have big : (2 : ℝ) ^ e ≤ 2 ^ 1000 := by rw [← zpow_natCast]; exact zpow_le_zpow_right₀ (by norm_num) (by exact_mod_cast h1)
    have p0 : (0 : ℝ) < 2 ^ e := by positivity
    have kp := R.keep 1 e (by norm_num) h0 (by rw [Int.cast_one, abs_one, one_mul]; exact big)
    rw [Int.cast_one, one_mul] at kp
    have hx' := abs_le.1 hx
    rw [abs_le]
    constructor
    · have := R.mono (-2 ^ e) x (by rw [abs_neg, abs_of_pos p0]; exact big) (hx.trans big) hx'.1
      rwa [R.odd, kp] at this
    · have := R.mono x (2 ^ e) (hx.trans big) (by rw [abs_of_pos p0]; exact big) hx'.2
      rwa [kp] at this
  have seven : (0.6 : ℝ) ≤ fl 0.7 := by
    have := R.cst 0.7 (M := 1) (by norm_num [abs_le]) (by norm_num) (by norm_num)
    have := (abs_le.1 this).1
    linarith
  intro m
  induction m with
  | zero =>
    intro k n psj psj2 beta _ hb hk
    obtain ⟨k, rfl⟩ : ∃ j, k = j + 1 := ⟨k - 1, by omega⟩
    rw [flUeHalve]
    by_cases h : |beta| > fl 0.7
    · rw [if_pos h]
      have q : |fl (beta / 4)| ≤ 2 ^ (-2 : ℤ) := quarter _ _ (by norm_num) (by norm_num) (by
        rw [abs_div, abs_of_pos (by norm_num : (0 : ℝ) < 4)]
        norm_num at hb ⊢; linarith)
      have q' : ¬ |fl (beta / 4)| > fl 0.7 := by
        norm_num at q ⊢; linarith
      rw [flUeHalve.eq_def]; dsimp only; rw [if_neg q']
      exact ⟨_, rfl, by dsimp only; omega, by dsimp only; omega, by push Not at q'; exact q'⟩
    · rw [if_neg h]
      push Not at h
      exact ⟨_, rfl, le_rfl, by dsimp only; omega, h⟩
  | succ m ih =>
    intro k n psj psj2 beta hm hb hk
    obtain ⟨k, rfl⟩ : ∃ j, k = j + 1 := ⟨k - 1, by omega⟩
    rw [flUeHalve]
    by_cases h : |beta| > fl 0.7
    · rw [if_pos h]
      have q : |fl (beta / 4)| ≤ 2 ^ (2 * m) := by
        rw [← zpow_natCast]
        refine quarter _ _ (by push_cast; omega) (by push_cast; omega) ?_
        rw [abs_div, abs_of_pos (by norm_num : (0 : ℝ) < 4), zpow_natCast, div_le_iff₀ (by norm_num)]
        refine hb.trans (le_of_eq ?_)
        rw [show 2 * (m + 1) = 2 * m + 2 by ring, pow_add]; norm_num
      obtain ⟨o, ho, a1, a2, a3⟩ := ih k (n + 1) (fl (psj / 2)) (fl (psj2 / 4)) (fl (beta / 4)) (by omega) q (by omega)
      exact ⟨o, ho, by omega, by omega, a3⟩
    · rw [if_neg h]
      push Not at h
      exact ⟨_, rfl, le_rfl, by dsimp only; omega, h⟩

/-- CD2S as stored. -/
theorem flCd2s_err (R : Rounding fl) : |flCd2s fl - cd2s| ≤ 2.23e-16 * cd2s ∧ 1.99e-7 ≤ flCd2s fl ∧ flCd2s fl ≤ 1.992e-7 ∧ 1.99e-7 ≤ cd2s := by
  have g : |flGcon fl - gcon| ≤ 1.1104e-16 * gcon := by
    have := R.rel (x := 0.01720209895) (by rw [abs_of_pos (by norm_num)]; norm_num) (by rw [abs_of_pos (by norm_num)]; norm_num)
    rwa [abs_of_pos (by norm_num : (0 : ℝ) < 0.01720209895)] at this
  have g' := abs_le.1 g
  have hg : gcon = 0.01720209895 := rfl
  have hc : cd2s = gcon / 86400 := rfl
  have d : |flGcon fl / 86400 - cd2s| ≤ 1.1104e-16 * cd2s := by
    rw [hc, ← sub_div, abs_div, abs_of_pos (by norm_num : (0 : ℝ) < 86400)]
    calc |flGcon fl - gcon| / 86400 ≤ 1.1104e-16 * gcon / 86400 := div_le_div_of_nonneg_right g (by norm_num)
      _ = 1.1104e-16 * (gcon / 86400) := by ring
  have lo : 1.99e-7 ≤ flGcon fl / 86400 := by rw [le_div_iff₀ (by norm_num)]; linarith
  have hi : flGcon fl / 86400 ≤ 1.991e-7 := by rw [div_le_iff₀ (by norm_num)]; linarith
  have p : 0 < flGcon fl / 86400 := by linarith
  have r := R.rel (x := flGcon fl / 86400) (by rw [abs_of_pos p]; refine le_trans ?_ lo; norm_num) (by rw [abs_of_pos p]; refine hi.trans ?_; norm_num)
  rw [abs_of_pos p] at r
  have r' : |flCd2s fl - flGcon fl / 86400| ≤ 1.1104e-16 * (flGcon fl / 86400) := r
  have t := abs_sub_le (flCd2s fl) (flGcon fl / 86400) cd2s
  have c0 : 1.99e-7 ≤ cd2s := by rw [hc, hg]; norm_num
  have d' := abs_le.1 d
  have r'' := abs_le.1 r'
  have lo2 : 1.991e-7 ≤ flGcon fl / 86400 + 1e-9 := by linarith
  refine ⟨by linarith, ?_, by linarith, c0⟩
  have : 1.9909e-7 ≤ flGcon fl / 86400 := by rw [le_div_iff₀ (by norm_num)]; linarith
  linarith

/-- The velocity in AU per canonical day, and back. -/
theorem flVel_err (R : Rounding fl) (v : ℝ) (hv : |v / cd2s| ≤ 10 ^ 14) :
    |fl (v / flCd2s fl) - v / cd2s| ≤ 3.4e-16 * |v / cd2s| + 1 / 10 ^ 199 ∧ |fl (v / flCd2s fl)| ≤ 10 ^ 15 ∧ |fl (flCd2s fl * fl (v / flCd2s fl)) - v| ≤ 2.3e-16 * |v| + 1 / 10 ^ 199 := by
  obtain ⟨c1, c2, c3, c4⟩ := flCd2s_err R
  generalize flCd2s fl = c at *
  have p : 0 < c := by linarith
  have P : 0 < cd2s := by linarith
  have hx : |v / c - v / cd2s| ≤ 2.24e-16 * |v / cd2s| := by
    rw [show v / c - v / cd2s = v / cd2s * ((cd2s - c) / c) by field_simp, abs_mul, mul_comm]
    refine mul_le_mul_of_nonneg_right ?_ (abs_nonneg _)
    rw [abs_div, abs_of_pos p, div_le_iff₀ p, abs_sub_comm]
    have := abs_le.1 c1
    linarith
  have hxx : |v / c| ≤ 1.0001 * |v / cd2s| := by
    have := abs_add_le (v / c - v / cd2s) (v / cd2s)
    rw [sub_add_cancel] at this
    have := abs_nonneg (v / cd2s)
    linarith
  have t199 : (1 : ℝ) / 10 ^ 199 = 10 * (1 / 10 ^ 200) := by norm_num
  have t0 : (0 : ℝ) < 1 / 10 ^ 200 := by positivity
  have t1 : (1 : ℝ) / 10 ^ 200 ≤ 1 := by norm_num
  have er := R.err (x := v / c) (by refine hxx.trans ?_; refine (mul_le_mul_of_nonneg_left hv (by norm_num)).trans (by norm_num))
  have n0 := abs_nonneg (v / cd2s)
  have b : |fl (v / c)| ≤ 1.001 * |v / cd2s| + 1 := by
    have := abs_add_le (fl (v / c) - v / c) (v / c)
    rw [sub_add_cancel] at this
    linarith
  have er2 := R.err (x := c * fl (v / c)) (by
    rw [abs_mul, abs_of_pos p]
    have : c * |fl (v / c)| ≤ 1 * (1.001 * 10 ^ 14 + 1) := mul_le_mul (by linarith) (by linarith) (abs_nonneg _) (by norm_num)
    refine this.trans (by norm_num))
  rw [t199]
  generalize (1 : ℝ) / 10 ^ 200 = t at *
  refine ⟨?_, ?_, ?_⟩
  · have := abs_sub_le (fl (v / c)) (v / c) (v / cd2s)
    linarith
  · have : (1.001 : ℝ) * 10 ^ 14 + 1 ≤ 10 ^ 15 := by norm_num
    linarith
  · have e1 : |c * fl (v / c) - v| ≤ 1.1103e-16 * |v| + t := by
      rw [show c * fl (v / c) - v = c * (fl (v / c) - v / c) by field_simp, abs_mul, abs_of_pos p]
      calc c * |fl (v / c) - v / c| ≤ c * (1.1103e-16 * |v / c| + t) := mul_le_mul_of_nonneg_left er p.le
        _ = 1.1103e-16 * |v| + c * t := by rw [abs_div, abs_of_pos p]; field_simp
        _ ≤ _ := by nlinarith
    have e2 : |c * fl (v / c)| ≤ 1.0001 * |v| + t := by
      have := abs_add_le (c * fl (v / c) - v) v
      rw [sub_add_cancel] at this
      have := abs_nonneg v
      linarith
    have := abs_sub_le (fl (c * fl (v / c))) (c * fl (v / c)) v
    have := abs_nonneg v
    linarith

/-- Without rounding the loop of halvings is that of exact arithmetic. -/
theorem flUeHalve_id : ∀ (m : ℕ) (n : ℕ) (psj psj2 beta : ℝ), |beta| ≤ 0.7 * 4 ^ m → ∀ k, m ≤ k → flUeHalve (fun x => x) k n psj psj2 beta = some (ueHalve n psj psj2 beta) := by
  intro m
  induction m with
  | zero =>
    intro n psj psj2 beta h k _
    have h' : ¬ |beta| > 7 / 10 := by rw [not_lt]; norm_num at h ⊢; exact h
    have h'' : ¬ |beta| > 0.7 := by rw [not_lt]; norm_num at h ⊢; exact h
    rw [flUeHalve.eq_def, ueHalve, if_neg h']; dsimp only; rw [if_neg h'']
  | succ m ih =>
    intro n psj psj2 beta h k hk
    obtain ⟨k, rfl⟩ : ∃ j, k = j + 1 := ⟨k - 1, by omega⟩
    rw [flUeHalve.eq_def, ueHalve]
    dsimp only
    have e : (0.7 : ℝ) = 7 / 10 := by norm_num
    rw [e]
    split
    · refine ih _ _ _ _ ?_ k (by omega)
      rw [abs_div, abs_of_pos (by norm_num : (0 : ℝ) < 4), div_le_iff₀ (by norm_num)]
      refine h.trans (le_of_eq ?_)
      rw [pow_succ]; ring
    · rfl

theorem flUeSeries_id (alpha psj psj2 beta : ℝ) : flUeSeries (fun x => x) alpha psj psj2 beta = ueSeries alpha psj psj2 beta := by
  unfold flUeSeries ueSeries
  simp only [flUeNest]

theorem flUeUndo_id : ∀ (n : ℕ) (psj : ℝ) (f : UeFun), flUeUndo (fun x => x) n psj f = ueUndo n psj f := by
  intro n
  induction n with
  | zero => intro psj f; rfl
  | succ n ih => intro psj f; rw [flUeUndo, ueUndo, ih]

theorem flUeFun_id (alpha psi : ℝ) : ∃ m, ∀ k, m ≤ k → flUeFun (fun x => x) k alpha psi = some (ueFun alpha psi) := by
  obtain ⟨m, hm⟩ := pow_unbounded_of_one_lt (|alpha * (psi * psi)| / 0.7) (by norm_num : (1 : ℝ) < 4)
  rw [div_lt_iff₀ (by norm_num)] at hm
  refine ⟨m, fun k hk => ?_⟩
  unfold flUeFun ueFun
  dsimp only
  rw [flUeHalve_id m 0 psi (psi * psi) (alpha * (psi * psi)) (by linarith) k hk]
  simp only [Option.map_some, flUeUndo_id, flUeSeries_id]

/-- Without rounding the iteration is that of exact arithmetic. -/
theorem flUeLoop_id (u : Univ) (dt : ℝ) : ∀ (j nit : ℕ) (psi plast flast : ℝ), 27 - nit ≤ j → ∃ m, ∀ k, m ≤ k → flUeLoop (fun x => x) k u dt nit psi plast flast = some (ueLoop u dt nit psi plast flast) := by
  intro j
  induction j with
  | zero =>
    intro nit psi plast flast h
    obtain ⟨m, hm⟩ := flUeFun_id u.alpha psi
    refine ⟨m, fun k hk => ?_⟩
    rw [flUeLoop, ueLoop, hm k hk]
    have big : nit > 25 := by omega
    simp only [flUeFF, flUeR, ueFF, ueR, big, if_true]
    split_ifs <;> rfl
  | succ j ih =>
    intro nit psi plast flast h
    obtain ⟨m, hm⟩ := flUeFun_id u.alpha psi
    by_cases big : nit > 25
    · refine ⟨m, fun k hk => ?_⟩
      rw [flUeLoop, ueLoop, hm k hk]
      simp only [flUeFF, flUeR, ueFF, ueR, big, if_true]
      split_ifs <;> rfl
    · set s := ueFun u.alpha psi with hs
      obtain ⟨m', hm'⟩ := ih (nit + 1) (psi - (if ueFF u dt s * (if nit = 1 then ueFF u dt s else flast) < 0 then ueFF u dt s * (plast - psi) / ((if nit = 1 then ueFF u dt s else flast) - ueFF u dt s) else ueFF u dt s / ueR u s)) psi (ueFF u dt s) (by omega)
      refine ⟨max m m', fun k hk => ?_⟩
      rw [flUeLoop, ueLoop, hm k (le_trans (le_max_left _ _) hk), ← hs]
      have e1 : flUeFF (fun x => x) u dt s = ueFF u dt s := rfl
      have e2 : flUeR (fun x => x) u s = ueR u s := rfl
      simp only [e1, e2, big, if_false, hm' k (le_trans (le_max_right _ _) hk)]
      rw [apply_ite some, apply_ite some]

end Pal
