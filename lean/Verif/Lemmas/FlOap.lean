import Verif.Lemmas.FlAopTopo

/-! # The observed direction and its refraction in palOapqk in double precision -/

namespace Pal
open Real Pal.Spec

variable {fl : ℝ → ℝ} {L : Libm}

theorem oapVector_len (ty : ObType) (ob1 ob2 : ℝ) {p : Aoprms} (hsc : |p.sphi * p.sphi + p.cphi * p.cphi - 1| ≤ 1e-6) : 0.9989 ≤ len (oapVector ty ob1 ob2 p) ∧ len (oapVector ty ob1 ob2 p) ≤ 1.0011 := by
  have tl : ∀ a : ℝ, 0.9989 ≤ len (![p.sphi * palDcs2c a ob2 0 - p.cphi * palDcs2c a ob2 2, palDcs2c a ob2 1, p.cphi * palDcs2c a ob2 0 + p.sphi * palDcs2c a ob2 2] : Vec3) ∧
      len (![p.sphi * palDcs2c a ob2 0 - p.cphi * palDcs2c a ob2 2, palDcs2c a ob2 1, p.cphi * palDcs2c a ob2 0 + p.sphi * palDcs2c a ob2 2] : Vec3) ≤ 1.0011 := fun a => by
    have e : palDcs2c a ob2 = dir a ob2 := by
      unfold palDcs2c eraS2c dir; funext i; fin_cases i <;> simp [mul_comm]
    have l : len (palDcs2c a ob2) = 1 := by rw [e]; exact len_one (dot_dir _ _)
    exact turn_len hsc (W := palDcs2c a ob2) (by simp) (by simp only [Matrix.cons_val_zero, Matrix.cons_val]; ring) (by rw [l]; norm_num) (by rw [l]; norm_num)
  cases ty
  · exact tl _
  · exact tl _
  · have := aeo_len ob1 ob2
    unfold oapVector
    rw [this]; norm_num

theorem flOapVector_err (R : Rounding fl) (hL : LibmOK L) (ty : ObType) (ob1 ob2 : ℝ) {p : Aoprms} (hsc : |p.sphi * p.sphi + p.cphi * p.cphi - 1| ≤ 1e-6) (hst : ty = .r → |p.st - ob1| ≤ 20) (i : Fin 3) :
    |flOapVector fl L ty ob1 ob2 p i - oapVector ty ob1 ob2 p i| ≤ 4.4e-15 := by
  have hsc' : |p.cphi * p.cphi + p.sphi * p.sphi - 1| ≤ 1e-6 := by rw [add_comm (p.cphi * p.cphi)]; exact hsc
  have tl : ∀ a A : ℝ, |a - A| ≤ 2.23e-15 → ∀ i, |(![fl (fl (p.sphi * flS2c fl L a ob2 0) - fl (p.cphi * flS2c fl L a ob2 2)), flS2c fl L a ob2 1, fl (fl (p.cphi * flS2c fl L a ob2 0) + fl (p.sphi * flS2c fl L a ob2 2))] : Vec3) i -
      (![p.sphi * palDcs2c A ob2 0 - p.cphi * palDcs2c A ob2 2, palDcs2c A ob2 1, p.cphi * palDcs2c A ob2 0 + p.sphi * palDcs2c A ob2 2] : Vec3) i| ≤ 4.4e-15 := fun a A h i => by
    have e : palDcs2c A ob2 = dir A ob2 := by
      unfold palDcs2c eraS2c dir; funext i; fin_cases i <;> simp [mul_comm]
    rw [e]
    have g1 : ∀ i, |flS2c fl L a ob2 i - dir A ob2 i| ≤ 2.82e-15 := fun i => by
      have e1 := flS2c_err R hL a ob2 i
      have e2 := (comp_le_len _ i).trans (chord a ob2 A ob2)
      rw [sub_self, abs_zero, add_zero] at e2
      have := abs_sub_le (flS2c fl L a ob2 i) (dir a ob2 i) (dir A ob2 i)
      norm_num at *; linarith
    have hD : ∀ i, |dir A ob2 i| ≤ 1.001 := fun i => (dir_le _ _ i).trans (by norm_num)
    fin_cases i
    · exact (turn_err' R hsc (g1 0) (g1 2) (by norm_num) (hD 0) (hD 2)).trans (by norm_num)
    · exact (g1 1).trans (by norm_num)
    · exact (turn_err R hsc' (g1 0) (g1 2) (by norm_num) (hD 0) (hD 2)).trans (by norm_num)
  cases ty
  · refine tl (-fl (p.st - ob1)) (-(p.st - ob1)) ?_ i
    rw [show -fl (p.st - ob1) - -(p.st - ob1) = -(fl (p.st - ob1) - (p.st - ob1)) by ring, abs_neg]
    exact R.add_err2 (δ := 0) (B := 20) 2.23e-15 (noerr _) (hst rfl) (by norm_num) (by norm_num)
  · exact tl (-ob1) (-ob1) (by norm_num) i
  · obtain ⟨e1, -, e3, e4⟩ := aeo_err R hL (az := ob1) (T := ob1) (A := ob1) (z := ob2) (Z := ob2) (k := 0) (ε := 0) (by norm_num) (by simp) (by simp) (by simp) (by norm_num)
    fin_cases i
    · exact e1.trans (by norm_num)
    · exact e3.trans (by norm_num)
    · exact e4.trans (by norm_num)

/-- The refraction removed by palOapqk away from the horizon. -/
theorem flOapRefr_err (R : Rounding fl) (refro : ℝ → ℝ) {p : Aoprms} (hA : |p.refa| ≤ 5e-4) (hB : |p.refb| ≤ 5e-7) {v V : Vec3} (hv : ∀ i, |v i - V i| ≤ 4.4e-15) (hl : len V ≤ 1.0011) (hz : 0.24254 ≤ V 2) (zd ZD : ℝ) :
    ∃ D, oapRefr p (√(V 0 * V 0 + V 1 * V 1)) (V 2) ZD = some D ∧ |flOapRefr fl refro p (fl (√(fl (fl (v 0 * v 0) + fl (v 1 * v 1))))) (v 2) zd - D| ≤ 6.4e-17 ∧ |D| ≤ 2.12e-3 * √(V 0 * V 0 + V 1 * V 1) := by
  have q0 := Real.sqrt_nonneg (V 0 * V 0 + V 1 * V 1)
  have hS : √(V 0 * V 0 + V 1 * V 1) ≤ 1.0011 := by
    refine le_trans ?_ hl
    rw [len_eq, dot_eq]
    exact Real.sqrt_le_sqrt (by have := mul_self_nonneg (V 2); linarith)
  have vb : ∀ i, |v i| ≤ 10 ^ 72 := fun i => by
    have := abs_sub_abs_le_abs_sub (v i) (V i)
    have := (comp_le_len V i).trans hl
    have := hv i
    have : (2 : ℝ) ≤ 10 ^ 72 := by norm_num
    norm_num at *; linarith
  have hh := flHyp_err R (hv 0) (hv 1) (vb 0) (vb 1)
  have hh' : |fl (√(fl (fl (v 0 * v 0) + fl (v 1 * v 1)))) - √(V 0 * V 0 + V 1 * V 1)| ≤ 9.1e-15 := by
    refine hh.trans ?_
    have z : (1 : ℝ) / 10 ^ 98 ≤ 1e-30 := by norm_num
    generalize (1 : ℝ) / 10 ^ 98 = t at *
    norm_num at *; linarith
  clear hh
  generalize fl (√(fl (fl (v 0 * v 0) + fl (v 1 * v 1)))) = s at *
  generalize √(V 0 * V 0 + V 1 * V 1) = S at *
  have zf : fl zbreak ≤ 0.2425357 := by
    have c := (abs_le.1 (R.cst zbreak (M := 1) (by unfold zbreak; norm_num) (by norm_num) (by norm_num))).2
    have : zbreak = 0.242535625 := rfl
    norm_num at *; linarith
  have b1 : V 2 ≥ zbreak := by unfold zbreak; norm_num at *; linarith
  have b2 : v 2 ≥ fl zbreak := by have := (abs_le.1 (hv 2)).1; norm_num at *; linarith
  unfold oapRefr flOapRefr
  rw [if_pos b1, if_pos b2]
  dsimp only
  have Z0 : 0 < V 2 := lt_of_lt_of_le (by norm_num) hz
  have n : Near 1.82e-14 (v 2) (V 2) := ⟨Z0, by norm_num, by norm_num, (hv 2).trans (by norm_num at *; linarith)⟩
  have Qs : |S / V 2| ≤ 4.124 * S := by
    rw [abs_of_nonneg (div_nonneg q0 Z0.le), div_le_iff₀ Z0]
    have := mul_le_mul_of_nonneg_left hz q0
    norm_num at *; linarith
  have Q : |S / V 2| ≤ 4.13 := Qs.trans (by norm_num at *; linarith)
  have t := R.divN 1.15e-13 hh' n (by norm_num : (0 : ℝ) < 0.24254) hz Q (by norm_num) (by norm_num)
  generalize fl (s / v 2) = x at *
  generalize S / V 2 = X at *
  have m1 := R.mulB 5.8e-20 (noerr p.refb) t hB Q (by norm_num) (by norm_num)
  have m1' := mul_bd hB Q
  have m2 := R.mulB 4.8e-19 m1 t m1' Q (by norm_num) (by norm_num)
  have m2' := mul_bd m1' Q
  obtain ⟨m3, m3'⟩ := R.addB 5.4e-19 (noerr p.refa) m2 hA m2' (by norm_num) (by norm_num)
  have m3'' : |p.refa + p.refb * X * X| ≤ 5.1e-4 := m3'.trans (by norm_num)
  have m4 := R.mulB 6.4e-17 m3 t m3'' Q (by norm_num) (by norm_num)
  refine ⟨_, rfl, m4, ?_⟩
  exact (mul_bd m3'' Qs).trans (by norm_num; linarith)

end Pal
