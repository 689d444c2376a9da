import Verif.Lemmas.Vec
import Mathlib.Analysis.SpecialFunctions.Trigonometric.Deriv
import Mathlib.Analysis.SpecialFunctions.Trigonometric.InverseDeriv
import Mathlib.Analysis.SpecialFunctions.Sqrt

namespace Pal
open Real Pal.Spec

/-- Components of the direction as in palAltaz. -/
noncomputable def azX (d p h : ℝ) : ℝ := -(cos h * cos d) * sin p + sin d * cos p
noncomputable def azY (d h : ℝ) : ℝ := -sin h * cos d
noncomputable def azZ (d p h : ℝ) : ℝ := cos h * cos d * cos p + sin d * sin p
noncomputable def azC (d p h : ℝ) : ℝ := cos d * sin p - cos h * (sin d * cos p)
noncomputable def azS (p h : ℝ) : ℝ := sin h * cos p
noncomputable def azR (d p h : ℝ) : ℝ := √(azX d p h * azX d p h + azY d h * azY d h)

theorem az_sq (d p h : ℝ) : azX d p h * azX d p h + azY d h * azY d h + azZ d p h * azZ d p h = 1 := by
  have h1 := sin_sq_add_cos_sq h
  have h2 := sin_sq_add_cos_sq d
  have h3 := sin_sq_add_cos_sq p
  unfold azX azY azZ
  grind

theorem az_cs (d p h : ℝ) : azC d p h * azC d p h + azS p h * azS p h = azX d p h * azX d p h + azY d h * azY d h := by
  have h1 := sin_sq_add_cos_sq h
  have h2 := sin_sq_add_cos_sq d
  have h3 := sin_sq_add_cos_sq p
  unfold azX azY azC azS
  grind

theorem azR_sq (d p h : ℝ) : azR d p h * azR d p h = azX d p h * azX d p h + azY d h * azY d h := hyp_sq _ _

theorem altaz_el (h d p : ℝ) : (palAltaz h d p).el = atan2 (azZ d p h) (azR d p h) := rfl

theorem altaz_cos_el (h d p : ℝ) : cos (palAltaz h d p).el = azR d p h := by
  have := hyp_cos_atan2 (azZ d p h) (azR d p h)
  rw [azR_sq, az_sq, Real.sqrt_one, one_mul] at this
  exact this

theorem altaz_sin_el (h d p : ℝ) : sin (palAltaz h d p).el = azZ d p h := by
  have := hyp_sin_atan2 (azZ d p h) (azR d p h)
  rw [azR_sq, az_sq, Real.sqrt_one, one_mul] at this
  exact this

theorem altaz_az (h d p : ℝ) (hr : azR d p h ≠ 0) : azR d p h * cos (palAltaz h d p).az = azX d p h ∧ azR d p h * sin (palAltaz h d p).az = azY d h := by
  have e : (palAltaz h d p).az = (if (if azX d p h * azX d p h + azY d h * azY d h = 0 then 0 else atan2 (azY d h) (azX d p h)) < 0 then
      (if azX d p h * azX d p h + azY d h * azY d h = 0 then 0 else atan2 (azY d h) (azX d p h)) + 2 * π else
      (if azX d p h * azX d p h + azY d h * azY d h = 0 then 0 else atan2 (azY d h) (azX d p h))) := rfl
  have hne : ¬ azX d p h * azX d p h + azY d h * azY d h = 0 := by
    intro h0; apply hr; unfold azR; rw [h0, Real.sqrt_zero]
  rw [if_neg hne] at e
  have hx := hyp_cos_atan2 (azY d h) (azX d p h)
  have hy := hyp_sin_atan2 (azY d h) (azX d p h)
  rw [e]
  split_ifs
  · rw [Real.cos_add_two_pi, Real.sin_add_two_pi]; exact ⟨hx, hy⟩
  · exact ⟨hx, hy⟩

theorem altaz_pa (h d p : ℝ) (hr : azR d p h ≠ 0) : azR d p h * cos (palAltaz h d p).pa = azC d p h ∧ azR d p h * sin (palAltaz h d p).pa = azS p h := by
  have e : (palAltaz h d p).pa = if azC d p h * azC d p h + azS p h * azS p h > 0 then atan2 (azS p h) (azC d p h) else π - h := rfl
  have hpos : azC d p h * azC d p h + azS p h * azS p h > 0 := by
    rw [az_cs]
    rcases (Real.sqrt_nonneg (azX d p h * azX d p h + azY d h * azY d h)).lt_or_eq with h1 | h1
    · exact Real.sqrt_pos.1 h1
    · exact absurd h1.symm hr
  rw [if_pos hpos] at e
  have hx := hyp_cos_atan2 (azS p h) (azC d p h)
  have hy := hyp_sin_atan2 (azS p h) (azC d p h)
  rw [az_cs] at hx hy
  rw [e]
  exact ⟨hx, hy⟩

theorem altaz_rates (h d p : ℝ) (hr : 1 / 10 ^ 30 ≤ azR d p h ^ 2) :
    (palAltaz h d p).pad = -azX d p h * cos p / azR d p h ^ 2 ∧
    (palAltaz h d p).azd = sin p + azZ d p h * (-azX d p h * cos p / azR d p h ^ 2) ∧
    (palAltaz h d p).eld = cos p * azY d h / azR d p h ∧
    (palAltaz h d p).azdd = cos p * azY d h / azR d p h / azR d p h * (azZ d p h * sin p + (2 - azR d p h ^ 2) * (-azX d p h * cos p / azR d p h ^ 2)) ∧
    (palAltaz h d p).eldd = -azR d p h * (-azX d p h * cos p / azR d p h ^ 2) * (sin p + azZ d p h * (-azX d p h * cos p / azR d p h ^ 2)) ∧
    (palAltaz h d p).padd = cos p * azY d h / azR d p h / azR d p h * (sin p + 2 * azZ d p h * (-azX d p h * cos p / azR d p h ^ 2)) := by
  have hsq : azR d p h ^ 2 = azX d p h * azX d p h + azY d h * azY d h := by rw [sq, azR_sq]
  have hn : ¬ azX d p h * azX d p h + azY d h * azY d h < 1 / 10 ^ 30 := by rw [← hsq]; exact not_lt.2 hr
  have key : (if azX d p h * azX d p h + azY d h * azY d h < 1 / 10 ^ 30 then ((1 : ℝ) / 10 ^ 30, √(1 / 10 ^ 30)) else
      (azX d p h * azX d p h + azY d h * azY d h, azR d p h)) = (azR d p h ^ 2, azR d p h) := by
    rw [if_neg hn, hsq]
  have k1 := congrArg Prod.fst key
  have k2 := congrArg Prod.snd key
  dsimp only at k1 k2
  have e1 : (palAltaz h d p).pad = -azX d p h * cos p / (if azX d p h * azX d p h + azY d h * azY d h < 1 / 10 ^ 30 then ((1 : ℝ) / 10 ^ 30, √(1 / 10 ^ 30)) else
      (azX d p h * azX d p h + azY d h * azY d h, azR d p h)).1 := rfl
  have e2 : (palAltaz h d p).eld = cos p * azY d h / (if azX d p h * azX d p h + azY d h * azY d h < 1 / 10 ^ 30 then ((1 : ℝ) / 10 ^ 30, √(1 / 10 ^ 30)) else
      (azX d p h * azX d p h + azY d h * azY d h, azR d p h)).2 := rfl
  rw [key] at e1 e2
  have e3 : (palAltaz h d p).azd = sin p + azZ d p h * (palAltaz h d p).pad := rfl
  have e4 : (palAltaz h d p).azdd = (palAltaz h d p).eld / (if azX d p h * azX d p h + azY d h * azY d h < 1 / 10 ^ 30 then ((1 : ℝ) / 10 ^ 30, √(1 / 10 ^ 30)) else
      (azX d p h * azX d p h + azY d h * azY d h, azR d p h)).2 * (azZ d p h * sin p + (2 - (if azX d p h * azX d p h + azY d h * azY d h < 1 / 10 ^ 30 then ((1 : ℝ) / 10 ^ 30, √(1 / 10 ^ 30)) else
      (azX d p h * azX d p h + azY d h * azY d h, azR d p h)).1) * (palAltaz h d p).pad) := rfl
  have e5 : (palAltaz h d p).eldd = -(if azX d p h * azX d p h + azY d h * azY d h < 1 / 10 ^ 30 then ((1 : ℝ) / 10 ^ 30, √(1 / 10 ^ 30)) else
      (azX d p h * azX d p h + azY d h * azY d h, azR d p h)).2 * (palAltaz h d p).pad * (palAltaz h d p).azd := rfl
  have e6 : (palAltaz h d p).padd = (palAltaz h d p).eld / (if azX d p h * azX d p h + azY d h * azY d h < 1 / 10 ^ 30 then ((1 : ℝ) / 10 ^ 30, √(1 / 10 ^ 30)) else
      (azX d p h * azX d p h + azY d h * azY d h, azR d p h)).2 * (sin p + 2 * azZ d p h * (palAltaz h d p).pad) := rfl
  rw [key] at e4 e5 e6
  dsimp only at e1 e2 e4 e5 e6
  rw [e1] at e3
  rw [e2, e1] at e4
  rw [e1, e3] at e5
  rw [e2, e1] at e6
  exact ⟨e1, e3, e2, e4, e5, e6⟩

theorem az_rS (d p h : ℝ) : cos h * cos p * (azR d p h * azR d p h) + azS p h * (azZ d p h * azY d h * cos p) = -azC d p h * azX d p h * cos p := by
  rw [azR_sq]; unfold azX azY azZ azC azS
  have h1 := sin_sq_add_cos_sq h
  have h2 := sin_sq_add_cos_sq d
  have h3 := sin_sq_add_cos_sq p
  grind

theorem az_rC (d p h : ℝ) : sin h * (sin d * cos p) * (azR d p h * azR d p h) + azC d p h * (azZ d p h * azY d h * cos p) = azS p h * azX d p h * cos p := by
  have h2 := sin_sq_add_cos_sq d
  have h3 := sin_sq_add_cos_sq p
  have e1 : azR d p h * azR d p h = 1 - azZ d p h * azZ d p h := by rw [azR_sq]; linear_combination az_sq d p h
  have e2 : sin d * azZ d p h + azC d p h * cos d = sin p := by unfold azZ azC; linear_combination sin p * h2
  have e3 : sin d - azZ d p h * sin p = cos p * azX d p h := by unfold azZ azX; linear_combination -sin d * h3
  have e4 : azY d h = -sin h * cos d := rfl
  have e5 : azS p h = sin h * cos p := rfl
  rw [e1, e4, e5]
  linear_combination (sin h * cos p) * e3 - (sin h * cos p * azZ d p h) * e2

/-! Derivatives of the components. -/

theorem azX_deriv (d p h : ℝ) : HasDerivAt (azX d p) (sin h * cos d * sin p) h := by
  have := ((((hasDerivAt_cos h).mul_const (cos d)).neg).mul_const (sin p)).add_const (sin d * cos p)
  exact this.congr_deriv (by ring)

theorem azY_deriv (d h : ℝ) : HasDerivAt (azY d) (-cos h * cos d) h := by
  exact ((hasDerivAt_sin h).neg).mul_const (cos d)

theorem azZ_deriv (d p h : ℝ) : HasDerivAt (azZ d p) (-(sin h * cos d * cos p)) h := by
  have := (((hasDerivAt_cos h).mul_const (cos d)).mul_const (cos p)).add_const (sin d * sin p)
  exact this.congr_deriv (by ring)

theorem azC_deriv (d p h : ℝ) : HasDerivAt (azC d p) (sin h * (sin d * cos p)) h := by
  have := (((hasDerivAt_cos h).mul_const (sin d * cos p)).const_sub (cos d * sin p))
  exact this.congr_deriv (by ring)

theorem azS_deriv (p h : ℝ) : HasDerivAt (azS p) (cos h * cos p) h := (hasDerivAt_sin h).mul_const (cos p)

theorem azR_deriv (d p h : ℝ) (hr : azR d p h ≠ 0) : HasDerivAt (azR d p) (-azZ d p h * (-(sin h * cos d * cos p)) / azR d p h) h := by
  have h1 : azX d p h * azX d p h + azY d h * azY d h ≠ 0 := by
    intro h0; apply hr; unfold azR; rw [h0, Real.sqrt_zero]
  have hz := azZ_deriv d p h
  have e : azR d p = fun t => √(1 - azZ d p t * azZ d p t) := by
    funext t; unfold azR; congr 1; linear_combination az_sq d p t
  have h2 : 1 - azZ d p h * azZ d p h ≠ 0 := by
    intro h0; apply h1; linear_combination az_sq d p h + h0
  have := ((hz.mul hz).const_sub 1).sqrt h2
  have h3 : azR d p h = √(1 - azZ d p h * azZ d p h) := congrFun e h
  rw [h3] at hr ⊢
  rw [e]
  refine this.congr_deriv ?_
  show -(-(sin h * cos d * cos p) * azZ d p h + azZ d p h * -(sin h * cos d * cos p)) / (2 * √(1 - azZ d p h * azZ d p h)) = _
  field_simp
  ring

end Pal
