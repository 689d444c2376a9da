import Verif.Model.Map
import Verif.Lemmas.Coord

/-! # Helper lemmas: lengths of vectors, normalisation, the aberration iteration -/

namespace Pal
open Real Matrix Pal.Spec

theorem len_nonneg (a : Vec3) : 0 ≤ len a := Real.sqrt_nonneg _

theorem len_sq (a : Vec3) : len a * len a = dot a a := by
  rw [len_eq]; exact Real.mul_self_sqrt (dot_self_nonneg _)

theorem len_one {a : Vec3} (h : dot a a = 1) : len a = 1 := by rw [len_eq, h, Real.sqrt_one]

theorem dot_of_len {a : Vec3} (h : len a = 1) : dot a a = 1 := by rw [← len_sq, h, mul_one]

theorem len_smul (k : ℝ) (a : Vec3) : len (fun i => k * a i) = |k| * len a := by
  rw [len_eq, len_eq, dot_smul_left, dot_smul_right, ← mul_assoc, Real.sqrt_mul (mul_self_nonneg k), Real.sqrt_mul_self_eq_abs]

theorem dot_le_len (a b : Vec3) : |dot a b| ≤ len a * len b := by
  rw [len_eq, len_eq]; exact abs_dot_le a b

theorem dot_add_left (a b c : Vec3) : dot (fun i => a i + b i) c = dot a c + dot b c := by
  simp only [dot_eq]; ring

theorem dot_sub_left (a b c : Vec3) : dot (fun i => a i - b i) c = dot a c - dot b c := by
  simp only [dot_eq]; ring

theorem dot_sub_right (a b c : Vec3) : dot c (fun i => a i - b i) = dot c a - dot c b := by
  simp only [dot_eq]; ring

theorem dot_add_right (a b c : Vec3) : dot c (fun i => a i + b i) = dot c a + dot c b := by
  simp only [dot_eq]; ring

theorem len_add_le (a b : Vec3) : len (fun i => a i + b i) ≤ len a + len b := by
  refine Real.sqrt_le_iff.2 ⟨add_nonneg (len_nonneg _) (len_nonneg _), ?_⟩
  have h1 := len_sq a
  have h2 := len_sq b
  have h3 := (abs_le.1 (dot_le_len a b)).2
  have h4 : (∑ i, (a i + b i) ^ 2) = dot a a + dot b b + 2 * dot a b := by
    simp only [dot_eq, Fin.sum_univ_three]; ring
  rw [h4]
  nlinarith

theorem len_sub_le (a b : Vec3) : len (fun i => a i - b i) ≤ len a + len b := by
  have h := len_add_le a (fun i => -1 * b i)
  rw [len_smul] at h
  simpa [sub_eq_add_neg] using h

theorem len_sub_comm (a b : Vec3) : len (fun i => a i - b i) = len (fun i => b i - a i) := by
  have h : (fun i => a i - b i) = fun i => (-1 : ℝ) * (b i - a i) := by funext i; ring
  rw [h, len_smul (-1) (fun i => b i - a i)]; simp

theorem len_tri (a b c : Vec3) : len (fun i => a i - c i) ≤ len (fun i => a i - b i) + len (fun i => b i - c i) := by
  have h := len_add_le (fun i => a i - b i) (fun i => b i - c i)
  have e : (fun i => a i - b i + (b i - c i)) = fun i => a i - c i := by funext i; ring
  rwa [e] at h

theorem len_rev_tri (a b : Vec3) : |len a - len b| ≤ len (fun i => a i - b i) := by
  rw [abs_le]
  have h1 := len_add_le (fun i => a i - b i) b
  have h2 := len_add_le (fun i => b i - a i) a
  have e1 : (fun i => a i - b i + b i) = a := by funext i; ring
  have e2 : (fun i => b i - a i + a i) = b := by funext i; ring
  rw [e1] at h1
  rw [e2, len_sub_comm b a] at h2
  constructor <;> linarith

theorem pm_len (a : Vec3) : eraPm a = len a := by rw [eraPm_eq, len_eq]

theorem pn_eq (a : Vec3) : (eraPn a).1 = len a := by
  unfold eraPn; rw [pm_len]; dsimp only; split_ifs <;> rfl

theorem pn_val {a : Vec3} (h : len a ≠ 0) : (eraPn a).2 = fun i => (len a)⁻¹ * a i := by
  unfold eraPn; rw [pm_len]; dsimp only; rw [if_neg h, one_div]

theorem pn_unit {a : Vec3} (h : dot a a = 1) : (eraPn a).2 = a := by
  rw [pn_val (by rw [len_one h]; norm_num), len_one h]; funext i; simp

/-- Normalising a vector close to a unit vector at most doubles the distance. -/
theorem pn_near {x u : Vec3} {e : ℝ} (hu : len u = 1) (he : len (fun i => x i - u i) ≤ e) (h1 : e < 1) :
    len (eraPn x).2 = 1 ∧ len (fun i => (eraPn x).2 i - u i) ≤ 2 * e := by
  have hr := (abs_le.1 ((len_rev_tri x u).trans he))
  rw [hu] at hr
  have hpos : 0 < len x := by linarith [hr.1]
  rw [pn_val hpos.ne']
  constructor
  · rw [len_smul, abs_of_pos (inv_pos.2 hpos), inv_mul_cancel₀ hpos.ne']
  · have t := len_tri (fun i => (len x)⁻¹ * x i) x u
    have e1 : len (fun i => (len x)⁻¹ * x i - x i) = |1 - len x| := by
      have : (fun i => (len x)⁻¹ * x i - x i) = fun i => ((len x)⁻¹ - 1) * x i := by funext i; ring
      rw [this, len_smul]
      rw [← abs_of_pos hpos, ← abs_mul, abs_of_pos hpos]
      congr 1; field_simp
    rw [e1] at t
    have : |1 - len x| ≤ e := by rw [abs_le]; constructor <;> linarith [hr.1, hr.2]
    linarith

/-- The result of relativistic aberration of the unit vector u by the velocity v, before normalisation. -/
theorem aberr_norm {u v : Vec3} {a : ℝ} (hu : dot u u = 1) (ha : 0 ≤ a) (hav : a * a = 1 - dot v v) :
    dot (fun i => a * u i + (1 + dot u v / (a + 1)) * v i) (fun i => a * u i + (1 + dot u v / (a + 1)) * v i) = (1 + dot u v) * (1 + dot u v) := by
  have h1 : a + 1 ≠ 0 := by linarith
  have e : dot (fun i => a * u i + (1 + dot u v / (a + 1)) * v i) (fun i => a * u i + (1 + dot u v / (a + 1)) * v i)
      = a * a * dot u u + 2 * a * (1 + dot u v / (a + 1)) * dot u v + (1 + dot u v / (a + 1)) ^ 2 * dot v v := by
    generalize 1 + dot u v / (a + 1) = w
    simp only [dot_eq]; ring
  rw [e, hu]
  have hv : dot v v = (1 - a) * (1 + a) := by linear_combination hav
  rw [hv]
  generalize dot u v = c
  field_simp
  ring

/-- The aberrated direction, exactly. -/
theorem aberr_unit {am : Amprms} {u m : Vec3} (hv1 : len am.abv ≤ 1 / 10) (ha : am.ab1 = √(1 - len am.abv * len am.abv)) (hu : dot u u = 1)
    (hm : (fun i => (1 + dot u am.abv) * m i) = fun i => am.ab1 * u i + (1 + dot u am.abv / (am.ab1 + 1)) * am.abv i) :
    len m = 1 ∧ |dot u am.abv| ≤ len am.abv ∧ 0.99 ≤ am.ab1 ∧ am.ab1 ≤ 1 ∧ 1 - am.ab1 ≤ len am.abv * len am.abv := by
  have hv0 : 0 ≤ len am.abv := len_nonneg _
  have hvv : len am.abv * len am.abv ≤ 1 / 100 := by nlinarith
  have haa : am.ab1 * am.ab1 = 1 - len am.abv * len am.abv := by rw [ha]; exact Real.mul_self_sqrt (by linarith)
  have ha0 : 0 ≤ am.ab1 := by rw [ha]; exact Real.sqrt_nonneg _
  have ha9 : 0.99 ≤ am.ab1 := by nlinarith
  have ha1 : am.ab1 ≤ 1 := by nlinarith
  have hul := len_one hu
  have huv : |dot u am.abv| ≤ len am.abv := by have := dot_le_len u am.abv; rwa [hul, one_mul] at this
  refine ⟨?_, huv, ha9, ha1, by nlinarith⟩
  have h1 : len (fun i => (1 + dot u am.abv) * m i) = 1 + dot u am.abv := by
    rw [hm, len_eq, aberr_norm hu ha0 (by rw [← len_sq, haa]), Real.sqrt_mul_self (by linarith [(abs_le.1 huv).1])]
  rw [len_smul, abs_of_pos (by linarith [(abs_le.1 huv).1])] at h1
  exact mul_left_cancel₀ (by linarith [(abs_le.1 huv).1] : (1 + dot u am.abv) ≠ 0) (by rw [h1, mul_one])

/-- One pass of the aberration loop, before normalisation, contracts the error, when the aberrated direction is exact. -/
theorem aberr_pre {am : Amprms} {u m x : Vec3} (hv1 : len am.abv ≤ 1 / 10) (ha : am.ab1 = √(1 - len am.abv * len am.abv))
    (hu : dot u u = 1) (hm : (fun i => (1 + dot u am.abv) * m i) = fun i => am.ab1 * u i + (1 + dot u am.abv / (am.ab1 + 1)) * am.abv i) :
    len (fun i => ((1 + dot x am.abv) * m i - (1 + dot x am.abv / (am.ab1 + 1)) * am.abv i) / am.ab1 - u i)
      ≤ 1.2 * len am.abv * len (fun i => x i - u i) := by
  obtain ⟨hml, huv, ha9, ha1, -⟩ := aberr_unit hv1 ha hu hm
  have hv0 : 0 ≤ len am.abv := len_nonneg _
  have hG : (fun i => ((1 + dot x am.abv) * m i - (1 + dot x am.abv / (am.ab1 + 1)) * am.abv i) / am.ab1 - u i)
      = fun i => (dot (fun i => x i - u i) am.abv / am.ab1) * (m i - (1 / (am.ab1 + 1)) * am.abv i) := by
    funext i
    have hmi := congrFun hm i
    rw [dot_sub_left]
    have h1 : am.ab1 ≠ 0 := by linarith
    have h2 : am.ab1 + 1 ≠ 0 := by linarith
    generalize dot x am.abv = X at *
    generalize dot u am.abv = U at *
    generalize am.abv i = vi at *
    generalize m i = mi at *
    generalize u i = ui at *
    have hui : ui = ((1 + U) * mi - (1 + U / (am.ab1 + 1)) * vi) / am.ab1 := by rw [eq_div_iff h1]; linarith
    rw [hui]
    field_simp
    ring
  have hfac : len (fun i => m i - (1 / (am.ab1 + 1)) * am.abv i) ≤ 1.1 := by
    refine (len_sub_le m (fun i => (1 / (am.ab1 + 1)) * am.abv i)).trans ?_
    rw [len_smul, hml, abs_of_pos (by positivity)]
    have : 1 / (am.ab1 + 1) ≤ 1 := by rw [div_le_one (by linarith)]; linarith
    nlinarith
  rw [hG, len_smul]
  have hd := dot_le_len (fun i => x i - u i) am.abv
  rw [abs_div, abs_of_pos (by linarith : 0 < am.ab1)]
  have hE := len_nonneg (fun i => x i - u i)
  generalize len (fun i => x i - u i) = E at *
  generalize len am.abv = v at *
  have h1 : |dot (fun i => x i - u i) am.abv| / am.ab1 ≤ E * v / 0.99 := by
    apply div_le_div₀ (by positivity) hd (by norm_num) ha9
  calc _ ≤ E * v / 0.99 * 1.1 := mul_le_mul h1 hfac (len_nonneg _) (by positivity)
    _ ≤ 1.2 * v * E := by
      have : 0 ≤ E * v := by positivity
      have e : E * v / 0.99 * 1.1 = E * v * (10 / 9) := by ring
      rw [e]
      nlinarith

/-- One pass of the aberration loop with an aberrated direction `m'` in error by `eta`. -/
theorem aberr_step {am : Amprms} {u m m' x : Vec3} {eta E : ℝ} (hv1 : len am.abv ≤ 1 / 10) (ha : am.ab1 = √(1 - len am.abv * len am.abv))
    (hu : dot u u = 1) (hm : (fun i => (1 + dot u am.abv) * m i) = fun i => am.ab1 * u i + (1 + dot u am.abv / (am.ab1 + 1)) * am.abv i)
    (hm' : len (fun i => m' i - m i) ≤ eta) (hx1 : len x = 1) (hx : len (fun i => x i - u i) ≤ E) (hsmall : 1.2 * len am.abv * E + 1.12 * eta < 1) :
    len (ampAberr am m' x) = 1 ∧ len (fun i => ampAberr am m' x i - u i) ≤ 2 * (1.2 * len am.abv * E + 1.12 * eta) := by
  obtain ⟨hml, huv, ha9, ha1, -⟩ := aberr_unit hv1 ha hu hm
  have hv0 : 0 ≤ len am.abv := len_nonneg _
  have hp := aberr_pre (x := x) hv1 ha hu hm
  have hxv : |dot x am.abv| ≤ len am.abv := by have := dot_le_len x am.abv; rwa [hx1, one_mul] at this
  have h1 : len (fun i => ((1 + dot x am.abv) / am.ab1) * (m' i - m i)) ≤ 1.12 * eta := by
    rw [len_smul]
    have h2 : |(1 + dot x am.abv) / am.ab1| ≤ 1.12 := by
      rw [abs_div, abs_of_pos (by linarith : 0 < am.ab1), div_le_iff₀ (by linarith)]
      rw [abs_le] at hxv ⊢
      constructor <;> linarith
    exact mul_le_mul h2 hm' (len_nonneg _) (by norm_num)
  have h3 : len (fun i => ((1 + dot x am.abv) * m' i - (1 + dot x am.abv / (am.ab1 + 1)) * am.abv i) / am.ab1 - u i) ≤ 1.2 * len am.abv * E + 1.12 * eta := by
    have e : (fun i => ((1 + dot x am.abv) * m' i - (1 + dot x am.abv / (am.ab1 + 1)) * am.abv i) / am.ab1 - u i)
        = fun i => (((1 + dot x am.abv) * m i - (1 + dot x am.abv / (am.ab1 + 1)) * am.abv i) / am.ab1 - u i) + ((1 + dot x am.abv) / am.ab1) * (m' i - m i) := by
      funext i
      have : am.ab1 ≠ 0 := by linarith
      field_simp
      ring
    rw [e]
    refine (len_add_le _ _).trans (add_le_add (hp.trans ?_) h1)
    exact mul_le_mul_of_nonneg_left hx (by linarith)
  have := pn_near (len_one hu) h3 hsmall
  unfold ampAberr
  dsimp only
  rw [eraPdp_eq]
  exact this

/-- How far aberration moves a direction. -/
theorem aberr_shift {am : Amprms} {u m : Vec3} (hv1 : len am.abv ≤ 1 / 10) (ha : am.ab1 = √(1 - len am.abv * len am.abv))
    (hu : dot u u = 1) (hm : (fun i => (1 + dot u am.abv) * m i) = fun i => am.ab1 * u i + (1 + dot u am.abv / (am.ab1 + 1)) * am.abv i) :
    len (fun i => m i - u i) ≤ 2.5 * len am.abv := by
  obtain ⟨hml, huv, ha9, ha1, ha2⟩ := aberr_unit hv1 ha hu hm
  have hv0 : 0 ≤ len am.abv := len_nonneg _
  have hul := len_one hu
  have hb := abs_le.1 huv
  have e : (fun i => (1 + dot u am.abv) * (m i - u i)) = fun i => (am.ab1 - 1 - dot u am.abv) * u i + (1 + dot u am.abv / (am.ab1 + 1)) * am.abv i := by
    funext i
    have : (1 + dot u am.abv) * m i = _ := congrFun hm i
    linear_combination this
  have h1 := len_add_le (fun i => (am.ab1 - 1 - dot u am.abv) * u i) (fun i => (1 + dot u am.abv / (am.ab1 + 1)) * am.abv i)
  rw [← e, len_smul, len_smul, len_smul, hul, mul_one, abs_of_pos (by linarith : 0 < 1 + dot u am.abv)] at h1
  have h2 : |am.ab1 - 1 - dot u am.abv| ≤ 1.1 * len am.abv := by
    rw [abs_le]; constructor <;> nlinarith
  have h3 : |1 + dot u am.abv / (am.ab1 + 1)| ≤ 1.06 := by
    have h7 : |dot u am.abv / (am.ab1 + 1)| ≤ 0.06 := by
      rw [abs_div, abs_of_pos (by linarith : 0 < am.ab1 + 1), div_le_iff₀ (by linarith)]
      linarith
    rw [abs_le] at h7 ⊢
    constructor <;> linarith
  have h4 : |1 + dot u am.abv / (am.ab1 + 1)| * len am.abv ≤ 1.06 * len am.abv := mul_le_mul_of_nonneg_right h3 hv0
  have h5 := len_nonneg (fun i => m i - u i)
  have h6 : 0.9 * len (fun i => m i - u i) ≤ 2.16 * len am.abv := by
    have : 0.9 * len (fun i => m i - u i) ≤ (1 + dot u am.abv) * len (fun i => m i - u i) := mul_le_mul_of_nonneg_right (by linarith) h5
    linarith
  linarith

end Pal
