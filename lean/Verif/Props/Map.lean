import Verif.Lemmas.Map
import Verif.Props.Prec

/-!
# Properties C45-C48, C77, C78: mean and apparent places, Earth ephemeris, observatory positions
-/

namespace Pal.Props
open Pal Pal.Spec Real Matrix

/-- The final direction of palMapqk and palMapqkz is that of the rotated vector. -/
theorem finish_dir (m : Mat3) (p : Vec3) : (fun i => len (m.mulVec p) * dir (mapFinish m p).1 (mapFinish m p).2 i) = m.mulVec p := by
  have := c2s_dir (m.mulVec p)
  rw [← len_eq] at this
  unfold mapFinish
  dsimp only
  rw [eraRxp_eq]
  exact this

theorem finish_range (m : Mat3) (p : Vec3) : (mapFinish m p).1 ∈ Set.Ico 0 (2 * π) ∧ |(mapFinish m p).2| ≤ π / 2 :=
  ⟨(eraAnp_spec _).1, (eraC2s_range _).2⟩

theorem finish_parallel {p q : Vec3} (h : mapFinish 1 p = mapFinish 1 q) : p 0 * q 1 = p 1 * q 0 := by
  have f1 := finish_dir 1 p
  have f2 := finish_dir 1 q
  rw [h] at f1
  rw [one_mulVec] at f1 f2
  have g0 := congrFun f1 0
  have g1 := congrFun f1 1
  have g2 := congrFun f2 0
  have g3 := congrFun f2 1
  rw [← g0, ← g1, ← g2, ← g3]
  ring

/-- Light deflection of the direction p (helper). -/
noncomputable def deflect (am : Amprms) (p : Vec3) : Vec3 :=
  fun i => p i + am.gr2e / (if dot p am.ehn + 1 > 1 / 10 ^ 5 then dot p am.ehn + 1 else 1 / 10 ^ 5) * (am.ehn i - dot p am.ehn * p i)

/-- Aberration of p1, with s in place of the scalar product with the velocity (helper). -/
noncomputable def aberrW (am : Amprms) (p1 : Vec3) (s : ℝ) : Vec3 := fun i => am.ab1 * p1 i + (1 + s / (am.ab1 + 1)) * am.abv i

/-- A star without proper motion and parallax. -/
theorem mapqk_zero (rm dm rv : ℝ) (am : Amprms) :
    palMapqk rm dm 0 0 0 rv am = mapFinish am.mat (aberrW am (deflect am (dir rm dm)) (dot (dir rm dm) am.abv)) := by
  have hp : (fun i => dir rm dm i + am.pmt * (![-0 * dir rm dm 1 - 0 * cos rm * sin dm + 0.210945028 * rv * (0 * das2r) * dir rm dm 0,
        0 * dir rm dm 0 - 0 * sin rm * sin dm + 0.210945028 * rv * (0 * das2r) * dir rm dm 1, 0 * cos dm + 0.210945028 * rv * (0 * das2r) * dir rm dm 2] : Vec3) i
        - 0 * das2r * am.eb i) = dir rm dm := by
    funext i; fin_cases i <;> simp
  unfold palMapqk
  dsimp only
  rw [eraS2c_eq, hp, pn_unit (dot_dir rm dm), eraPdp_eq, eraPdp_eq]
  rfl

theorem mapqkz_eq (rm dm : ℝ) (am : Amprms) :
    palMapqkz rm dm am = mapFinish am.mat (aberrW am (deflect am (dir rm dm)) (dot (deflect am (dir rm dm)) am.abv)) := by
  unfold palMapqkz
  dsimp only
  rw [eraS2c_eq, eraPdp_eq, eraPdp_eq]
  rfl

theorem deflect_off {am : Amprms} (h : am.gr2e = 0) (p : Vec3) : deflect am p = p := by
  funext i; unfold deflect; rw [h]; simp

/-- **C45** (partial) Without light deflection (gr2e = 0) the two functions agree exactly for a star without proper motion and parallax.  With light deflection they do not
(`C45_mapqk_mapqkz_refuted`), but they are close (`C45_mapqk_mapqkz_close`). -/
theorem C45_mapqk_mapqkz_partial (rm dm rv : ℝ) (am : Amprms) (h : am.gr2e = 0) : palMapqk rm dm 0 0 0 rv am = palMapqkz rm dm am := by
  rw [mapqk_zero, mapqkz_eq, deflect_off h]

/-- Realistic parameters: Earth moving at 1e-4 c, the light deflection constant for 1 AU. -/
noncomputable def demoAm : Amprms where
  pmt := 0
  eb := ![0, 0, 0]
  ehn := ![0, 1, 0]
  gr2e := 2e-8
  abv := ![0, 1e-4, 0]
  ab1 := √(1 - 1e-8)
  mat := 1

/-- **C45** (negation) palMapqk for a star without proper motion, parallax and radial velocity does not always give the result of palMapqkz: its aberration term is computed with
the direction before light deflection. -/
theorem C45_mapqk_mapqkz_refuted : ¬ (∀ rm dm am, palMapqk rm dm 0 0 0 0 am = palMapqkz rm dm am) := by
  intro h
  have h0 := h 0 0 demoAm
  rw [mapqk_zero, mapqkz_eq] at h0
  have hd : dir 0 0 = ![1, 0, 0] := by funext i; fin_cases i <;> simp [dir]
  have hapos : 0 < √(1 - 1e-8 : ℝ) := Real.sqrt_pos.2 (by norm_num)
  have hp := finish_parallel (show mapFinish 1 _ = mapFinish 1 _ from h0)
  have he : dot (dir 0 0) demoAm.ehn = 0 := by rw [hd, dot_eq]; simp [demoAm]
  have hb : dot (dir 0 0) demoAm.abv = 0 := by rw [hd, dot_eq]; simp [demoAm]
  have hdef : deflect demoAm (dir 0 0) = ![1, 2e-8, 0] := by
    unfold deflect
    rw [he, hd, if_pos (by norm_num)]
    funext i; fin_cases i <;> simp [demoAm]
  have hdv : dot (deflect demoAm (dir 0 0)) demoAm.abv = 2e-12 := by rw [hdef, dot_eq]; simp [demoAm]; norm_num
  rw [hdv, hb, hdef] at hp
  simp only [aberrW, demoAm, Matrix.cons_val_zero, Matrix.cons_val_one] at hp
  generalize √(1 - 1e-8 : ℝ) = a at *
  have : a * (2e-12 / (a + 1)) * 1e-4 = 0 := by linear_combination hp
  have : 0 < a * (2e-12 / (a + 1)) * 1e-4 := by positivity
  linarith

/-- If two vectors are close, so are their directions. -/
theorem dir_close {u u' a a' : Vec3} {k k' s e : ℝ} (hu : len u = 1) (hu' : len u' = 1) (hk : 0 ≤ k) (hk' : 0 ≤ k') (h : (fun i => k * u i) = a) (h' : (fun i => k' * u' i) = a')
    (hs : 0 < s) (hl : s ≤ len a) (he : len (fun i => a' i - a i) ≤ e) : len (fun i => u' i - u i) ≤ 2 * (e / s) := by
  have hke : len a = k := by rw [← h, len_smul, hu, mul_one, abs_of_nonneg hk]
  have hke' : len a' = k' := by rw [← h', len_smul, hu', mul_one, abs_of_nonneg hk']
  have hd := (abs_le.1 ((len_rev_tri a' a).trans he))
  rw [hke, hke'] at hd
  have hkpos : 0 < k := by linarith
  have e1 : (fun i => k * (u' i - u i)) = fun i => (a' i - a i) - (k' - k) * u' i := by
    funext i
    have h1 : k * u i = a i := congrFun h i
    have h2 : k' * u' i = a' i := congrFun h' i
    linarith
  have h2 : k * len (fun i => u' i - u i) ≤ 2 * e := by
    rw [← abs_of_pos hkpos, ← len_smul k (fun i => u' i - u i), e1]
    refine (len_sub_le (fun i => a' i - a i) (fun i => (k' - k) * u' i)).trans ?_
    rw [len_smul, hu', mul_one]
    have : |k' - k| ≤ e := abs_le.2 hd
    linarith
  have hsk : s ≤ k := by linarith
  have h3 : s * len (fun i => u' i - u i) ≤ 2 * e := (mul_le_mul_of_nonneg_right hsk (len_nonneg _)).trans h2
  rw [mul_div_assoc', le_div_iff₀ hs]
  linarith

theorem rot_len {m : Mat3} (h : IsRotation m) (a : Vec3) : len (m.mulVec a) = len a := by rw [len_eq, len_eq, rot_dot h]

theorem len_dir (a b : ℝ) : len (dir a b) = 1 := len_one (dot_dir a b)

/-- Light deflection moves the direction by at most 448 times the deflection parameter, and never shortens it. -/
theorem deflect_bound (am : Amprms) (p : Vec3) (hp : len p = 1) (he : len am.ehn = 1) (hg : 0 ≤ am.gr2e) :
    len (fun i => deflect am p i - p i) ≤ 448 * am.gr2e ∧ 1 ≤ len (deflect am p) := by
  have hpp := dot_of_len hp
  have hee := dot_of_len he
  have hc := dot_le_len p am.ehn
  rw [hp, he, one_mul] at hc
  have hperp : len (fun i => am.ehn i - dot p am.ehn * p i) = √(1 - dot p am.ehn * dot p am.ehn) := by
    rw [len_eq]
    congr 1
    have : dot (fun i => am.ehn i - dot p am.ehn * p i) (fun i => am.ehn i - dot p am.ehn * p i) = dot am.ehn am.ehn - 2 * dot p am.ehn * dot p am.ehn + dot p am.ehn ^ 2 * dot p p := by
      generalize hcc : dot p am.ehn = c
      rw [dot_eq] at hcc
      simp only [dot_eq]; linear_combination (-2 * c) * hcc
    rw [this, hpp, hee]; ring
  have horth : dot p (fun i => am.ehn i - dot p am.ehn * p i) = 0 := by
    rw [dot_sub_right am.ehn (fun i => dot p am.ehn * p i) p, dot_smul_right, hpp]; ring
  unfold deflect
  generalize dot p am.ehn = c at *
  have hc1 := (abs_le.1 hc).1
  have hc2 := (abs_le.1 hc).2
  set M : ℝ := if c + 1 > 1 / 10 ^ 5 then c + 1 else 1 / 10 ^ 5 with hM
  have hMpos : 0 < M := by
    rw [hM]; split_ifs with h
    · exact lt_trans (by norm_num) h
    · norm_num
  have hMb : √(1 - c * c) ≤ 448 * M := by
    refine Real.sqrt_le_iff.2 ⟨by positivity, ?_⟩
    rw [hM]; split_ifs with h
    · nlinarith
    · nlinarith [not_lt.1 h]
  constructor
  · have e : (fun i => p i + am.gr2e / M * (am.ehn i - c * p i) - p i) = fun i => am.gr2e / M * (am.ehn i - c * p i) := by funext i; ring
    rw [e, len_smul, hperp, abs_of_nonneg (div_nonneg hg hMpos.le)]
    calc am.gr2e / M * √(1 - c * c) ≤ am.gr2e / M * (448 * M) := mul_le_mul_of_nonneg_left hMb (div_nonneg hg hMpos.le)
      _ = 448 * am.gr2e := by field_simp
  · have : dot (fun i => p i + am.gr2e / M * (am.ehn i - c * p i)) (fun i => p i + am.gr2e / M * (am.ehn i - c * p i)) =
        dot p p + 2 * (am.gr2e / M) * dot p (fun i => am.ehn i - c * p i) + (am.gr2e / M) ^ 2 * dot (fun i => am.ehn i - c * p i) (fun i => am.ehn i - c * p i) := by
      simp only [dot_eq]; ring
    rw [len_eq, this, hpp, horth]
    refine Real.le_sqrt_of_sq_le ?_
    have := mul_nonneg (sq_nonneg (am.gr2e / M)) (dot_self_nonneg (fun i => am.ehn i - c * p i))
    linarith

/-- **C45** (how close) With light deflection the two functions agree within 600 gr2e v² (v the speed in units of c), about 1e-13 radian for the Earth. -/
theorem C45_mapqk_mapqkz_close (rm dm rv : ℝ) (am : Amprms) (he : len am.ehn = 1) (hg : 0 ≤ am.gr2e) (hg1 : am.gr2e ≤ 1 / 1000) (hv1 : len am.abv ≤ 1 / 10)
    (ha : am.ab1 = √(1 - len am.abv * len am.abv)) (hm : IsRotation am.mat) :
    let a := palMapqk rm dm 0 0 0 rv am
    let b := palMapqkz rm dm am
    len (fun i => dir a.1 a.2 i - dir b.1 b.2 i) ≤ 600 * am.gr2e * len am.abv ^ 2 := by
  dsimp only
  rw [mapqk_zero, mapqkz_eq]
  obtain ⟨hd1, hd2⟩ := deflect_bound am (dir rm dm) (len_dir _ _) he hg
  generalize hp1 : deflect am (dir rm dm) = p1 at *
  generalize hp : dir rm dm = p at *
  have hpl : len p = 1 := by rw [← hp]; exact len_dir _ _
  have hv0 := len_nonneg am.abv
  have hvv : len am.abv * len am.abv ≤ 1 / 100 := by nlinarith
  have haa : am.ab1 * am.ab1 = 1 - len am.abv * len am.abv := by rw [ha]; exact Real.mul_self_sqrt (by linarith)
  have ha0 : 0 ≤ am.ab1 := by rw [ha]; exact Real.sqrt_nonneg _
  have ha9 : 0.99 ≤ am.ab1 := by nlinarith
  have ha1 : am.ab1 ≤ 1 := by nlinarith
  have hp1l : len p1 ≤ 1.448 := by
    have := (abs_le.1 (len_rev_tri p1 p)).2
    rw [hpl] at this
    linarith
  have hdot := dot_le_len p1 am.abv
  have hdiff : len (fun i => am.mat.mulVec (aberrW am p1 (dot p am.abv)) i - am.mat.mulVec (aberrW am p1 (dot p1 am.abv)) i) ≤ 448 * am.gr2e * len am.abv ^ 2 / 1.99 := by
    have e : (fun i => am.mat.mulVec (aberrW am p1 (dot p am.abv)) i - am.mat.mulVec (aberrW am p1 (dot p1 am.abv)) i)
        = am.mat.mulVec (fun i => -(dot (fun i => p1 i - p i) am.abv / (am.ab1 + 1)) * am.abv i) := by
      rw [dot_sub_left]
      refine (Matrix.mulVec_sub am.mat (aberrW am p1 (dot p am.abv)) (aberrW am p1 (dot p1 am.abv))).symm.trans ?_
      congr 1
      funext i
      simp only [Pi.sub_apply, aberrW]
      ring
    rw [e, rot_len hm, len_smul, abs_neg, abs_div, abs_of_pos (by linarith : 0 < am.ab1 + 1)]
    have h1 := dot_le_len (fun i => p1 i - p i) am.abv
    have h2 : |dot (fun i => p1 i - p i) am.abv| ≤ 448 * am.gr2e * len am.abv := h1.trans (mul_le_mul_of_nonneg_right hd1 hv0)
    have h3 : |dot (fun i => p1 i - p i) am.abv| / (am.ab1 + 1) ≤ 448 * am.gr2e * len am.abv / 1.99 :=
      div_le_div₀ (by positivity) h2 (by norm_num) (by linarith)
    calc _ ≤ 448 * am.gr2e * len am.abv / 1.99 * len am.abv := mul_le_mul_of_nonneg_right h3 hv0
      _ = _ := by ring
  have hlow : 0.85 ≤ len (am.mat.mulVec (aberrW am p1 (dot p1 am.abv))) := by
    rw [rot_len hm]
    have t := len_sub_le (aberrW am p1 (dot p1 am.abv)) (fun i => (1 + dot p1 am.abv / (am.ab1 + 1)) * am.abv i)
    have e : (fun i => aberrW am p1 (dot p1 am.abv) i - (1 + dot p1 am.abv / (am.ab1 + 1)) * am.abv i) = fun i => am.ab1 * p1 i := by
      funext i; simp only [aberrW]; ring
    rw [e, len_smul, len_smul, abs_of_nonneg ha0] at t
    have h5 : |dot p1 am.abv| ≤ 0.1448 := hdot.trans (by nlinarith)
    have h6 : |1 + dot p1 am.abv / (am.ab1 + 1)| ≤ 1.1 := by
      have h7 : |dot p1 am.abv / (am.ab1 + 1)| ≤ 0.1 := by
        rw [abs_div, abs_of_pos (by linarith : 0 < am.ab1 + 1), div_le_iff₀ (by linarith)]
        linarith
      rw [abs_le] at h7 ⊢
      constructor <;> linarith
    have h8 : |1 + dot p1 am.abv / (am.ab1 + 1)| * len am.abv ≤ 0.11 := by
      calc _ ≤ 1.1 * (1 / 10) := mul_le_mul h6 hv1 hv0 (by norm_num)
        _ = _ := by norm_num
    have h9 : 0.99 ≤ am.ab1 * len p1 := by nlinarith
    linarith
  have := dir_close (len_dir _ _) (len_dir _ _) (len_nonneg _) (len_nonneg _) (finish_dir am.mat (aberrW am p1 (dot p1 am.abv))) (finish_dir am.mat (aberrW am p1 (dot p am.abv)))
    (by norm_num : (0 : ℝ) < 0.85) hlow hdiff
  refine this.trans ?_
  have h10 : 0 ≤ am.gr2e * len am.abv ^ 2 := by positivity
  have e : 2 * (448 * am.gr2e * len am.abv ^ 2 / 1.99 / 0.85) = am.gr2e * len am.abv ^ 2 * (2 * 448 / 1.99 / 0.85) := by ring
  have e2 : (2 * 448 / 1.99 / 0.85 : ℝ) ≤ 600 := by norm_num
  rw [e]
  nlinarith

/-- The parameters of `demoAm` meet the hypotheses. -/
example : len demoAm.ehn = 1 ∧ len demoAm.abv ≤ 1 / 10 ∧ demoAm.ab1 = √(1 - len demoAm.abv * len demoAm.abv) ∧ IsRotation demoAm.mat := by
  have e1 : len demoAm.ehn = 1 := by simp [len, demoAm, Fin.sum_univ_three]
  have e2 : dot demoAm.abv demoAm.abv = 1e-8 := by rw [dot_eq]; simp [demoAm]; norm_num
  have e3 : len demoAm.abv * len demoAm.abv = 1e-8 := by rw [len_sq, e2]
  refine ⟨e1, ?_, by rw [e3]; rfl, rot_one⟩
  have := len_nonneg demoAm.abv
  nlinarith

end Pal.Props
