import Verif.Lemmas.MapInv
import Verif.Props.Map

/-!
# Property C46: palMap, palAmp, and the inversion of palMapqkz by palAmpqk
-/

namespace Pal.Props
open Pal Pal.Spec Real Matrix

/-- **C46** (composition) palMap is palMappa followed by palMapqk and palAmp is palMappa followed by palAmpqk, whatever the ephemeris and precession theories. -/
theorem C46_map_amp (T : Theory) (epv00 : ℝ → ℝ → Epv) (rm dm pr pd px rv eq date ra da : ℝ) :
    palMap T epv00 rm dm pr pd px rv eq date = palMapqk rm dm pr pd px rv (palMappa T epv00 eq date) ∧
    palAmp T epv00 ra da date eq = palAmpqk ra da (palMappa T epv00 eq date) := ⟨rfl, rfl⟩

theorem num1 {W v : ℝ} (h : 0 ≤ W ^ 2 * v) : 2 * (W ^ 2 / 2 * v / 0.98) ≤ 1.03 * W ^ 2 * v := by
  have e : 2 * (W ^ 2 / 2 * v / 0.98) = W ^ 2 * v * (1 / 0.98) := by ring
  have : (1 / 0.98 : ℝ) ≤ 1.03 := by norm_num
  rw [e]
  nlinarith

theorem num0 {W v : ℝ} (hv : v ≤ 1 / 50) (hW : 0 ≤ W) (hW1 : W ≤ 1 / 10 ^ 4) : W ^ 2 ≤ 1 / 10 ^ 8 ∧ W ^ 2 * v ≤ W ^ 2 / 50 :=
  ⟨by nlinarith, by nlinarith [sq_nonneg W]⟩

theorem num2 {W v : ℝ} (_ : 0 ≤ v) (hv : v ≤ 1 / 50) (hW : 0 ≤ W) (hW1 : W ≤ 1 / 10 ^ 4) : 1.03 * W ^ 2 * v ≤ 1 / 100 := by
  obtain ⟨h1, h2⟩ := num0 hv hW hW1
  linarith

theorem num3 {W v : ℝ} (hv0 : 0 ≤ v) (hv : v ≤ 1 / 50) (hW : 0 ≤ W) (hW1 : W ≤ 1 / 10 ^ 4) :
    15 * v ^ 3 + 2.6 * (1.03 * W ^ 2 * v) + W ^ 2 / 2 ≤ 2 / 10 ^ 4 := by
  obtain ⟨h1, h2⟩ := num0 hv hW hW1
  have h3 : v ^ 3 ≤ (1 / 50) ^ 3 := pow_le_pow_left₀ hv0 hv 3
  linarith

theorem num4 {W v : ℝ} (hv0 : 0 ≤ v) (hv : v ≤ 1 / 50) (_ : 0 ≤ W) :
    2.2 * (15 * v ^ 3 + 2.6 * (1.03 * W ^ 2 * v) + W ^ 2 / 2) + W / 10 ^ 6 ≤ 35 * v ^ 3 + 2 * W ^ 2 + W / 10 ^ 6 := by
  have h2 : W ^ 2 * v ≤ W ^ 2 / 50 := by nlinarith [sq_nonneg W]
  have h3 : 0 ≤ v ^ 3 := by positivity
  have := sq_nonneg W
  linarith

/-- **C46** palAmpqk inverts palMapqkz: for every star at least about 8 degrees from the Sun, every speed up to c/50 and every deflection constant up to 1e-6, applying both gives back the direction within
35 v³ + 2 W² + W/10⁶, where v is the speed in units of c and W the deflection constant divided by 1 + cos(angle from the antisolar point): about 4e-11 radian for the Earth. -/
theorem C46_amp_inverts_map (rm dm : ℝ) (am : Amprms) (hmat : IsRotation am.mat) (he : len am.ehn = 1) (hv : len am.abv ≤ 1 / 50) (ha : am.ab1 = √(1 - len am.abv * len am.abv))
    (hg : 0 ≤ am.gr2e) (hg1 : am.gr2e ≤ 1 / 10 ^ 6) (hd : 1 / 100 ≤ 1 + dot (dir rm dm) am.ehn) :
    let a := palMapqkz rm dm am
    let b := palAmpqk a.1 a.2 am
    let W := am.gr2e / (1 + dot (dir rm dm) am.ehn)
    len (fun i => dir b.1 b.2 i - dir rm dm i) ≤ 35 * len am.abv ^ 3 + 2 * W ^ 2 + W / 10 ^ 6 := by
  dsimp only
  rw [mapqkz_eq]
  have hdef : deflect am (dir rm dm) = fun i => dir rm dm i + am.gr2e / (1 + dot (dir rm dm) am.ehn) * (am.ehn i - dot (dir rm dm) am.ehn * dir rm dm i) := by
    unfold deflect
    rw [if_pos (by have : (1 : ℝ) / 10 ^ 5 < 1 / 100 := by norm_num
                   linarith), add_comm (dot (dir rm dm) am.ehn) 1]
  have hp := len_dir rm dm
  generalize dir rm dm = p at *
  generalize hc : dot p am.ehn = c at *
  have hWdef : am.gr2e = am.gr2e / (1 + c) * (1 + c) := by field_simp
  generalize hWg : am.gr2e / (1 + c) = W at *
  have hv0 := len_nonneg am.abv
  have hW0 : 0 ≤ W := by rw [← hWg]; exact div_nonneg hg (by linarith)
  have hW1 : W ≤ 1 / 10 ^ 4 := by nlinarith
  generalize hp1 : deflect am p = p1 at *
  have hpp := dot_of_len hp
  have hee := dot_of_len he
  -- the length of the deflected vector
  have hsq : dot p1 p1 = 1 + W ^ 2 * (1 - c * c) := by
    have : dot p1 p1 = dot p p + 2 * W * (dot p am.ehn - c * dot p p) + W ^ 2 * (dot am.ehn am.ehn - 2 * c * dot p am.ehn + c ^ 2 * dot p p) := by
      rw [hdef]; simp only [dot_eq]; ring
    rw [this, hpp, hee, hc]; ring
  have hc1 : c * c ≤ 1 := by
    have := dot_le_len p am.ehn
    rw [hp, he, hc, one_mul] at this
    have h := abs_le.1 this
    nlinarith
  have hls := len_sq p1
  have hl0 := len_nonneg p1
  have hl1 : 1 ≤ len p1 := by
    clear hdef hp1
    nlinarith [mul_nonneg (sq_nonneg W) (by linarith : 0 ≤ 1 - c * c)]
  have hl2 : len p1 - 1 ≤ W ^ 2 / 2 := by
    have : W ^ 2 * (1 - c * c) ≤ W ^ 2 := by nlinarith [mul_self_nonneg c, sq_nonneg W]
    nlinarith
  have hlne : len p1 ≠ 0 := by linarith
  -- the normalised deflected direction
  obtain ⟨n, hn⟩ : ∃ n : Vec3, n = fun i => (len p1)⁻¹ * p1 i := ⟨_, rfl⟩
  have hnl : len n = 1 := by rw [hn, len_smul, abs_of_pos (by positivity)]; exact inv_mul_cancel₀ hlne
  have hnn := dot_of_len hnl
  have hp1n : p1 = fun i => len p1 * n i := by
    funext i; rw [hn]; dsimp only; exact (mul_inv_cancel_left₀ hlne (p1 i)).symm
  have hnv : |dot n am.abv| ≤ len am.abv := by have := dot_le_len n am.abv; rwa [hnl, one_mul] at this
  obtain ⟨hnv1, hnv2⟩ := abs_le.1 hnv
  have hpos : 0 < 1 + dot n am.abv := by linarith
  obtain ⟨m0, hm0⟩ : ∃ m0 : Vec3, m0 = fun i => (1 + dot n am.abv)⁻¹ * (am.ab1 * n i + (1 + dot n am.abv / (am.ab1 + 1)) * am.abv i) := ⟨_, rfl⟩
  have hm : (fun i => (1 + dot n am.abv) * m0 i) = fun i => am.ab1 * n i + (1 + dot n am.abv / (am.ab1 + 1)) * am.abv i := by
    funext i; rw [hm0]; dsimp only; exact mul_inv_cancel_left₀ hpos.ne' _
  obtain ⟨hm0l, -, ha9, ha1, -⟩ := aberr_unit (by linarith) ha hnn hm
  -- the direction recovered from the apparent place
  have hp2 : (fun i => (1 / len p1) * aberrW am p1 (dot p1 am.abv) i) = fun i => am.ab1 * n i + (1 / len p1 + dot n am.abv / (am.ab1 + 1)) * am.abv i := by
    funext i
    have e1 : dot p1 am.abv = len p1 * dot n am.abv := by conv_lhs => rw [hp1n]; exact dot_smul_left _ _ _
    have e2 : p1 i = len p1 * n i := congrFun hp1n i
    unfold aberrW
    rw [e1, e2]
    field_simp
  obtain ⟨m, hmdef⟩ : ∃ m : Vec3, m = am.mat.transpose.mulVec (dir (mapFinish am.mat (aberrW am p1 (dot p1 am.abv))).1 (mapFinish am.mat (aberrW am p1 (dot p1 am.abv))).2) := ⟨_, rfl⟩
  have hml : len m = 1 := by rw [hmdef, rot_len (rot_transpose hmat), len_dir]
  have hmp : (fun i => len (aberrW am p1 (dot p1 am.abv)) * m i) = aberrW am p1 (dot p1 am.abv) := by
    have f := finish_dir am.mat (aberrW am p1 (dot p1 am.abv))
    have g := congrArg (am.mat.transpose.mulVec) f
    rw [mulVec_mulVec, rot_trans_mul hmat, one_mulVec, rot_len hmat] at g
    rw [hmdef]
    conv_rhs => rw [← g]
    exact (Matrix.mulVec_smul am.mat.transpose (len (aberrW am p1 (dot p1 am.abv))) _).symm
  have hmm0 : len (fun i => m i - m0 i) ≤ 1.03 * W ^ 2 * len am.abv := by
    have hdiff : len (fun i => (1 / len p1) * aberrW am p1 (dot p1 am.abv) i - (1 + dot n am.abv) * m0 i) ≤ W ^ 2 / 2 * len am.abv := by
      have e : (fun i => (1 / len p1) * aberrW am p1 (dot p1 am.abv) i - (1 + dot n am.abv) * m0 i) = fun i => (1 / len p1 - 1) * am.abv i := by
        funext i
        have i1 := congrFun hp2 i
        have i2 := congrFun hm i
        rw [i1, i2]; ring
      rw [e, len_smul]
      refine mul_le_mul_of_nonneg_right ?_ hv0
      rw [abs_le]
      have h1 : 1 / len p1 ≤ 1 := by rw [div_le_one (by linarith)]; exact hl1
      have h2 : 1 - W ^ 2 / 2 ≤ 1 / len p1 := by
        rw [le_div_iff₀ (by linarith)]
        nlinarith [sq_nonneg W]
      constructor <;> nlinarith [sq_nonneg W]
    have hbig : 0.98 ≤ len (fun i => (1 + dot n am.abv) * m0 i) := by
      rw [len_smul, hm0l, abs_of_pos hpos]; linarith
    have hscaled : (fun i => (1 / len p1 * len (aberrW am p1 (dot p1 am.abv))) * m i) = fun i => (1 / len p1) * aberrW am p1 (dot p1 am.abv) i := by
      funext i
      have := congrFun hmp i
      rw [mul_assoc, this]
    have h := dir_close hm0l hml hpos.le (mul_nonneg (by positivity) (len_nonneg _)) rfl hscaled (by norm_num : (0 : ℝ) < 0.98) hbig hdiff
    refine h.trans (num1 ?_)
    positivity
  -- aberration
  obtain ⟨u1, u2⟩ := aberr_two hv ha hnn hm hml hmm0 (num2 hv0 hv hW0 hW1)
  generalize hu : (ampAberr am m)^[2] m = u at *
  have hB : len (fun i => u i - p1 i) ≤ 15 * len am.abv ^ 3 + 2.6 * (1.03 * W ^ 2 * len am.abv) + W ^ 2 / 2 := by
    refine (len_tri u n p1).trans (add_le_add u2 ?_)
    have e : (fun i => n i - p1 i) = fun i => (1 - len p1) * n i := by
      funext i
      have := congrFun hp1n i
      rw [this]; ring
    rw [e, len_smul, hnl, mul_one, abs_of_nonpos (by linarith)]
    linarith
  obtain ⟨f1, f2⟩ := defl_five hp he hc hd hg hg1 hWdef hdef hB (num3 hv0 hv hW0 hW1) u1
  -- the final direction
  have hout : dir (palAmpqk (mapFinish am.mat (aberrW am p1 (dot p1 am.abv))).1 (mapFinish am.mat (aberrW am p1 (dot p1 am.abv))).2 am).1
      (palAmpqk (mapFinish am.mat (aberrW am p1 (dot p1 am.abv))).1 (mapFinish am.mat (aberrW am p1 (dot p1 am.abv))).2 am).2 = (ampDefl am u)^[5] u := by
    unfold palAmpqk
    dsimp only
    rw [eraS2c_eq, eraTrxp_eq, ← hmdef, hu]
    have := c2s_dir ((ampDefl am u)^[5] u)
    rw [← len_eq, f1] at this
    simpa using this
  rw [hout]
  exact f2.trans (num4 hv0 hv hW0)

/-- With aberration and light deflection switched off palAmpqk recovers the direction exactly, for every rotation matrix. -/
theorem C46_exact (rm dm : ℝ) (am : Amprms) (hmat : IsRotation am.mat) (he : len am.ehn = 1) (hv : am.abv = fun _ => 0) (ha : am.ab1 = 1) (hg : am.gr2e = 0)
    (hd : 1 / 100 ≤ 1 + dot (dir rm dm) am.ehn) :
    let a := palMapqkz rm dm am
    let b := palAmpqk a.1 a.2 am
    dir b.1 b.2 = dir rm dm := by
  have hl : len am.abv = 0 := by rw [hv]; simp [len]
  have := C46_amp_inverts_map rm dm am hmat he (by rw [hl]; norm_num) (by rw [hl, ha]; simp) (by rw [hg]) (by rw [hg]; norm_num) hd
  dsimp only at this ⊢
  rw [hl, hg] at this
  norm_num at this
  have h0 := le_antisymm this (len_nonneg _)
  have hs : dot (fun i => dir (palAmpqk (palMapqkz rm dm am).1 (palMapqkz rm dm am).2 am).1 (palAmpqk (palMapqkz rm dm am).1 (palMapqkz rm dm am).2 am).2 i - dir rm dm i)
      (fun i => dir (palAmpqk (palMapqkz rm dm am).1 (palMapqkz rm dm am).2 am).1 (palAmpqk (palMapqkz rm dm am).1 (palMapqkz rm dm am).2 am).2 i - dir rm dm i) = 0 := by
    rw [← len_sq, h0, mul_zero]
  rw [dot_eq] at hs
  generalize dir (palAmpqk (palMapqkz rm dm am).1 (palMapqkz rm dm am).2 am).1 (palAmpqk (palMapqkz rm dm am).1 (palMapqkz rm dm am).2 am).2 = A at *
  generalize dir rm dm = B at *
  have z : ∀ i, A i - B i = 0 := by
    intro i
    have h0 := mul_self_nonneg (A 0 - B 0)
    have h1 := mul_self_nonneg (A 1 - B 1)
    have h2 := mul_self_nonneg (A 2 - B 2)
    have : (A i - B i) * (A i - B i) = 0 := by fin_cases i <;> simp <;> nlinarith
    exact mul_self_eq_zero.1 this
  funext i
  linarith [z i]

/-- `demoAm` (an Earth moving at 1e-4 c) and the direction of right ascension 0 meet the hypotheses. -/
example : IsRotation demoAm.mat ∧ len demoAm.ehn = 1 ∧ len demoAm.abv ≤ 1 / 50 ∧ demoAm.ab1 = √(1 - len demoAm.abv * len demoAm.abv) ∧ 0 ≤ demoAm.gr2e ∧ demoAm.gr2e ≤ 1 / 10 ^ 6 ∧
    1 / 100 ≤ 1 + dot (dir 0 0) demoAm.ehn := by
  have e1 : len demoAm.ehn = 1 := by simp [len, demoAm, Fin.sum_univ_three]
  have e2 : dot demoAm.abv demoAm.abv = 1e-8 := by rw [dot_eq]; simp [demoAm]; norm_num
  have e3 : len demoAm.abv * len demoAm.abv = 1e-8 := by rw [len_sq, e2]
  refine ⟨rot_one, e1, ?_, by rw [e3]; rfl, by simp [demoAm]; norm_num, by simp [demoAm]; norm_num, ?_⟩
  · have := len_nonneg demoAm.abv
    nlinarith
  · rw [dot_eq]; simp [dir, demoAm]; norm_num

end Pal.Props
