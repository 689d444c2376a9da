import Verif.Props.MapMisc
import Verif.Spec.Nutc
import Mathlib.Analysis.SpecialFunctions.Trigonometric.Arctan

/-!
# Properties C108-C110: annual aberration, light deflection and space motion in the apparent place
-/

namespace Pal.Props
open Pal Pal.Spec Real Matrix

theorem mulVec_smul' (m : Mat3) (k : ℝ) (a : Vec3) : m.mulVec (fun i => k * a i) = fun i => k * m.mulVec a i := by
  have := Matrix.mulVec_smul m k a
  exact this

/-- **C108** (annual aberration) With light deflection switched off, palMapqkz moves the star on the great circle towards the point the Earth is heading for, exactly as special relativity says:
if n is the unit vector along the velocity and β < 1 the speed in units of c, the cosine of the angle from n changes from c to (c + β)/(1 + β c).  (The result is then turned by the matrix.) -/
theorem C108_aberration (rm dm : ℝ) (am : Amprms) (n : Vec3) (β : ℝ) (hn : len n = 1) (hβ : 0 ≤ β) (hβ1 : β < 1) (hv : am.abv = fun i => β * n i) (ha : am.ab1 = √(1 - β ^ 2)) (hg : am.gr2e = 0)
    (hm : IsRotation am.mat) :
    ∃ u : Vec3, dir (palMapqkz rm dm am).1 (palMapqkz rm dm am).2 = am.mat.mulVec u ∧ len u = 1 ∧ dot u n = (dot (dir rm dm) n + β) / (1 + β * dot (dir rm dm) n) ∧
      ∃ a b : ℝ, 0 < a ∧ 0 ≤ b ∧ u = fun i => a * dir rm dm i + b * n i := by
  have hnn := dot_of_len hn
  have haa : am.ab1 * am.ab1 = 1 - β ^ 2 := by rw [ha]; exact Real.mul_self_sqrt (by nlinarith)
  have ha0 : 0 < am.ab1 := by rw [ha]; exact Real.sqrt_pos.2 (by nlinarith)
  have hdl := dot_le_len (dir rm dm) n
  rw [len_dir, hn, one_mul, abs_le] at hdl
  rw [mapqkz_eq, deflect_off hg]
  have hf := finish_dir am.mat (aberrW am (dir rm dm) (dot (dir rm dm) am.abv))
  rw [rot_len hm] at hf
  generalize hp : dir rm dm = p at *
  have hpp : dot p p = 1 := by rw [← hp]; exact dot_dir _ _
  have hs : dot p am.abv = β * dot p n := by rw [hv, dot_smul_right]
  have hw : 0 ≤ 1 + dot p am.abv := by rw [hs]; nlinarith
  have hvv : dot am.abv am.abv = β ^ 2 := by rw [hv, dot_smul_right, dot_comm, dot_smul_right, hnn]; ring
  generalize hc : dot p n = c at *
  have h1 : 0 < 1 + β * c := by nlinarith
  have hl : len (aberrW am p (dot p am.abv)) = 1 + β * c := by
    rw [← hs]
    have e : dot (aberrW am p (dot p am.abv)) (aberrW am p (dot p am.abv)) = (1 + dot p am.abv) ^ 2 := by
      have e1 : dot (aberrW am p (dot p am.abv)) (aberrW am p (dot p am.abv)) = am.ab1 ^ 2 * dot p p + 2 * am.ab1 * (1 + dot p am.abv / (am.ab1 + 1)) * dot p am.abv + (1 + dot p am.abv / (am.ab1 + 1)) ^ 2 * dot am.abv am.abv := by
        generalize hq : dot p am.abv = q
        unfold aberrW
        rw [dot_eq] at hq
        simp only [dot_eq]
        linear_combination (2 * am.ab1 * (1 + q / (am.ab1 + 1))) * hq
      rw [e1, hpp, hvv]
      generalize dot p am.abv = q
      have : β ^ 2 = 1 - am.ab1 * am.ab1 := by linarith
      rw [this]
      field_simp
      ring
    rw [len_eq, e, Real.sqrt_sq hw]
  rw [hl] at hf
  refine ⟨fun i => (1 + β * c)⁻¹ * aberrW am p (dot p am.abv) i, ?_, ?_, ?_, ?_⟩
  · rw [mulVec_smul', ← hf]
    funext i
    field_simp
  · rw [len_smul, hl, abs_of_pos (inv_pos.2 h1), inv_mul_cancel₀ h1.ne']
  · have e : dot (fun i => (1 + β * c)⁻¹ * aberrW am p (dot p am.abv) i) n = (1 + β * c)⁻¹ * (am.ab1 * c + (1 + β * c / (am.ab1 + 1)) * β) := by
      rw [dot_comm, dot_smul_right, dot_comm]
      congr 1
      have : dot (aberrW am p (dot p am.abv)) n = am.ab1 * dot p n + (1 + dot p am.abv / (am.ab1 + 1)) * dot am.abv n := by unfold aberrW; simp only [dot_eq]; ring
      rw [this, hc, hs, hv, dot_comm, dot_smul_right, hnn]
      ring
    rw [e, inv_mul_eq_div]
    congr 1
    have : β * β = 1 - am.ab1 * am.ab1 := by linarith
    field_simp
    linear_combination c * this
  · refine ⟨(1 + β * c)⁻¹ * am.ab1, (1 + β * c)⁻¹ * ((1 + β * c / (am.ab1 + 1)) * β), by positivity, ?_, ?_⟩
    · have : -1 ≤ β * c / (am.ab1 + 1) := by rw [le_div_iff₀ (by linarith)]; nlinarith
      exact mul_nonneg (inv_pos.2 h1).le (mul_nonneg (by linarith) hβ)
    · funext i
      unfold aberrW
      rw [hs, hv]
      ring

/-- **C109** (light deflection) With aberration switched off, palMapqkz moves a star at the angle D from the Sun directly away from the Sun (which is opposite to the heliocentric direction of the Earth) by the
angle δ with tan δ = gr2e / tan(D/2), as general relativity says, or, closer to the Sun's centre than 1 - cos D = 1e-5 (15.4 minutes of arc), tan δ = 1e5 gr2e sin D, which vanishes at the centre. -/
theorem C109_deflection (rm dm D : ℝ) (am : Amprms) (he : len am.ehn = 1) (hv : am.abv = fun _ => 0) (ha : am.ab1 = 1) (hm : IsRotation am.mat) (hD0 : 0 ≤ D) (hD1 : D ≤ π)
    (hD : cos D = -dot (dir rm dm) am.ehn) :
    let δ := arctan (if 1 - cos D > 1e-5 then am.gr2e / tan (D / 2) else am.gr2e * 1e5 * sin D)
    ∃ u : Vec3, dir (palMapqkz rm dm am).1 (palMapqkz rm dm am).2 = am.mat.mulVec u ∧ len u = 1 ∧ dot u (dir rm dm) = cos δ ∧ dot u (fun i => -am.ehn i) = cos (D + δ) := by
  have hee := dot_of_len he
  rw [mapqkz_eq]
  have hz : aberrW am (deflect am (dir rm dm)) (dot (deflect am (dir rm dm)) am.abv) = deflect am (dir rm dm) := by
    funext i; unfold aberrW; rw [ha, hv]; simp
  rw [hz]
  have hf := finish_dir am.mat (deflect am (dir rm dm))
  rw [rot_len hm] at hf
  generalize hp : dir rm dm = p at *
  have hpp : dot p p = 1 := by rw [← hp]; exact dot_dir _ _
  have hc : dot p am.ehn = -cos D := by linarith
  set M : ℝ := if 1 - cos D > 1e-5 then 1 - cos D else 1e-5 with hM
  have hd : deflect am p = fun i => p i + am.gr2e / M * (am.ehn i + cos D * p i) := by
    funext i
    unfold deflect
    rw [hc, hM, show -cos D + 1 = 1 - cos D by ring, show (1 : ℝ) / 10 ^ 5 = 1e-5 by norm_num]
    ring
  have hsD : 0 ≤ sin D := sin_nonneg_of_nonneg_of_le_pi hD0 hD1
  have hsc := sin_sq_add_cos_sq D
  have hM0 : 0 < M := by
    rw [hM]; split_ifs with h
    · exact lt_trans (by norm_num) h
    · norm_num
  have hT : (if 1 - cos D > 1e-5 then am.gr2e / tan (D / 2) else am.gr2e * 1e5 * sin D) = am.gr2e / M * sin D := by
    rw [hM]; split_ifs with h
    · have h2 : sin D = 2 * sin (D / 2) * cos (D / 2) := by rw [← sin_two_mul]; congr 1; ring
      have h3 : 1 - cos D = 2 * sin (D / 2) ^ 2 := by
        have : cos D = 1 - 2 * sin (D / 2) ^ 2 := by
          have h4 := cos_two_mul (D / 2)
          rw [show 2 * (D / 2) = D by ring] at h4
          rw [h4]
          linear_combination 2 * sin_sq_add_cos_sq (D / 2)
        linarith
      have h5 : sin (D / 2) ≠ 0 := by
        intro h6
        rw [h6] at h3
        norm_num at h3 h
        linarith
      rw [h2, h3, tan_eq_sin_div_cos]
      field_simp
    · rw [show (1e5 : ℝ) = 1 / 1e-5 by norm_num]; ring
  dsimp only
  rw [hT]
  generalize hgM : am.gr2e / M = w at *
  set t := w * sin D with ht
  have hl2 : dot (deflect am p) (deflect am p) = 1 + t ^ 2 := by
    have e : dot (deflect am p) (deflect am p) = (1 + w * cos D) ^ 2 * dot p p + 2 * (1 + w * cos D) * w * dot p am.ehn + w ^ 2 * dot am.ehn am.ehn := by
      rw [hd]; simp only [dot_eq]; ring
    rw [e, hpp, hc, hee, ht]
    linear_combination (-(w ^ 2)) * hsc
  have hl : len (deflect am p) = √(1 + t ^ 2) := by rw [len_eq, hl2]
  have hq : 0 < √(1 + t ^ 2) := Real.sqrt_pos.2 (by positivity)
  rw [hl] at hf
  refine ⟨fun i => (√(1 + t ^ 2))⁻¹ * deflect am p i, ?_, ?_, ?_, ?_⟩
  · rw [mulVec_smul', ← hf]
    funext i
    field_simp
  · rw [len_smul, hl, abs_of_pos (inv_pos.2 hq), inv_mul_cancel₀ hq.ne']
  · rw [cos_arctan, dot_comm, dot_smul_right, inv_mul_eq_div]
    congr 1
    have : dot p (deflect am p) = (1 + w * cos D) * dot p p + w * dot p am.ehn := by rw [hd]; simp only [dot_eq]; ring
    rw [this, hpp, hc]; ring
  · rw [cos_add, cos_arctan, sin_arctan, dot_comm, dot_smul_right, inv_mul_eq_div]
    have : dot (fun i => -am.ehn i) (deflect am p) = -((1 + w * cos D) * dot p am.ehn + w * dot am.ehn am.ehn) := by rw [hd]; simp only [dot_eq]; ring
    have e2 : -((1 + w * cos D) * -cos D + w * 1) = cos D - sin D * t := by rw [ht]; linear_combination w * hsc
    rw [this, hee, hc, e2]
    ring

/-- **C109** (size) For the Earth at 1 AU and a star at the limb of the Sun (semi-diameter 959.63 seconds of arc) the displacement is 1.75 seconds of arc. -/
theorem C109_limb : |arctan (2 * 9.87063e-9 / tan (959.63 * Spec.arcsec / 2)) - 1.75 * Spec.arcsec| ≤ 0.002 * Spec.arcsec := by
  have har : Spec.arcsec = π / 648000 := rfl
  have p1 := Real.pi_gt_d6
  have p2 := Real.pi_lt_d6
  rw [har]
  set y := 959.63 * (π / 648000) / 2 with hy
  have y1 : 0.0023262 < y := by rw [hy]; linarith
  have y2 : y < 0.0023263 := by rw [hy]; linarith
  have t1 : y < tan y := Real.lt_tan (by linarith) (by linarith)
  have c1 : 1 - y ^ 2 / 2 ≤ cos y := Real.one_sub_sq_div_two_le_cos
  have c2 : 0.99999 ≤ cos y := by nlinarith
  have t2 : tan y ≤ 0.0023264 := by
    rw [tan_eq_sin_div_cos, div_le_iff₀ (by linarith)]
    have := Real.sin_le (by linarith : (0 : ℝ) ≤ y)
    nlinarith
  set q := 2 * 9.87063e-9 / tan y with hq
  have q1 : 8.485e-6 ≤ q := by rw [hq, le_div_iff₀ (by linarith)]; nlinarith
  have q2 : q ≤ 8.4866e-6 := by rw [hq, div_le_iff₀ (by linarith)]; nlinarith
  have a1 : arctan q ≤ q := by
    have := Real.lt_tan (Real.arctan_pos.2 (by linarith : (0 : ℝ) < q)) (Real.arctan_lt_pi_div_two q)
    rw [tan_arctan] at this
    exact this.le
  have a2 : q - q ^ 3 ≤ arctan q := by
    have h0 : 0 < arctan q := Real.arctan_pos.2 (by linarith)
    have h1 : tan (arctan q) = q := tan_arctan q
    have h3 : cos (arctan q) = 1 / √(1 + q ^ 2) := cos_arctan q
    have h4 : sin (arctan q) = q / √(1 + q ^ 2) := sin_arctan q
    have h5 : sin (arctan q) ≤ arctan q := Real.sin_le h0.le
    have h6 : √(1 + q ^ 2) ≤ 1 + q ^ 2 := by
      rw [Real.sqrt_le_left (by positivity)]; nlinarith [sq_nonneg q]
    have h7 : q - q ^ 3 ≤ q / √(1 + q ^ 2) := by
      rw [le_div_iff₀ (Real.sqrt_pos.2 (by positivity))]
      have : 0 ≤ q - q ^ 3 := by nlinarith [sq_nonneg q]
      calc (q - q ^ 3) * √(1 + q ^ 2) ≤ (q - q ^ 3) * (1 + q ^ 2) := mul_le_mul_of_nonneg_left h6 this
        _ ≤ q := by nlinarith [pow_pos (by linarith : (0 : ℝ) < q) 5]
    linarith
  have q3 : q ^ 3 ≤ 1e-12 := by
    have : q ^ 2 ≤ 1e-8 := by nlinarith
    nlinarith
  rw [abs_le]
  constructor <;> linarith

theorem finish_dir_one {a b : ℝ} {p : Vec3} (h : (a, b) = mapFinish 1 p) : (fun i => len p * dir a b i) = p := by
  have := finish_dir 1 p
  rw [one_mulVec, ← h] at this
  exact this

/-- The vector after aberration is not short. -/
theorem aberrW_low {am : Amprms} {p1 : Vec3} (h1 : 1 ≤ len p1) (h2 : len p1 ≤ 1.448) (hv1 : len am.abv ≤ 1 / 10) (ha0 : 0.99 ≤ am.ab1) : 0.85 ≤ len (aberrW am p1 (dot p1 am.abv)) := by
  have hv0 := len_nonneg am.abv
  have hdot := dot_le_len p1 am.abv
  have t := len_sub_le (aberrW am p1 (dot p1 am.abv)) (fun i => (1 + dot p1 am.abv / (am.ab1 + 1)) * am.abv i)
  have e : (fun i => aberrW am p1 (dot p1 am.abv) i - (1 + dot p1 am.abv / (am.ab1 + 1)) * am.abv i) = fun i => am.ab1 * p1 i := by
    funext i; simp only [aberrW]; ring
  rw [e, len_smul, len_smul, abs_of_nonneg (by linarith : 0 ≤ am.ab1)] at t
  have h5 : |dot p1 am.abv| ≤ 0.1448 := hdot.trans (by nlinarith)
  have h6 : |1 + dot p1 am.abv / (am.ab1 + 1)| ≤ 1.1 := by
    have h7 : |dot p1 am.abv / (am.ab1 + 1)| ≤ 0.1 := by
      rw [abs_div, abs_of_pos (by linarith : 0 < am.ab1 + 1), div_le_iff₀ (by linarith)]
      linarith
    rw [abs_le] at h7 ⊢
    constructor <;> linarith
  have h8 : |1 + dot p1 am.abv / (am.ab1 + 1)| * len am.abv ≤ 0.11 := by
    calc _ ≤ 1.1 * (1 / 10) := mul_le_mul h6 hv1 hv0 (by norm_num)
      _ = _ := by norm_num
  have h9 : 0.99 ≤ am.ab1 * len p1 := by nlinarith
  linarith

theorem ab1_bounds {am : Amprms} (hv1 : len am.abv ≤ 1 / 10) (ha : am.ab1 = √(1 - len am.abv * len am.abv)) : 0.99 ≤ am.ab1 ∧ am.ab1 ≤ 1 := by
  have hv0 := len_nonneg am.abv
  have hvv : len am.abv * len am.abv ≤ 1 / 100 := by nlinarith
  have haa : am.ab1 * am.ab1 = 1 - len am.abv * len am.abv := by rw [ha]; exact Real.mul_self_sqrt (by linarith)
  have ha0 : 0 ≤ am.ab1 := by rw [ha]; exact Real.sqrt_nonneg _
  exact ⟨by nlinarith, by nlinarith⟩

theorem deflect_len {am : Amprms} {p : Vec3} (hp : len p = 1) (he : len am.ehn = 1) (hg : 0 ≤ am.gr2e) (hg1 : am.gr2e ≤ 1 / 1000) : 1 ≤ len (deflect am p) ∧ len (deflect am p) ≤ 1.448 ∧ len (deflect am p) - 1 ≤ 448 * am.gr2e := by
  obtain ⟨hd1, hd2⟩ := deflect_bound am p hp he hg
  have := (abs_le.1 (len_rev_tri (deflect am p) p)).2
  rw [hp] at this
  exact ⟨hd2, by linarith, by linarith⟩

/-- The lengthening by light deflection is of second order. -/
theorem deflect_len2 {am : Amprms} {p : Vec3} (hp : len p = 1) (he : len am.ehn = 1) (hg : 0 ≤ am.gr2e) : len (deflect am p) - 1 ≤ 100352 * am.gr2e ^ 2 := by
  obtain ⟨hd1, hd2⟩ := deflect_bound am p hp he hg
  have hpp := dot_of_len hp
  have ho : dot p (fun i => deflect am p i - p i) = 0 := by
    unfold deflect
    generalize am.gr2e / _ = w
    have : dot p (fun i => p i + w * (am.ehn i - dot p am.ehn * p i) - p i) = w * (dot p am.ehn - dot p am.ehn * dot p p) := by
      generalize hc : dot p am.ehn = c
      rw [dot_eq] at hc
      simp only [dot_eq]
      linear_combination w * hc
    rw [this, hpp]; ring
  have h2 : len (deflect am p) ^ 2 = 1 + len (fun i => deflect am p i - p i) ^ 2 := by
    rw [sq, sq, len_sq, len_sq, ← hpp]
    have : dot (deflect am p) (deflect am p) = dot p p + 2 * dot p (fun i => deflect am p i - p i) + dot (fun i => deflect am p i - p i) (fun i => deflect am p i - p i) := by
      simp only [dot_eq]; ring
    rw [this, ho]; ring
  have h3 := pow_le_pow_left₀ (len_nonneg _) hd1 2
  nlinarith

/-- **C110** (order of the effects) palMapqkz applies light deflection first and aberration to the deflected direction: the result agrees within 240000 gr2e² v (1e-14 radian for the Earth) with palMapqkz
for light deflection alone followed by palMapqkz for aberration alone. -/
theorem C110_order (rm dm : ℝ) (am : Amprms) (he : len am.ehn = 1) (hg : 0 ≤ am.gr2e) (hg1 : am.gr2e ≤ 1 / 1000) (hv1 : len am.abv ≤ 1 / 10) (ha : am.ab1 = √(1 - len am.abv * len am.abv))
    (hm : IsRotation am.mat) :
    let d := palMapqkz rm dm { am with abv := fun _ => 0, ab1 := 1, mat := 1 }
    let a := palMapqkz d.1 d.2 { am with gr2e := 0 }
    let b := palMapqkz rm dm am
    len (fun i => dir a.1 a.2 i - dir b.1 b.2 i) ≤ 240000 * am.gr2e ^ 2 * len am.abv := by
  dsimp only
  obtain ⟨a9, a1⟩ := ab1_bounds hv1 ha
  obtain ⟨d1, d2, -⟩ := deflect_len (len_dir rm dm) he hg hg1
  have d3 := deflect_len2 (len_dir rm dm) he hg
  set d := palMapqkz rm dm { am with abv := fun _ => 0, ab1 := 1, mat := 1 } with hd
  have hd' : d = mapFinish 1 (deflect am (dir rm dm)) := by
    rw [hd, mapqkz_eq]
    congr 1
    funext i
    show 1 * _ + _ * (0 : ℝ) = _
    rw [mul_zero, add_zero, one_mul]
    rfl
  have hu := finish_dir_one (a := d.1) (b := d.2) hd'
  rw [mapqkz_eq d.1 d.2, mapqkz_eq rm dm am]
  rw [deflect_off (am := { am with gr2e := 0 }) rfl]
  have hul := len_dir d.1 d.2
  generalize dir d.1 d.2 = u at *
  have hw : aberrW { am with gr2e := 0 } u (dot u am.abv) = aberrW am u (dot u am.abv) := rfl
  show len (fun i => dir (mapFinish am.mat (aberrW { am with gr2e := 0 } u (dot u am.abv))).1 (mapFinish am.mat (aberrW { am with gr2e := 0 } u (dot u am.abv))).2 i - _) ≤ _
  rw [hw]
  generalize deflect am (dir rm dm) = p1 at *
  have low := aberrW_low d1 d2 hv1 a9
  generalize hL : len p1 = L at *
  have hdiff : len (fun i => (fun i => L * am.mat.mulVec (aberrW am u (dot u am.abv)) i) i - am.mat.mulVec (aberrW am p1 (dot p1 am.abv)) i) ≤ 100352 * am.gr2e ^ 2 * len am.abv := by
    have e : (fun i => (fun i => L * am.mat.mulVec (aberrW am u (dot u am.abv)) i) i - am.mat.mulVec (aberrW am p1 (dot p1 am.abv)) i) = am.mat.mulVec (fun i => (L - 1) * am.abv i) := by
      rw [← mulVec_smul']
      refine (Matrix.mulVec_sub am.mat _ _).symm.trans ?_
      congr 1
      funext i
      simp only [Pi.sub_apply, aberrW]
      rw [← hu, dot_comm (fun i => L * u i), dot_smul_right, dot_comm am.abv]
      ring
    rw [e, rot_len hm, len_smul, abs_of_nonneg (by linarith)]
    exact mul_le_mul_of_nonneg_right d3 (len_nonneg _)
  have f1 := finish_dir am.mat (aberrW am u (dot u am.abv))
  have f2 := finish_dir am.mat (aberrW am p1 (dot p1 am.abv))
  have f1' : (fun i => (L * len (am.mat.mulVec (aberrW am u (dot u am.abv)))) * dir (mapFinish am.mat (aberrW am u (dot u am.abv))).1 (mapFinish am.mat (aberrW am u (dot u am.abv))).2 i) =
      fun i => L * am.mat.mulVec (aberrW am u (dot u am.abv)) i := by
    funext i
    rw [← congrFun f1 i]
    ring
  have := dir_close (len_dir _ _) (len_dir _ _) (len_nonneg _) (mul_nonneg (by linarith) (len_nonneg _)) f2 f1' (by norm_num : (0 : ℝ) < 0.85) (by rw [rot_len hm]; exact low) hdiff
  refine this.trans ?_
  have h0 : 0 ≤ am.gr2e ^ 2 * len am.abv := mul_nonneg (sq_nonneg _) (len_nonneg _)
  have e : 2 * (100352 * am.gr2e ^ 2 * len am.abv / 0.85) = (2 * 100352 / 0.85) * (am.gr2e ^ 2 * len am.abv) := by ring
  rw [e, mul_assoc 240000]
  exact mul_le_mul_of_nonneg_right (by norm_num) h0

/-- **C79** (with light deflection and aberration) For every star, palMapqk gives what palMapqkz gives for the direction the star is seen in from the Earth's place at the date, i.e. that of
"direction + interval × space velocity − parallax × Earth position" (k times the unit vector at right ascension r, declination d), within (600 gr2e + 1.2 |k - 1|) v² radian. -/
theorem C79_mapqk_full (rm dm pr pd px rv : ℝ) (am : Amprms) (he : len am.ehn = 1) (hg : 0 ≤ am.gr2e) (hg1 : am.gr2e ≤ 1 / 1000) (hv1 : len am.abv ≤ 1 / 10) (ha : am.ab1 = √(1 - len am.abv * len am.abv))
    (hm : IsRotation am.mat) :
    ∃ em : Vec3, (∀ i, HasDerivAt (fun t => (1 + 0.210945028 * rv * (px * das2r) * t) * dir (rm + pr * t) (dm + pd * t) i) (em i) 0) ∧
      ∀ r d k, 0 < k → (fun i => k * dir r d i) = (fun i => dir rm dm i + am.pmt * em i - px * das2r * am.eb i) →
        let a := palMapqk rm dm pr pd px rv am
        let b := palMapqkz r d am
        len (fun i => dir a.1 a.2 i - dir b.1 b.2 i) ≤ (600 * am.gr2e + 1.2 * |k - 1|) * len am.abv ^ 2 := by
  refine ⟨_, motion_deriv rm dm pr pd _, fun r d k hk hkd => ?_⟩
  obtain ⟨a9, a1⟩ := ab1_bounds hv1 ha
  dsimp only
  rw [mapqkz_eq]
  unfold palMapqk
  dsimp only
  rw [eraS2c_eq, ← hkd]
  have hpn : (eraPn (fun i => k * dir r d i)).2 = dir r d := by
    have hl : len (fun i => k * dir r d i) = k := by rw [len_smul, len_dir, mul_one, abs_of_pos hk]
    rw [pn_val (by rw [hl]; exact hk.ne'), hl]
    funext i
    exact inv_mul_cancel_left₀ hk.ne' _
  rw [hpn, eraPdp_eq, eraPdp_eq]
  show len (fun i => dir (mapFinish am.mat (aberrW am (deflect am (dir r d)) (dot (fun i => k * dir r d i) am.abv))).1
    (mapFinish am.mat (aberrW am (deflect am (dir r d)) (dot (fun i => k * dir r d i) am.abv))).2 i - _) ≤ _
  obtain ⟨hd1, hd2⟩ := deflect_bound am (dir r d) (len_dir _ _) he hg
  obtain ⟨d1, d2, -⟩ := deflect_len (len_dir r d) he hg hg1
  generalize deflect am (dir r d) = p1 at *
  have hul := len_dir r d
  generalize dir r d = u at *
  have low := aberrW_low d1 d2 hv1 a9
  have hv0 := len_nonneg am.abv
  set E := 448 * am.gr2e + |k - 1| with hE
  have hdiff : len (fun i => am.mat.mulVec (aberrW am p1 (dot (fun i => k * u i) am.abv)) i - am.mat.mulVec (aberrW am p1 (dot p1 am.abv)) i) ≤ E * len am.abv ^ 2 / 1.99 := by
    have e : (fun i => am.mat.mulVec (aberrW am p1 (dot (fun i => k * u i) am.abv)) i - am.mat.mulVec (aberrW am p1 (dot p1 am.abv)) i)
        = am.mat.mulVec (fun i => -(dot (fun i => p1 i - k * u i) am.abv / (am.ab1 + 1)) * am.abv i) := by
      rw [dot_sub_left p1 (fun i => k * u i)]
      refine (Matrix.mulVec_sub am.mat _ _).symm.trans ?_
      congr 1
      funext i
      simp only [Pi.sub_apply, aberrW]
      ring
    rw [e, rot_len hm, len_smul, abs_neg, abs_div, abs_of_pos (by linarith : 0 < am.ab1 + 1)]
    have h0 : len (fun i => p1 i - k * u i) ≤ E := by
      have e3 : (fun i => p1 i - k * u i) = fun i => (p1 i - u i) - (k - 1) * u i := by funext i; ring
      rw [e3]
      refine (len_sub_le (fun i => p1 i - u i) (fun i => (k - 1) * u i)).trans ?_
      rw [len_smul, hul, mul_one]
      linarith
    have h1 := dot_le_len (fun i => p1 i - k * u i) am.abv
    have h2 : |dot (fun i => p1 i - k * u i) am.abv| ≤ E * len am.abv := h1.trans (mul_le_mul_of_nonneg_right h0 hv0)
    have hE0 : 0 ≤ E := by positivity
    have h3 : |dot (fun i => p1 i - k * u i) am.abv| / (am.ab1 + 1) ≤ E * len am.abv / 1.99 :=
      div_le_div₀ (by positivity) h2 (by norm_num) (by linarith)
    calc _ ≤ E * len am.abv / 1.99 * len am.abv := mul_le_mul_of_nonneg_right h3 hv0
      _ = _ := by ring
  have := dir_close (len_dir _ _) (len_dir _ _) (len_nonneg _) (len_nonneg _) (finish_dir am.mat (aberrW am p1 (dot p1 am.abv))) (finish_dir am.mat (aberrW am p1 (dot (fun i => k * u i) am.abv)))
    (by norm_num : (0 : ℝ) < 0.85) (by rw [rot_len hm]; exact low) hdiff
  refine this.trans ?_
  have e : 2 * (E * len am.abv ^ 2 / 1.99 / 0.85) = E * (2 / 1.99 / 0.85) * len am.abv ^ 2 := by ring
  rw [e]
  refine mul_le_mul_of_nonneg_right ?_ (sq_nonneg _)
  rw [hE]
  have := abs_nonneg (k - 1)
  norm_num
  linarith

/-- **C110** (the parameters) palMappa fills in, for the equinox and date given, the interval from the equinox to the Julian epoch of the date, the barycentric position and the direction and distance of the Sun
from palEvp for that date and equinox, the velocity of palEvp in units of the speed of light (1 AU = 499.004782 light-seconds), and the matrix of palPrenut. -/
theorem C110_mappa (T : Theory) (epv00 : ℝ → ℝ → Epv) (eq date : ℝ) (h : len (palEvp T epv00 date eq).ph ≠ 0) :
    let am := palMappa T epv00 eq date
    let ev := palEvp T epv00 date eq
    am.pmt = palEpjR date - eq ∧ am.eb = ev.pb ∧ (fun i => len ev.ph * am.ehn i) = ev.ph ∧ am.gr2e * len ev.ph = 2 * 9.87063e-9 ∧ am.abv = (fun i => 499.004782 * ev.vb i) ∧
      am.ab1 = √(1 - len am.abv ^ 2) ∧ am.mat = palPrenut T eq date := by
  dsimp only
  unfold palMappa
  dsimp only
  rw [pn_eq, pn_eq, pn_val h, sq]
  refine ⟨rfl, rfl, ?_, ?_, ?_, rfl, rfl⟩
  · funext i
    exact mul_inv_cancel_left₀ h _
  · field_simp
  · funext i
    unfold palCR
    ring

/-- The parameters of `demoAm` meet the hypotheses of the theorems above. -/
example (rm dm : ℝ) :
    let d := palMapqkz rm dm { demoAm with abv := fun _ => 0, ab1 := 1, mat := 1 }
    let a := palMapqkz d.1 d.2 { demoAm with gr2e := 0 }
    let b := palMapqkz rm dm demoAm
    len (fun i => dir a.1 a.2 i - dir b.1 b.2 i) ≤ 1e-14 := by
  have e1 : len demoAm.ehn = 1 := by simp [len, demoAm, Fin.sum_univ_three]
  have e2 : dot demoAm.abv demoAm.abv = 1e-8 := by rw [dot_eq]; simp [demoAm]; norm_num
  have e3 : len demoAm.abv * len demoAm.abv = 1e-8 := by rw [len_sq, e2]
  have e4 : len demoAm.abv ≤ 1e-4 := by have := len_nonneg demoAm.abv; nlinarith
  have h := C110_order rm dm demoAm e1 (by norm_num [demoAm]) (by norm_num [demoAm]) (by linarith) (by rw [e3]; rfl) rot_one
  refine le_trans h ?_
  have : demoAm.gr2e = 2e-8 := rfl
  rw [this]
  norm_num at e4 ⊢
  linarith

/-- A star at right angles to the motion, at 0.6 c, is seen at the angle whose cosine is 0.6. -/
example : ∃ u : Vec3, len u = 1 ∧ dot u ![0, 1, 0] = 0.6 := by
  obtain ⟨u, -, h1, h2, -⟩ := C108_aberration 0 0 { demoAm with gr2e := 0, abv := fun i => 0.6 * (![0, 1, 0] : Vec3) i, ab1 := √(1 - 0.6 ^ 2) } ![0, 1, 0] 0.6 (by simp [len, Fin.sum_univ_three])
    (by norm_num) (by norm_num) rfl rfl rfl rot_one
  refine ⟨u, h1, ?_⟩
  rw [h2, dot_eq]
  simp [dir]

/-- A star at right angles to the Sun. -/
example : ∃ u : Vec3, len u = 1 ∧ dot u (dir 0 0) = cos (arctan 2e-8) := by
  obtain ⟨u, -, h1, h2, -⟩ := C109_deflection 0 0 (π / 2) { demoAm with abv := fun _ => 0, ab1 := 1 } (by simp [len, demoAm, Fin.sum_univ_three]) rfl rfl rot_one (by positivity) (by linarith [pi_pos])
    (by rw [dot_eq]; simp [dir, demoAm])
  refine ⟨u, h1, ?_⟩
  rw [h2, cos_pi_div_two, if_pos (by norm_num), show π / 2 / 2 = π / 4 by ring, tan_pi_div_four]
  simp [demoAm]

end Pal.Props
