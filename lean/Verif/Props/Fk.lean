import Verif.Lemmas.Fk
import Verif.Props.MapMisc

/-!
# Property C49: FK5 to FK4 and back
-/

namespace Pal.Props
open Pal Pal.Spec Real Matrix

/-- The position matrix of palFk45z at epoch 1950, as applied to the direction freed from the E-terms (helper). -/
noncomputable def fk45mat : Mat3 := emP + ((palEpjR (palEpb2dR 1950) - 2000) / palPMF) • emV

theorem fk_w : -2.42408e-6 ≤ (palEpjR (palEpb2dR 1950) - 2000) / palPMF ∧ (palEpjR (palEpb2dR 1950) - 2000) / palPMF ≤ -2.424077e-6 := by
  have h1 := Real.pi_gt_d6
  have h2 := Real.pi_lt_d6
  unfold palPMF palEpjR palEpb2dR rMJD0
  rw [div_div_eq_mul_div]
  constructor <;> norm_num <;> linarith

theorem fk_prod : ∀ i j, |(fk45mat * emiPP - 1) i j| ≤ 1e-10 := by
  obtain ⟨h1, h2⟩ := fk_w
  unfold fk45mat
  generalize (palEpjR (palEpb2dR 1950) - 2000) / palPMF = w at *
  intro i j
  rw [abs_le]
  fin_cases i <;> fin_cases j <;> simp [emP, emV, emiPP] <;> constructor <;> linarith

theorem fk_big : ∀ i j, |fk45mat i j| ≤ 1.0001 := by
  obtain ⟨h1, h2⟩ := fk_w
  unfold fk45mat
  generalize (palEpjR (palEpb2dR 1950) - 2000) / palPMF = w at *
  intro i j
  rw [abs_le]
  fin_cases i <;> fin_cases j <;> simp [emP, emV] <;> constructor <;> linarith

theorem fk_orth : ∀ i j, |(emiPP.transpose * emiPP - 1) i j| ≤ 9e-11 := by
  intro i j
  fin_cases i <;> fin_cases j <;> simp [emiPP, Matrix.mul_apply, Fin.sum_univ_three] <;> rw [abs_le] <;> constructor <;> norm_num

theorem emi_len {p : Vec3} (hp : len p = 1) : |len (emiPP.mulVec p) - 1| ≤ 3 / 10 ^ 10 := by
  have h := dot_mulVec_le fk_orth hp
  have e : dot (emiPP.mulVec p) (emiPP.mulVec p) = dot p ((emiPP.transpose * emiPP - 1).mulVec p) + dot p p := by
    rw [sub_mulVec, one_mulVec]
    have : dot p ((emiPP.transpose * emiPP).mulVec p - p) = dot p ((emiPP.transpose * emiPP).mulVec p) - dot p p := dot_sub_right _ _ _
    rw [this, dot_dotProduct (emiPP.mulVec p), dot_dotProduct p ((emiPP.transpose * emiPP).mulVec p), dotProduct_mulVec, vecMul_mulVec, dotProduct_mulVec]
    ring
  rw [dot_of_len hp, ← len_sq] at e
  obtain ⟨a, b⟩ := abs_le.1 h
  have := len_nonneg (emiPP.mulVec p)
  rw [abs_le]
  constructor <;> nlinarith

theorem fkA_len : len fkA ≤ 1.7 / 10 ^ 6 := by
  rw [len_eq, dot_eq]
  refine Real.sqrt_le_iff.2 ⟨by norm_num, ?_⟩
  simp [fkA]; norm_num

/-- The direction of the position computed by palFk524. -/
theorem fk524_dir (s : Star) : (fun i => len (fk524Vec s).1 * dir (palFk524 s).r (palFk524 s).d i) = (fk524Vec s).1 := by
  have hr : (palFk524 s).r = if (fk524Vec s).1 0 = 0 ∧ (fk524Vec s).1 1 = 0 then 0 else
      (if atan2 ((fk524Vec s).1 1) ((fk524Vec s).1 0) < 0 then atan2 ((fk524Vec s).1 1) ((fk524Vec s).1 0) + 2 * π else atan2 ((fk524Vec s).1 1) ((fk524Vec s).1 0)) := rfl
  have hd : (palFk524 s).d = atan2 ((fk524Vec s).1 2) (√((fk524Vec s).1 0 * (fk524Vec s).1 0 + (fk524Vec s).1 1 * (fk524Vec s).1 1)) := rfl
  have h := sph_of_cart ((fk524Vec s).1 0) ((fk524Vec s).1 1) ((fk524Vec s).1 2) (palFk524 s).r (by
    intro hxy
    rw [hr]
    have : ¬ ((fk524Vec s).1 0 = 0 ∧ (fk524Vec s).1 1 = 0) := by tauto
    rw [if_neg this]
    split_ifs
    · right; exact ⟨1, by push_cast; ring⟩
    · left; rfl)
  rw [← hd, ← dot_eq, ← len_eq] at h
  rw [h]
  funext i; fin_cases i <;> rfl

theorem fk524_zero (r d : ℝ) :
    (fk524Vec { r := r, d := d, dr := 0, dd := 0, px := 0, rv := 0 }).1 = fun i => emiPP.mulVec (dir r d) i +
      (fkA i * len (fun i => emiPP.mulVec (dir r d) i + (fkA i * len (emiPP.mulVec (dir r d)) - dot (emiPP.mulVec (dir r d)) fkA * emiPP.mulVec (dir r d) i))
        - dot (emiPP.mulVec (dir r d)) fkA * emiPP.mulVec (dir r d) i) := by
  have hp : (fun i => eraRxp emiPP ![cos r * cos d, sin r * cos d, sin d] i + eraRxp emiPV ![-(0 * palPMF) * (sin r * cos d) - cos r * sin d * (0 * palPMF) + palVF * 0 * 0 * (cos r * cos d),
      0 * palPMF * (cos r * cos d) - sin r * sin d * (0 * palPMF) + palVF * 0 * 0 * (sin r * cos d), cos d * (0 * palPMF) + palVF * 0 * 0 * sin d] i) = emiPP.mulVec (dir r d) := by
    have z : (![-(0 * palPMF) * (sin r * cos d) - cos r * sin d * (0 * palPMF) + palVF * 0 * 0 * (cos r * cos d),
      0 * palPMF * (cos r * cos d) - sin r * sin d * (0 * palPMF) + palVF * 0 * 0 * (sin r * cos d), cos d * (0 * palPMF) + palVF * 0 * 0 * sin d] : Vec3) = 0 := by
      funext i; fin_cases i <;> simp
    have y : (![cos r * cos d, sin r * cos d, sin d] : Vec3) = dir r d := by
      funext i; fin_cases i <;> simp [dir] <;> ring
    rw [z, y, eraRxp_eq, eraRxp_eq, mulVec_zero]
    funext i; simp
  have hp' := fun i => congrFun hp i
  unfold fk524Vec
  dsimp only
  simp only [hp']
  simp only [len_eq, dot_eq]

/-- **C49** (round trip) palFk54z followed by palFk45z, both for Besselian epoch 1950, gives back every direction within 5e-9 radian (1 milliarcsecond). -/
theorem C49_roundtrip (r d : ℝ) :
    let a := palFk54z r d 1950
    let b := palFk45z a.1.1 a.1.2 1950
    len (fun i => dir b.1 b.2 i - dir r d i) ≤ 5e-9 := by
  dsimp only
  have ha : (palFk54z r d 1950).1 = ((palFk524 { r := r, d := d, dr := 0, dd := 0, px := 0, rv := 0 }).r, (palFk524 { r := r, d := d, dr := 0, dd := 0, px := 0, rv := 0 }).d) := by
    unfold palFk54z; dsimp only; simp
  rw [ha]
  have hD := fk524_dir { r := r, d := d, dr := 0, dd := 0, px := 0, rv := 0 }
  rw [fk524_zero] at hD
  dsimp only
  generalize (palFk524 { r := r, d := d, dr := 0, dd := 0, px := 0, rv := 0 }).r = r' at *
  generalize (palFk524 { r := r, d := d, dr := 0, dd := 0, px := 0, rv := 0 }).d = d' at *
  have hp1 := len_dir r d
  have hD1 := len_dir r' d'
  generalize hp : dir r d = p at *
  have hP := emi_len hp1
  generalize hq : emiPP.mulVec p = q at *
  obtain ⟨hT, -⟩ := eterm_len hP fkA_len (hP.trans (by norm_num))
  have hE := eterms hP fkA_len hT hD1 hD
  -- the conversion back
  have hb : ∀ v : Vec3, v = (fun i => dir r' d' i - fkA i + dot (dir r' d') fkA * dir r' d' i) → palFk45z r' d' 1950 = (eraAnp (eraC2s (fk45mat.mulVec v)).1, (eraC2s (fk45mat.mulVec v)).2) := by
    intro v hv
    have h0 : (fun i => fkA i + (1950 - 1950 : ℝ) / palPMF * fkAd i) = fkA := by funext i; simp
    unfold palFk45z
    dsimp only
    rw [eraS2c_eq]
    have h0' := fun i => congrFun h0 i
    simp only [h0']
    rw [← dot_eq, ← hv, eraRxp_eq, eraRxp_eq]
    have : (fun i => emP.mulVec v i + (palEpjR (palEpb2dR 1950) - 2000) / palPMF * emV.mulVec v i) = fk45mat.mulVec v := by
      unfold fk45mat
      rw [add_mulVec, smul_mulVec]; rfl
    rw [this]
  have hb' := hb _ rfl
  rw [hb']
  generalize hv : (fun i => dir r' d' i - fkA i + dot (dir r' d') fkA * dir r' d' i) = v at *
  have hEv : len (fun i => v i - q i) ≤ 6 / 10 ^ 10 := by rw [← hv]; exact hE
  have hdiff : len (fun i => fk45mat.mulVec v i - p i) ≤ 2.15e-9 := by
    have e : (fun i => fk45mat.mulVec v i - p i) = fun i => fk45mat.mulVec (fun i => v i - q i) i + (fk45mat * emiPP - 1).mulVec p i := by
      have e1 : fk45mat.mulVec (fun i => v i - q i) = fk45mat.mulVec v - fk45mat.mulVec q := Matrix.mulVec_sub fk45mat v q
      rw [e1, sub_mulVec, one_mulVec, ← mulVec_mulVec, hq]
      funext i
      simp only [Pi.sub_apply]; ring
    rw [e]
    refine (len_add_le _ _).trans ?_
    have k1 := len_mulVec_le fk_big (fun i => v i - q i)
    have k2 := len_mulVec_le fk_prod p
    rw [hp1] at k2
    linarith
  have h := dir_close hp1 (len_dir _ _) (by norm_num : (0 : ℝ) ≤ 1) (Real.sqrt_nonneg _) (by funext i; exact one_mul _) (c2s_dir (fk45mat.mulVec v)) (by norm_num : (0 : ℝ) < 1) hp1.ge hdiff
  exact h.trans (by norm_num)

/-- **C49** (zero motion) palFk54z is palFk524 for a star without proper motion, parallax and radial velocity, carried to the epoch by the fictitious proper motion that palFk524 reports:
the rates it returns are exactly the change of its own positions per Besselian year. -/
theorem C49_fk54z (r d e1 e2 : ℝ) :
    let s := palFk524 { r := r, d := d, dr := 0, dd := 0, px := 0, rv := 0 }
    (palFk54z r d 1950).1 = (s.r, s.d) ∧ (palFk54z r d e1).2 = (s.dr, s.dd) ∧
      (palFk54z r d e2).1.1 - (palFk54z r d e1).1.1 = s.dr * (e2 - e1) ∧ (palFk54z r d e2).1.2 - (palFk54z r d e1).1.2 = s.dd * (e2 - e1) := by
  unfold palFk54z
  dsimp only
  refine ⟨by simp, rfl, by ring, by ring⟩

/-- Rates of spherical coordinates (helper). -/
theorem spherical_rates {p v : Vec3} {L q r d : ℝ} (hL : 0 < L) (hq : 0 < q) (hc : L * cos d = q) (h0 : L * (cos d * cos r) = p 0) (h1 : L * (cos d * sin r) = p 1) (h2 : L * sin d = p 2) :
    ∀ i, HasDerivAt (fun t => (L + (p 0 * v 0 + p 1 * v 1 + p 2 * v 2) / L * t) * dir (r + (p 0 * v 1 - p 1 * v 0) / (q * q) * t)
      (d + (v 2 * (q * q) - p 2 * (p 0 * v 0 + p 1 * v 1)) / (L * L * q) * t) i) (v i) 0 := by
  have l : ∀ a b : ℝ, HasDerivAt (fun t : ℝ => a + b * t) b 0 := fun a b => by
    simpa using ((hasDerivAt_id (0 : ℝ)).const_mul b).const_add a
  have z : ∀ a b : ℝ, a + b * 0 = a := fun a b => by ring
  have k0 := l L ((p 0 * v 0 + p 1 * v 1 + p 2 * v 2) / L)
  have k1 := l r ((p 0 * v 1 - p 1 * v 0) / (q * q))
  have k2 := l d ((v 2 * (q * q) - p 2 * (p 0 * v 0 + p 1 * v 1)) / (L * L * q))
  have sr := sin_sq_add_cos_sq r
  have sd := sin_sq_add_cos_sq d
  have hLne := hL.ne'
  have hqne := hq.ne'
  have hcd : cos d ≠ 0 := fun h => by rw [h, mul_zero] at hc; linarith
  intro i
  fin_cases i
  · refine ((k0.mul (k2.cos.mul k1.cos)).congr_deriv ?_)
    simp only [Pi.mul_apply, z]
    show _ = v 0
    rw [← h0, ← h1, ← h2, ← hc]
    field_simp
    generalize sin r = a at *
    generalize cos r = b at *
    generalize sin d = e at *
    generalize cos d = f at *
    grind
  · refine ((k0.mul (k2.cos.mul k1.sin)).congr_deriv ?_)
    simp only [Pi.mul_apply, z]
    show _ = v 1
    rw [← h0, ← h1, ← h2, ← hc]
    field_simp
    generalize sin r = a at *
    generalize cos r = b at *
    generalize sin d = e at *
    generalize cos d = f at *
    grind
  · refine ((k0.mul k2.sin).congr_deriv ?_)
    simp only [z]
    show _ = v 2
    rw [← h0, ← h1, ← h2, ← hc]
    field_simp
    generalize sin r = a at *
    generalize cos r = b at *
    generalize sin d = e at *
    generalize cos d = f at *
    grind

/-- **C49** (rates) The proper motions returned by palFk524 are the rates of change of its spherical coordinates when the position moves with the computed velocity (PMF converts units):
for a star off the pole, the vector of length len p + ρ' t in the direction moving at these rates has the computed velocity. The right ascension is in [0,2pi). -/
theorem C49_fk524_rates (s : Star) (h : 1 / 10 ^ 30 < √((fk524Vec s).1 0 * (fk524Vec s).1 0 + (fk524Vec s).1 1 * (fk524Vec s).1 1)) :
    (∃ rho, ∀ i, HasDerivAt (fun t => (len (fk524Vec s).1 + rho * t) * dir ((palFk524 s).r + (palFk524 s).dr * palPMF * t) ((palFk524 s).d + (palFk524 s).dd * palPMF * t) i)
      ((fk524Vec s).2.1 i) 0) ∧ (palFk524 s).r ∈ Set.Ico 0 (2 * π) ∧ |(palFk524 s).d| ≤ π / 2 := by
  have hdir := fk524_dir s
  have hr : (palFk524 s).r = if (fk524Vec s).1 0 = 0 ∧ (fk524Vec s).1 1 = 0 then 0 else
      (if atan2 ((fk524Vec s).1 1) ((fk524Vec s).1 0) < 0 then atan2 ((fk524Vec s).1 1) ((fk524Vec s).1 0) + 2 * π else atan2 ((fk524Vec s).1 1) ((fk524Vec s).1 0)) := rfl
  have hd : (palFk524 s).d = atan2 ((fk524Vec s).1 2) (√((fk524Vec s).1 0 * (fk524Vec s).1 0 + (fk524Vec s).1 1 * (fk524Vec s).1 1)) := rfl
  refine ⟨?_, ?_, ?_⟩
  · have hpmf : palPMF ≠ 0 := by unfold palPMF; positivity
    have hdr : (palFk524 s).dr * palPMF = ((fk524Vec s).1 0 * (fk524Vec s).2.1 1 - (fk524Vec s).1 1 * (fk524Vec s).2.1 0) /
        ((fk524Vec s).1 0 * (fk524Vec s).1 0 + (fk524Vec s).1 1 * (fk524Vec s).1 1) := by
      unfold palFk524; dsimp only; rw [if_pos h]; exact div_mul_cancel₀ _ hpmf
    have hdd : (palFk524 s).dd * palPMF = ((fk524Vec s).2.1 2 * ((fk524Vec s).1 0 * (fk524Vec s).1 0 + (fk524Vec s).1 1 * (fk524Vec s).1 1) -
        (fk524Vec s).1 2 * ((fk524Vec s).1 0 * (fk524Vec s).2.1 0 + (fk524Vec s).1 1 * (fk524Vec s).2.1 1)) /
        (((fk524Vec s).1 0 * (fk524Vec s).1 0 + (fk524Vec s).1 1 * (fk524Vec s).1 1 + (fk524Vec s).1 2 * (fk524Vec s).1 2) *
          √((fk524Vec s).1 0 * (fk524Vec s).1 0 + (fk524Vec s).1 1 * (fk524Vec s).1 1)) := by
      unfold palFk524; dsimp only; rw [if_pos h]; exact div_mul_cancel₀ _ hpmf
    have hlen : len (fk524Vec s).1 = √((fk524Vec s).1 0 * (fk524Vec s).1 0 + (fk524Vec s).1 1 * (fk524Vec s).1 1 + (fk524Vec s).1 2 * (fk524Vec s).1 2) := by rw [len_eq, dot_eq]
    have hc := hyp_cos_atan2 ((fk524Vec s).1 2) (√((fk524Vec s).1 0 * (fk524Vec s).1 0 + (fk524Vec s).1 1 * (fk524Vec s).1 1))
    have hq : √((fk524Vec s).1 0 * (fk524Vec s).1 0 + (fk524Vec s).1 1 * (fk524Vec s).1 1) * √((fk524Vec s).1 0 * (fk524Vec s).1 0 + (fk524Vec s).1 1 * (fk524Vec s).1 1)
        = (fk524Vec s).1 0 * (fk524Vec s).1 0 + (fk524Vec s).1 1 * (fk524Vec s).1 1 :=
      Real.mul_self_sqrt (add_nonneg (mul_self_nonneg _) (mul_self_nonneg _))
    rw [hq, ← hd, ← hlen] at hc
    rw [hdr, hdd]
    have hl2 := len_sq (fk524Vec s).1
    rw [dot_eq] at hl2
    have hd0 := congrFun hdir 0
    have hd1 := congrFun hdir 1
    have hd2 := congrFun hdir 2
    simp only [dir, Matrix.cons_val_zero, Matrix.cons_val_one, Matrix.cons_val_two, Matrix.tail_cons, Matrix.head_cons] at hd0 hd1 hd2
    have hpos : 0 < √((fk524Vec s).1 0 * (fk524Vec s).1 0 + (fk524Vec s).1 1 * (fk524Vec s).1 1) := lt_trans (by norm_num) h
    have hL0 := len_nonneg (fk524Vec s).1
    rw [← hl2, ← hq]
    clear hlen hdir h hdr hdd hd hr
    generalize √((fk524Vec s).1 0 * (fk524Vec s).1 0 + (fk524Vec s).1 1 * (fk524Vec s).1 1) = q at *
    generalize len (fk524Vec s).1 = L at *
    generalize (palFk524 s).r = r at *
    generalize (palFk524 s).d = d at *
    generalize (fk524Vec s).2.1 = v at *
    generalize (fk524Vec s).1 = p at *
    have hLpos : 0 < L := by
      refine lt_of_le_of_ne hL0 (fun h0 => ?_)
      rw [← h0] at hc; linarith
    have K := spherical_rates (p := p) (v := v) hLpos hpos hc hd0 hd1 hd2
    rw [← Real.sqrt_mul_self hpos.le] at K
    simp only [Real.sqrt_mul_self hpos.le] at K ⊢
    exact ⟨_, K⟩
  · rw [hr]
    have := atan2_mem ((fk524Vec s).1 1) ((fk524Vec s).1 0)
    have hp := Real.pi_pos
    split_ifs with h1 h2
    · constructor <;> linarith
    · exact ⟨by linarith [this.1], by linarith⟩
    · exact ⟨not_lt.1 h2, by linarith [this.2]⟩
  · rw [hd]; exact abs_atan2_le (Real.sqrt_nonneg _)

/-- A star on the equator meets the hypothesis of `C49_fk524_rates`. -/
example : 1 / 10 ^ 30 < √((fk524Vec { r := 0, d := 0, dr := 0, dd := 0, px := 0, rv := 0 }).1 0 * (fk524Vec { r := 0, d := 0, dr := 0, dd := 0, px := 0, rv := 0 }).1 0
    + (fk524Vec { r := 0, d := 0, dr := 0, dd := 0, px := 0, rv := 0 }).1 1 * (fk524Vec { r := 0, d := 0, dr := 0, dd := 0, px := 0, rv := 0 }).1 1) := by
  have hP := emi_len (len_dir 0 0)
  obtain ⟨hT, hs⟩ := eterm_len hP fkA_len (hP.trans (by norm_num))
  have h0 : emiPP.mulVec (dir 0 0) 0 = 0.9999256795 := by simp [emiPP, dir, Matrix.mulVec, dotProduct, Fin.sum_univ_three]
  have hp : (0.9 : ℝ) ≤ (fk524Vec { r := 0, d := 0, dr := 0, dd := 0, px := 0, rv := 0 }).1 0 := by
    rw [fk524_zero]
    dsimp only
    rw [h0, show fkA 0 = -1.62557e-6 from rfl]
    obtain ⟨t1, t2⟩ := abs_le.1 hT
    obtain ⟨s1, s2⟩ := abs_le.1 hs
    linarith
  refine Real.lt_sqrt_of_sq_lt ?_
  generalize (fk524Vec { r := 0, d := 0, dr := 0, dd := 0, px := 0, rv := 0 }).1 0 = x at *
  generalize (fk524Vec { r := 0, d := 0, dr := 0, dd := 0, px := 0, rv := 0 }).1 1 = y
  nlinarith [mul_self_nonneg y]

end Pal.Props
