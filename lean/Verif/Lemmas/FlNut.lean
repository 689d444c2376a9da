import Verif.Model.FlNut
import Verif.Lemmas.FlPrec2
import Verif.Lemmas.FlAmp
import Verif.Lemmas.Map

/-!
# Rounding errors of the nutation matrices and the mean-to-apparent parameters
-/

namespace Pal
open Real Pal.Spec Pal.Props Matrix
variable {fl : ℝ → ℝ} {L : Libm}

theorem flPolyT_err (R : Rounding fl) {t T : ℝ} (ht : |t - T| ≤ 1.1e-14) (hT : |T| ≤ 10) (c : ℝ) (cs : List ℝ) {M E : ℝ} (hM : polyM c cs ≤ M) (hE : polyE c cs ≤ E) (hM1 : M ≤ 10 ^ 6) (hE1 : E ≤ 1e-5) :
    |fl (fl (flPoly fl c cs t * t) * flDAS2R fl) - rPoly c cs T * T * das2r| ≤ 2.2e-20 * M + 4.9e-5 * E + 5.4e-20 * M + 1e-180 ∧ |rPoly c cs T * T * das2r| ≤ M * 10 * 4.85e-6 := by
  obtain ⟨a, b⟩ := flPoly_err R ht hT cs c (hM.trans (hM1.trans (by norm_num))) (hE.trans (hE1.trans (by norm_num)))
  have m0 := (polyM_nonneg cs c).trans hM
  have e0 := (polyE_nonneg cs c).trans hE
  have q := R.mulB (1.215e-14 * M + 10.001 * E + 1e-185) (a.trans hE) ht (b.trans hM) hT (by norm_num at *; linarith) (by norm_num at *; linarith)
  have bb := mul_bd (b.trans hM) hT
  exact ⟨R.mulB _ q (flDAS2R_err R) bb das2r_bd (by norm_num at *; linarith) (by norm_num at *; linarith), mul_bd bb das2r_bd⟩

/-- Centuries from an epoch turned into a date. -/
theorem flCent_epj2d (R : Rounding fl) {E : ℝ} (hE : |E - 2000| ≤ 1000) :
    |flCent06 fl 2400000.5 (flEpj2d fl E) - cent06 2400000.5 (51544.5 + (E - 2000) * 365.25)| ≤ 1.1e-14 ∧ |cent06 2400000.5 (51544.5 + (E - 2000) * 365.25)| ≤ 10 := by
  have a1 := R.add_err2 1.12e-13 (noerr (E - 2000)) hE (by norm_num) (by norm_num)
  have a2 := R.mulB 8.2e-11 a1 (noerr (365.25 : ℝ)) hE (by norm_num : |(365.25 : ℝ)| ≤ 365.25) (by norm_num) (by norm_num)
  have b2 : |(E - 2000) * 365.25| ≤ 365250 := (mul_bd hE (by norm_num : |(365.25 : ℝ)| ≤ 365.25)).trans (by norm_num)
  have a3 := (R.addB 1.3e-10 (noerr (51544.5 : ℝ)) a2 (by norm_num : |(51544.5 : ℝ)| ≤ 51544.5) b2 (by norm_num) (by norm_num)).1
  have a4 : |fl (-51544.5 + flEpj2d fl E) - (E - 2000) * 365.25| ≤ 1.75e-10 := by
    refine R.add_err2 (δ := 1.3e-10) _ ?_ b2 (by norm_num) (by norm_num)
    rw [show -51544.5 + flEpj2d fl E - (E - 2000) * 365.25 = flEpj2d fl E - (51544.5 + (E - 2000) * 365.25) by ring]
    exact a3
  have a5 := R.add_err2 6e-15 (div_const a4 (by norm_num : (0 : ℝ) < 36525)) (div_bd b2 (by norm_num : (0 : ℝ) < 36525)) (by norm_num) (by norm_num)
  unfold flCent06 cent06
  rw [fl_mjd0 R, show (2400000.5 - 2451545 : ℝ) + (51544.5 + (E - 2000) * 365.25) = (E - 2000) * 365.25 by ring]
  exact ⟨a5.trans (by norm_num), (div_bd b2 (by norm_num : (0 : ℝ) < 36525)).trans (by norm_num)⟩

/-- The angles of eraP06e in double precision. -/
theorem flP06e_err (R : Rounding fl) {d1 d2 D1 D2 : ℝ} (ht : |flCent06 fl d1 d2 - cent06 D1 D2| ≤ 1.1e-14) (hT : |cent06 D1 D2| ≤ 10) :
    let p := flP06e fl d1 d2
    let q := eraP06e D1 D2
    |p.eps0 - q.eps0| ≤ 1.8e-16 ∧ |p.psia - q.psia| ≤ 5e-16 ∧ |p.oma - q.oma| ≤ 2.4e-16 ∧ |p.chia - q.chia| ≤ 1e-17 := by
  dsimp only [flP06e, eraP06e]
  have c := R.cst 84381.406 (M := 84382) (by norm_num) (by norm_num) (by norm_num)
  have e0 := R.mulB 1.8e-16 c (flDAS2R_err R) (by norm_num : |(84381.406 : ℝ)| ≤ 84382) das2r_bd (by norm_num) (by norm_num)
  have e1 := mul_bd (by norm_num : |(84381.406 : ℝ)| ≤ 84382) das2r_bd
  obtain ⟨o1, o2⟩ := flPolyT_err R ht hT (-0.025754) [0.0512623, -0.00772503, -0.000000467, 0.0000003337] (M := 1.4) (E := 1e-13) (by norm_num [polyM, abs_of_pos]) (by norm_num [polyM, polyE, abs_of_pos]) (by norm_num) (by norm_num)
  refine ⟨e0, ?_, ?_, ?_⟩
  · exact (flPolyT_err R ht hT 5038.481507 [-1.0790069, -0.00114045, 0.000132851, -0.0000000951] (M := 5050) (E := 1.9e-12) (by norm_num [polyM, abs_of_pos]) (by norm_num [polyM, polyE, abs_of_pos]) (by norm_num) (by norm_num)).1.trans (by norm_num)
  · exact (R.addB _ e0 o1 e1 o2 (by norm_num) (by norm_num)).1
  · exact (flPolyT_err R ht hT 10.556403 [-2.3814292, -0.00121197, 0.000170663, -0.0000000560] (M := 35) (E := 1e-13) (by norm_num [polyM, abs_of_pos]) (by norm_num [polyM, polyE, abs_of_pos]) (by norm_num) (by norm_num)).1.trans (by norm_num)

/-- Bounds on the two angles that nutation is added to. -/
theorem pfw06_bd {D1 D2 : ℝ} (hT : |cent06 D1 D2| ≤ 10) : |(eraPfw06 D1 D2).psib| ≤ 0.25 ∧ |(eraPfw06 D1 D2).epsa| ≤ 0.42 := by
  have key : ∀ (cs : List ℝ) (c : ℝ), |rPoly c cs (cent06 D1 D2)| ≤ polyM c cs := by
    intro cs
    induction cs with
    | nil => intro c; exact le_rfl
    | cons d ds ih =>
      intro c
      have := mul_bd (ih d) hT
      have h2 := abs_add_le c (rPoly d ds (cent06 D1 D2) * cent06 D1 D2)
      rw [rPoly, polyM]; linarith
  constructor
  · have h := key [5038.481484, 1.5584175, -0.00018522, -0.000026452, -0.0000000148] (-0.041775)
    have h2 : polyM (-0.041775) [5038.481484, 1.5584175, -0.00018522, -0.000026452, -0.0000000148] ≤ 50550 := by norm_num [polyM, abs_of_pos]
    exact (mul_bd (h.trans h2) das2r_bd).trans (by norm_num)
  · have h := key [-46.836769, -0.0001831, 0.00200340, -0.000000576, -0.0000000434] 84381.406
    have h2 : polyM 84381.406 [-46.836769, -0.0001831, 0.00200340, -0.000000576, -0.0000000434] ≤ 84860 := by norm_num [polyM, abs_of_pos]
    exact (mul_bd (h.trans h2) das2r_bd).trans (by norm_num)

/-- The bias-precession-nutation matrix in double precision, with an error of δ in the nutation angles. -/
theorem flPnm06a_small (R : Rounding fl) (hL : LibmOK L) {nf nx : ℝ → ℝ → ℝ × ℝ} {d1 d2 D1 D2 δ : ℝ} (ht : |flCent06 fl d1 d2 - cent06 D1 D2| ≤ 1.1e-14) (hT : |cent06 D1 D2| ≤ 10)
    (h1 : |(nf d1 d2).1 - (nx D1 D2).1| ≤ δ) (h2 : |(nf d1 d2).2 - (nx D1 D2).2| ≤ δ) (hδ : δ ≤ 1e-14) (b1 : |(nx D1 D2).1| ≤ 1e-3) (b2 : |(nx D1 D2).2| ≤ 1e-3) :
    Small (flPnm06a fl L nf d1 d2 - eraPnm06a nx D1 D2) (8.3e-15 + 2 * δ) := by
  have d0 := (abs_nonneg _).trans h1
  obtain ⟨g, f, p, e⟩ := flPfw06_err R ht hT
  obtain ⟨pb, eb⟩ := pfw06_bd hT
  have p' := (R.addB (5.3e-16 + 1.001 * δ) p h1 pb b1 (by norm_num at *; linarith) (by norm_num at *; linarith)).1
  have e' := (R.addB (2.9e-16 + 1.001 * δ) e h2 eb b2 (by norm_num at *; linarith) (by norm_num at *; linarith)).1
  have q : δ * 1e-3 ≤ 1e-17 := by norm_num at *; linarith
  obtain ⟨r1, s1⟩ := flRz_step R hL rot_one small_ir (by norm_num) g
  obtain ⟨r2, s2⟩ := flRx_step R hL r1 s1 (by norm_num) f
  obtain ⟨r3, s3⟩ := flRz_step R hL r2 s2 (by norm_num) (neg_diff p')
  obtain ⟨r4, s4⟩ := flRx_step R hL r3 s3 (by norm_num at *; linarith) (neg_diff e')
  have e1 : eraPnm06a nx D1 D2 = axisX (-((eraPfw06 D1 D2).epsa + (nx D1 D2).2)) * (axisZ (-((eraPfw06 D1 D2).psib + (nx D1 D2).1)) * (axisX (eraPfw06 D1 D2).phib * (axisZ (eraPfw06 D1 D2).gamb * 1))) := by
    rw [eraPnm06a, fw2m_eq, Matrix.mul_one]; simp only [Matrix.mul_assoc]
  rw [e1]
  exact s4.mono (by norm_num at *; linarith)

/-- palPrenut in double precision. -/
theorem flPrenut_small (R : Rounding fl) (hL : LibmOK L) {nf nx : ℝ → ℝ → ℝ × ℝ} {epoch date δ : ℝ} (h0 : |epoch - 2000| ≤ 1000) (h : |date - 51544.5| ≤ 365250)
    (h1 : |(nf 2400000.5 date).1 - (nx 2400000.5 date).1| ≤ δ) (h2 : |(nf 2400000.5 date).2 - (nx 2400000.5 date).2| ≤ δ) (hδ : δ ≤ 1e-14) (b1 : |(nx 2400000.5 date).1| ≤ 1e-3) (b2 : |(nx 2400000.5 date).2| ≤ 1e-3) :
    Small (flPrenut fl L nf epoch date - palPrenut (iau2006 nx) epoch date) (1.8e-14 + 2 * δ) := by
  obtain ⟨t, b⟩ := flCent_mjd R h
  obtain ⟨t', b'⟩ := flCent_epj2d R h0
  have d0 := (abs_nonneg _).trans h1
  have s2 := flPnm06a_small R hL t b h1 h2 hδ b1 b2
  obtain ⟨a1, a2, a3, a4⟩ := flP06e_err R t' b'
  obtain ⟨r1, u1⟩ := flRz_step R hL rot_one small_ir (by norm_num) (neg_diff a4)
  obtain ⟨r2, u2⟩ := flRx_step R hL r1 u1 (by norm_num) a3
  obtain ⟨r3, u3⟩ := flRz_step R hL r2 u2 (by norm_num) a2
  obtain ⟨r4, u4⟩ := flRx_step R hL r3 u3 (by norm_num) (neg_diff a1)
  have u5 := u4.mono (by norm_num : _ ≤ (8.15e-15 : ℝ))
  have := flRxr_small R (pnm06a_rot nx 2400000.5 date) r4 s2 u5 (by norm_num at *; linarith) (by norm_num)
  unfold flPrenut palPrenut
  dsimp only [iau2006]
  rw [eraRxr_eq, eraRx_eq, eraRz_eq, eraRx_eq, eraRz_eq, eraIr_eq]
  exact this.mono (by norm_num; linarith)

theorem flDeuler_xzx (a b c : ℝ) : flDeuler fl L ['X', 'Z', 'X'] a b c = flRx fl L c (flRz fl L b (flRx fl L a eraIr)) := by
  unfold flDeuler
  rw [flDeulerLoop, if_pos (by norm_num)]
  simp only [List.getElem?_cons_zero]
  rw [if_pos (by decide), flDeulerLoop, if_pos (by norm_num)]
  simp only [zero_add, List.getElem?_cons_succ, List.getElem?_cons_zero]
  rw [if_neg (by decide), if_neg (by decide), if_pos (by decide), flDeulerLoop, if_pos (by norm_num)]
  simp only [List.getElem?_cons_succ, List.getElem?_cons_zero]
  rw [if_pos (by decide), flDeulerLoop, if_neg (by norm_num)]
  simp

/-- palNut in double precision. -/
theorem flNut_small (R : Rounding fl) (hL : LibmOK L) {nf nx : ℝ → ℝ → ℝ × ℝ} {date δ : ℝ} (h : |date - 51544.5| ≤ 365250)
    (h1 : |(nf 2400000.5 date).1 - (nx 2400000.5 date).1| ≤ δ) (h2 : |(nf 2400000.5 date).2 - (nx 2400000.5 date).2| ≤ δ) (hδ : δ ≤ 1e-14) (b2 : |(nx 2400000.5 date).2| ≤ 1e-3) :
    Small (flNut fl L nf date - palNut (iau2006 nx) date) (6e-15 + 2 * δ) := by
  have d0 := (abs_nonneg _).trans h1
  obtain ⟨t, b⟩ := flCent_mjd R h
  have e := flObl06_err R h
  have e' := (R.addB (2.9e-16 + 1.001 * δ) e h2 (pfw06_bd b).2 b2 (by norm_num at *; linarith) (by norm_num at *; linarith)).1
  obtain ⟨r1, s1⟩ := flRx_step R hL rot_one small_ir (by norm_num) e
  obtain ⟨r2, s2⟩ := flRz_step R hL r1 s1 (by norm_num) (neg_diff h1)
  obtain ⟨r3, s3⟩ := flRx_step R hL r2 s2 (by norm_num at *; linarith) (neg_diff e')
  have q : δ * 1e-3 ≤ 1e-17 := by norm_num at *; linarith
  have e1 : palNut (iau2006 nx) date = axisX (-(eraObl06 2400000.5 date + (nx 2400000.5 date).2)) * (axisZ (-(nx 2400000.5 date).1) * (axisX (eraObl06 2400000.5 date) * 1)) := by
    unfold palNut palNutc
    rw [deuler3 'X' 'Z' 'X' axisX axisZ axisX (by simp [axisOf]) (by simp [axisOf]) (by simp [axisOf]), Matrix.mul_one, ← Matrix.mul_assoc]
    rfl
  unfold flNut flNutc
  rw [flDeuler_xzx, e1]
  exact s3.mono (by norm_num at *; linarith)

end Pal
