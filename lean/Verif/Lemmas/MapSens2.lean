import Verif.Lemmas.MapSens
import Verif.Props.FlNut

/-!
# The mean-to-apparent conversions with two nearby parameter blocks

Exact arithmetic: `o` is the block as rounded in palMappa, `x` the exact one.
-/

namespace Pal
open Real Pal.Spec Pal.Props Matrix

/-- What C138 says of the two blocks, with matrices that differ by m. -/
structure BlockClose (o x : Amprms) (m : ℝ) : Prop where
  pmt : |o.pmt - x.pmt| ≤ 8e-13
  eb : len (fun i => o.eb i - x.eb i) ≤ 1.06e-14
  ehn : len (fun i => o.ehn i - x.ehn i) ≤ 1.25e-14
  gr : |o.gr2e - x.gr2e| ≤ 3e-22
  abv : len (fun i => o.abv i - x.abv i) ≤ 2.5e-18
  ab1 : |o.ab1 - x.ab1| ≤ 1.8e-16
  mat : Small (o.mat - x.mat) m
  ab1o : o.ab1 ≤ 1
  ab1x : 0.99999999 ≤ x.ab1
  ab1x' : x.ab1 ≤ 1
  ehnx : len x.ehn = 1
  grx : 1.85e-8 ≤ x.gr2e
  grx' : x.gr2e ≤ 2.08e-8
  abvx : len x.abv ≤ 1.07e-4
  ebx : len x.eb ≤ 1.09
  rot : IsRotation x.mat
  m1 : m ≤ 3.8e-14

namespace BlockClose
variable {o x : Amprms} {m : ℝ} (h : BlockClose o x m)
include h

theorem he : |len o.ehn - 1| ≤ 1e-9 := by
  have := (len_rev_tri o.ehn x.ehn).trans h.ehn
  rw [h.ehnx] at this; exact this.trans (by norm_num)

theorem hg : 0 ≤ o.gr2e ∧ o.gr2e ≤ 2.1e-8 := by
  have a := abs_le.1 h.gr
  have b := h.grx
  have c := h.grx'
  constructor <;> norm_num at * <;> linarith

theorem hv : len o.abv ≤ 1.08e-4 := by
  have := (abs_le.1 ((len_rev_tri o.abv x.abv).trans h.abv)).2
  have b := h.abvx
  norm_num at *; linarith

theorem ha : 0.99999998 ≤ o.ab1 := by
  have := (abs_le.1 h.ab1).1
  have b := h.ab1x
  norm_num at *; linarith

theorem ha1 : x.ab1 ≤ 1.0000001 := by
  have := (abs_le.1 h.ab1).1
  have b := h.ab1o
  norm_num at *; linarith

theorem horth (i j : Fin 3) : |(o.mat.transpose * o.mat) i j - (1 : Mat3) i j| ≤ 1e-10 ∧ |(o.mat * o.mat.transpose) i j - (1 : Mat3) i j| ≤ 1e-10 :=
  near_orth2 h.rot h.mat (h.m1.trans (by norm_num)) i j

theorem heb (i : Fin 3) : |o.eb i| ≤ 1.1 := by
  have a := comp_le_len o.eb i
  have := (abs_le.1 ((len_rev_tri o.eb x.eb).trans h.eb)).2
  have b := h.ebx
  norm_num at *; linarith

/-- Everything after the star's direction. -/
theorem chain {P P' Q Q' : Vec3} {a : ℝ} (hP : len P = 1) (hP' : len P' = 1) (hPP : len (fun i => P i - P' i) ≤ a) (ha : a ≤ 5e-15)
    (hQ : (Q = defl0 o.gr2e o.ehn P ∧ Q' = defl0 x.gr2e x.ehn P') ∨ (len Q' ≤ 1.2 ∧ len (fun i => Q i - Q' i) ≤ 1e-13)) :
    let u := mapFinish o.mat (fun i => o.ab1 * defl0 o.gr2e o.ehn P i + (1 + dot Q o.abv / (o.ab1 + 1)) * o.abv i)
    let w := mapFinish x.mat (fun i => x.ab1 * defl0 x.gr2e x.ehn P' i + (1 + dot Q' x.abv / (x.ab1 + 1)) * x.abv i)
    len (fun i => dir u.1 u.2 i - dir w.1 w.2 i) ≤ 1.964 * a + 1.23e-14 + 1.003 * m := by
  have a0 := (len_nonneg _).trans hPP
  have d := defl0_sens (g' := x.gr2e) h.ehnx hP hP' hPP h.ehn (by norm_num at *; linarith) h.hg.1 h.hg.2 h.gr
  have c := defl0_close (E := x.ehn) (g := x.gr2e) (by rw [h.ehnx]; norm_num) hP' (le_trans (by norm_num) h.grx) (h.grx'.trans (by norm_num))
  have hl := abs_le.1 ((len_rev_tri (defl0 x.gr2e x.ehn P') P').trans c)
  rw [hP'] at hl
  have hQ' : len Q' ≤ 1.2 ∧ len (fun i => Q i - Q' i) ≤ 1e-13 := by
    rcases hQ with ⟨rfl, rfl⟩ | q
    · exact ⟨by norm_num at *; linarith, d.trans (by norm_num at *; linarith)⟩
    · exact q
  have hk := h.ha
  have hk' := h.ab1x
  have hk1 := h.ha1
  have w := aber_sens (k := o.ab1) (k' := x.ab1) (A := defl0 o.gr2e o.ehn P) (A' := defl0 x.gr2e x.ehn P') (hk.trans' (by norm_num)) h.ab1o (hk'.trans' (by norm_num)) h.ab1 h.abvx h.abv hQ'.1 hQ'.2 (by norm_num at *; linarith) d
  have s : |dot Q' x.abv| ≤ 1.3e-4 := (dot_le_len Q' x.abv).trans ((mul_le_mul hQ'.1 h.abvx (len_nonneg _) (by norm_num)).trans (by norm_num))
  have p2 : 0 < x.ab1 + 1 := by norm_num at *; linarith
  have q2 : |1 + dot Q' x.abv / (x.ab1 + 1)| ≤ 1.001 := by
    have : |dot Q' x.abv / (x.ab1 + 1)| ≤ 1e-4 := by rw [abs_div, abs_of_pos p2, div_le_iff₀ p2]; norm_num at *; linarith
    have := abs_add_le 1 (dot Q' x.abv / (x.ab1 + 1))
    rw [abs_one] at this
    norm_num at *; linarith
  have n1 := len_nonneg (defl0 x.gr2e x.ehn P')
  have lw : len (fun i => (1 + dot Q' x.abv / (x.ab1 + 1)) * x.abv i) ≤ 1.08e-4 := by
    rw [len_smul]
    have := mul_le_mul q2 h.abvx (len_nonneg _) (by norm_num)
    norm_num at *; linarith
  have ls : len (fun i => x.ab1 * defl0 x.gr2e x.ehn P' i) = x.ab1 * len (defl0 x.gr2e x.ehn P') := by
    rw [len_smul, abs_of_nonneg (by norm_num at *; linarith)]
  have r := len_rev_tri (fun i => x.ab1 * defl0 x.gr2e x.ehn P' i + (1 + dot Q' x.abv / (x.ab1 + 1)) * x.abv i) (fun i => x.ab1 * defl0 x.gr2e x.ehn P' i)
  simp only [add_sub_cancel_left] at r
  rw [ls] at r
  have r' := abs_le.1 (r.trans lw)
  have k1 : x.ab1 * len (defl0 x.gr2e x.ehn P') ≤ 1.0000001 * (1 + 1e-5) := mul_le_mul hk1 (by linarith) n1 (by norm_num)
  have k2 : 0.99999999 * (1 - 1e-5) ≤ x.ab1 * len (defl0 x.gr2e x.ehn P') := mul_le_mul hk' (by linarith) (by norm_num) (by norm_num at *; linarith)
  have f := finish_sens h.rot h.mat (h.m1.trans (by norm_num)) w (by norm_num at *; linarith) (by norm_num at *; linarith) (by norm_num at *; linarith)
  refine f.trans ?_
  clear w r r' k1 k2 ls lw q2 s hl c d hPP hQ hQ' hk hk' hk1
  norm_num at *; linarith

/-- The star's vector before normalisation. -/
theorem space (rm dm : ℝ) {pr pd px rv : ℝ} (hpr : |pr| ≤ 3e-4) (hpd : |pd| ≤ 3e-4) (hpx : |px| ≤ 1) (hrv : |rv| ≤ 300) :
    len (fun i => space0 rm dm pr pd px rv o i - space0 rm dm pr pd px rv x i) ≤ 7.4e-16 := by
  obtain ⟨d1, d2, -⟩ := das2r_bounds
  have d0 : 0 < das2r := lt_of_lt_of_le (by norm_num) d1
  have hp : |px * das2r| ≤ 4.85e-6 := by rw [abs_mul, abs_of_pos d0]; exact (mul_le_mul hpx d2 d0.le zero_le_one).trans (by norm_num)
  have hw : |0.210945028 * rv * (px * das2r)| ≤ 3.08e-4 := by
    rw [abs_mul, abs_mul]
    have : |(0.210945028 : ℝ)| = 0.210945028 := abs_of_pos (by norm_num)
    rw [this]
    exact (mul_le_mul (mul_le_mul_of_nonneg_left hrv (by norm_num)) hp (abs_nonneg _) (by norm_num)).trans (by norm_num)
  have e : (fun i => space0 rm dm pr pd px rv o i - space0 rm dm pr pd px rv x i) = fun i => (o.pmt - x.pmt) * (pr * (![-dir rm dm 1, dir rm dm 0, 0] : Vec3) i + pd * (![-(cos rm * sin dm), -(sin rm * sin dm), cos dm] : Vec3) i
      + (0.210945028 * rv * (px * das2r)) * dir rm dm i) + (-(px * das2r)) * (o.eb i - x.eb i) := by
    funext i; unfold space0; fin_cases i <;> simp <;> ring
  have u1 : len (![-dir rm dm 1, dir rm dm 0, 0] : Vec3) ≤ 1 := by
    refine Real.sqrt_le_one.2 ?_
    rw [Fin.sum_univ_three]
    simp [dir]
    nlinarith [sin_sq_add_cos_sq rm, sin_sq_add_cos_sq dm, sq_nonneg (sin dm), sq_nonneg (cos dm)]
  have u2 : len (![-(cos rm * sin dm), -(sin rm * sin dm), cos dm] : Vec3) ≤ 1 := by
    refine Real.sqrt_le_one.2 ?_
    rw [Fin.sum_univ_three]
    simp
    have : (cos rm * sin dm) ^ 2 + (sin rm * sin dm) ^ 2 + cos dm ^ 2 = 1 := by
      have a := sin_sq_add_cos_sq rm
      have b := sin_sq_add_cos_sq dm
      linear_combination sin dm ^ 2 * a + b
    exact this.le
  rw [e]
  refine (len_add_le (fun i => (o.pmt - x.pmt) * (pr * (![-dir rm dm 1, dir rm dm 0, 0] : Vec3) i + pd * (![-(cos rm * sin dm), -(sin rm * sin dm), cos dm] : Vec3) i
      + (0.210945028 * rv * (px * das2r)) * dir rm dm i)) (fun i => (-(px * das2r)) * (o.eb i - x.eb i))).trans ?_
  rw [len_smul (o.pmt - x.pmt) (fun i => pr * (![-dir rm dm 1, dir rm dm 0, 0] : Vec3) i + pd * (![-(cos rm * sin dm), -(sin rm * sin dm), cos dm] : Vec3) i + (0.210945028 * rv * (px * das2r)) * dir rm dm i),
    len_smul (-(px * das2r)) (fun i => o.eb i - x.eb i), abs_neg]
  have s := len_sum3 (fun i => pr * (![-dir rm dm 1, dir rm dm 0, 0] : Vec3) i) (fun i => pd * (![-(cos rm * sin dm), -(sin rm * sin dm), cos dm] : Vec3) i) (fun i => (0.210945028 * rv * (px * das2r)) * dir rm dm i)
  rw [len_smul pr, len_smul pd, len_smul (0.210945028 * rv * (px * das2r)), len_dir] at s
  have t1 := mul_le_mul hpr u1 (len_nonneg _) (by norm_num)
  have t2 := mul_le_mul hpd u2 (len_nonneg _) (by norm_num)
  have s' : len (fun i => pr * (![-dir rm dm 1, dir rm dm 0, 0] : Vec3) i + pd * (![-(cos rm * sin dm), -(sin rm * sin dm), cos dm] : Vec3) i + (0.210945028 * rv * (px * das2r)) * dir rm dm i) ≤ 9.08e-4 := by
    norm_num at *; linarith
  have r1 := mul_le_mul h.pmt s' (len_nonneg _) (by norm_num)
  have r2 := mul_le_mul hp h.eb (len_nonneg _) (by norm_num)
  clear s e t1 t2 s'
  norm_num at *; linarith

end BlockClose

end Pal
