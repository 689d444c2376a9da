import Verif.Lemmas.FlFkRates
import Verif.Props.FlFk4
import Verif.Props.FkEpoch

/-!
# FK5 to FK4 in double precision
-/

namespace Pal.Props
open Real Pal.Spec

variable {fl : ℝ → ℝ} {L : Libm}

/-- The right ascension of palFk524 is that of eraAnp. -/
theorem fk_ra (R : Rounding fl) {a : ℝ} (h : |a| ≤ 3.15) : (if a < 0 then fl (a + flPal2PI fl) else a) = flAnp fl a := by
  have hb := D2_b
  unfold flAnp
  rw [fmod_small (by rw [flD2PI_eq R]; linarith [hb.1]) (by rw [flD2PI_eq R]; refine h.trans_lt ?_; norm_num at hb ⊢; linarith [hb.1]), flPal2PI_eq R, ← flD2PI_eq R]

/-- The place of palFk524 in double precision. -/
theorem fk524_place (R : Rounding fl) (hL : LibmOK L) (nz : Bool) (s : Star) (hm : (|s.dr| + |s.dd|) * palPMF + 21.095 * |s.rv * s.px| ≤ 3900) (hv : |s.rv| ≤ 10 ^ 10) (hp : |s.px| ≤ 10 ^ 10) :
    let o := flFk524 fl L nz s
    let x := palFk524 s
    0 ≤ o.r ∧ o.r ≤ flD2PI fl ∧ |o.d| ≤ π / 2 + 4.5e-16 ∧ len (fun i => dir o.r o.d i - dir x.r x.d i) ≤ 8.5e-15 := by
  intro o x
  obtain ⟨pm, pm1, pm2⟩ := flPMF_near R
  have pp : |palPMF| = palPMF := abs_of_pos pm.pos
  obtain ⟨e1, -, -, e2, -⟩ := flFk524Vec_err R hL s (kr := |s.dr| * palPMF) (kd := |s.dd| * palPMF) (kw := 21.095 * |s.rv * s.px|) (by rw [abs_mul, pp]) (by rw [abs_mul, pp])
    (by rw [mul_assoc, abs_mul, abs_of_pos (by norm_num : (0 : ℝ) < 21.095)]) rfl (by linarith) hv hp
  have e2' := abs_le.1 e2
  have h1 : 0.99 ≤ len (fk524Vec s).1 := by norm_num at e2' ⊢; linarith
  have h2 : len (fk524Vec s).1 ≤ 1.01 := by norm_num at e2' ⊢; linarith
  obtain ⟨v, hv'⟩ : ∃ v, v = (flFk524Vec fl L s).1 := ⟨_, rfl⟩
  rw [← hv'] at e1
  obtain ⟨n1, n2⟩ := close_len e1 (by norm_num) h1 h2
  have hod : o.d = L.atan2 (v 2) (fl (√(fl (fl (v 0 * v 0) + fl (v 1 * v 1))))) := by rw [hv']; rfl
  obtain ⟨θ, hθ⟩ : ∃ θ, θ = if v 0 = 0 ∧ v 1 = 0 then 0 else flAtan2 L nz (v 1) (v 0) := ⟨_, rfl⟩
  obtain ⟨T, P, t1, t2, t3, t4, t5⟩ := flC2s_core R hL nz v n1 n2 θ o.d (by
    by_cases h0 : v 0 = 0 ∧ v 1 = 0
    · left
      rw [hθ, if_pos h0, h0.1, h0.2]
      refine ⟨?_, rfl⟩
      simp [R.zero]
    · right
      rw [hθ, if_neg h0]
      refine ⟨?_, rfl⟩
      by_contra hc
      push Not at hc
      exact h0 hc) (by
    intro hr0
    rw [hod]
    exact hL.atan2 _ _)
  have p1 := pi_lt_d4
  have hT : |θ| ≤ 3.15 := (close_range t1 t3).trans (by norm_num at *; linarith)
  have hor : o.r = flAnp fl θ := by
    have : o.r = if v 0 = 0 ∧ v 1 = 0 then 0 else (if flAtan2 L nz (v 1) (v 0) < 0 then fl (flAtan2 L nz (v 1) (v 0) + flPal2PI fl) else flAtan2 L nz (v 1) (v 0)) := by rw [hv']; rfl
    rw [this]
    rw [← fk_ra R hT]
    by_cases h0 : v 0 = 0 ∧ v 1 = 0
    · rw [hθ, if_pos h0, if_pos h0, if_neg (lt_irrefl _)]
    · rw [hθ, if_neg h0, if_neg h0]
  obtain ⟨a1, a2, k, a3⟩ := flAnp_small R _ hT
  rw [← hor] at a1 a2 a3
  have := angles_dir _ _ _ T P _ v _ _ e1 (by norm_num) h1 h2 (dir x.r x.d) (fk524_dir s) t1 t2 t5 k a3
  exact ⟨a1, a2, close_range t2 t4, this.trans (by norm_num)⟩

/-- C136: palFk524 in double precision gives the place of exact arithmetic to 8.5e-15 radians, with a right ascension in [0, 2π], for every star whose proper motions and radial motion add up to at most 39 arcsec per year. -/
theorem C136_fk524_place (R : Rounding fl) (hL : LibmOK L) (nz : Bool) (s : Star) (hm : (|s.dr| + |s.dd|) * (100 * (648000 / π)) + 21.095 * |s.rv * s.px| ≤ 3900) (hv : |s.rv| ≤ 10 ^ 10) (hp : |s.px| ≤ 10 ^ 10) :
    let o := flFk524 fl L nz s
    let x := palFk524 s
    0 ≤ o.r ∧ o.r ≤ flD2PI fl ∧ |o.d| ≤ π / 2 + 4.5e-16 ∧ len (fun i => dir o.r o.d i - dir x.r x.d i) ≤ 8.5e-15 :=
  fk524_place R hL nz s (by rw [pmf_eq]; exact hm) hv hp

/-- Barnard's star (about 10 arcsec per year), with IEEE rounding. -/
example : let s : Star := { r := 4.70, d := 0.082, dr := -3.9e-6, dd := 5.0e-5, px := 0.547, rv := -110 }
    len (fun i => dir (flFk524 ieee roundedLibm false s).r (flFk524 ieee roundedLibm false s).d i - dir (palFk524 s).r (palFk524 s).d i) ≤ 8.5e-15 :=
  (C136_fk524_place ieee_rounding roundedLibm_ok false _ (by
    have : (100 : ℝ) * (648000 / π) ≤ 2.07e7 := by rw [mul_div_assoc', div_le_iff₀ pi_pos]; have := pi_gt_d4; norm_num at *; linarith
    norm_num [abs_of_pos, abs_of_neg] at *; linarith) (by norm_num [abs_le]) (by norm_num [abs_le])).2.2.2

theorem fk_in (R : Rounding fl) (hL : LibmOK L) (s : Star) {K : ℝ} (hK : K = (|s.dr| + |s.dd|) * palPMF + 21.095 * |s.rv * s.px|) (hm : K ≤ 3900) (hv : |s.rv| ≤ 10 ^ 10) (hp : |s.px| ≤ 10 ^ 10)
    (hc : 0.001 ≤ cos (palFk524 s).d) :
    let v := flFk524Vec fl L s
    let V := fk524Vec s
    |len V.1 - 1| ≤ 0.0099 ∧ |v.2.2 - V.2.2| ≤ 3.3e-15 ∧ |V.2.2 - 1| ≤ 0.0099 ∧
      FkIn (v.1 0) (v.1 1) (v.1 2) (v.2.1 0) (v.2.1 1) (v.2.1 2) (V.1 0) (V.1 1) (V.1 2) (V.2.1 0) (V.2.1 1) (V.2.1 2) K (len V.1 * cos (palFk524 s).d) := by
  intro v V
  obtain ⟨pm, pm1, pm2⟩ := flPMF_near R
  have pp : |palPMF| = palPMF := abs_of_pos pm.pos
  obtain ⟨e1, e3, e4, e2, e5⟩ := flFk524Vec_err R hL s (kr := |s.dr| * palPMF) (kd := |s.dd| * palPMF) (kw := 21.095 * |s.rv * s.px|) (K := K) (by rw [abs_mul, pp]) (by rw [abs_mul, pp])
    (by rw [mul_assoc, abs_mul, abs_of_pos (by norm_num : (0 : ℝ) < 21.095)]) (by rw [hK]; ring) hm hv hp
  have e2' := abs_le.1 e2
  have h1 : 0.9901 ≤ len V.1 := by norm_num at e2' ⊢; linarith
  have h2 : len V.1 ≤ 1.0099 := by norm_num at e2' ⊢; linarith
  have cb := fun i => (comp_le_len V.1 i).trans h2
  have D := fk524_dir s
  have D0 : V.1 0 = len V.1 * (cos (palFk524 s).d * cos (palFk524 s).r) := (congrFun D 0).symm
  have D1 : V.1 1 = len V.1 * (cos (palFk524 s).d * sin (palFk524 s).r) := (congrFun D 1).symm
  have D2 : V.1 2 = len V.1 * sin (palFk524 s).d := (congrFun D 2).symm
  have t1 := sin_sq_add_cos_sq (palFk524 s).r
  have t2 := sin_sq_add_cos_sq (palFk524 s).d
  have t3 := cos_le_one (palFk524 s).d
  have sq : V.1 0 * V.1 0 + V.1 1 * V.1 1 = len V.1 * cos (palFk524 s).d * (len V.1 * cos (palFk524 s).d) := by
    rw [D0, D1]; linear_combination (len V.1 * cos (palFk524 s).d) ^ 2 * t1
  have ss : len V.1 * cos (palFk524 s).d * (len V.1 * cos (palFk524 s).d) + V.1 2 * V.1 2 = len V.1 * len V.1 := by
    rw [D2]; linear_combination (len V.1) ^ 2 * t2
  have K0 : 0 ≤ K := by rw [hK]; have := pm.pos; positivity
  refine ⟨e2, e4, e5, e1 0, e1 1, e1 2, (e3 0).1, (e3 1).1, (e3 2).1, cb 0, cb 1, cb 2, (e3 0).2, (e3 1).2, (e3 2).2, K0, hm, sq, ?_, ?_, ?_, ?_⟩
  · exact le_trans (by norm_num) (mul_le_mul h1 hc (by norm_num) (by linarith))
  · exact (mul_le_mul h2 t3 (by linarith) (by norm_num)).trans (by norm_num)
  · rw [ss]; exact le_trans (by norm_num) (mul_self_le_mul_self (by norm_num) h1)
  · rw [ss]; exact (mul_self_le_mul_self (by linarith) h2).trans (by norm_num)

set_option maxHeartbeats 1600000 in
theorem fk524_rates (R : Rounding fl) (hL : LibmOK L) (nz : Bool) (s : Star) {K : ℝ} (hK : K = (|s.dr| + |s.dd|) * palPMF + 21.095 * |s.rv * s.px|) (hm : K ≤ 3900) (hv : |s.rv| ≤ 10 ^ 10) (hp : |s.px| ≤ 10 ^ 10)
    (hc : 0.001 ≤ cos (palFk524 s).d) :
    let o := flFk524 fl L nz s
    let x := palFk524 s
    |o.dr - x.dr| * cos x.d ^ 2 ≤ 9.6e-22 + 8e-22 * K ∧ |o.dd - x.dd| * cos x.d ≤ 3.5e-21 + 2.8e-21 * K := by
  intro o x
  obtain ⟨l0, -, -, H⟩ := fk_in R hL s hK hm hv hp hc
  have l0' := abs_le.1 l0
  obtain ⟨l, hl⟩ : ∃ l, l = len (fk524Vec s).1 := ⟨_, rfl⟩
  obtain ⟨c, hc'⟩ : ∃ c, c = cos (palFk524 s).d := ⟨_, rfl⟩
  rw [← hl] at l0'
  rw [← hl, ← hc'] at H
  rw [← hc'] at hc
  have l1 : 0.9901 ≤ l := by norm_num at l0' ⊢; linarith
  have l2 : l ≤ 1.0099 := by norm_num at l0' ⊢; linarith
  obtain ⟨ρ, hρ⟩ : ∃ ρ, ρ = l * c := ⟨_, rfl⟩
  rw [← hρ] at H
  have c1 : c ≤ 1 := by rw [hc']; exact cos_le_one _
  have c0 : 0 < c := by linarith
  have r0 : 0 < ρ := lt_of_lt_of_le (by norm_num) H.r0
  have r0' := H.r0
  have r1 := H.r1
  have k0 := H.k0
  have k1 := H.k1
  have inv : 1 / ρ ≤ 1112 := by rw [div_le_iff₀ r0]; norm_num at r0' ⊢; linarith
  have inv' : 1 ≤ 1.0099 * (1 / ρ) := by rw [mul_one_div, le_div_iff₀ r0]; linarith
  have i0 : 0 < 1 / ρ := by positivity
  have iq : 1 / (ρ * ρ) = 1 / ρ * (1 / ρ) := by field_simp
  have inv2 : 1 / ρ * (1 / ρ) ≤ 1112 * 1112 := mul_le_mul inv inv i0.le (by norm_num)
  have inv3 : 1 / ρ ≤ 1.0099 * (1 / ρ * (1 / ρ)) := by nlinarith
  have ic : 1 / ρ * c ≤ 1.01 := by rw [hρ, one_div, inv_mul_le_iff₀ (by rw [← hρ]; exact r0)]; nlinarith
  have ic2 : 1 / ρ * (1 / ρ) * c ^ 2 ≤ 1.0202 := by
    rw [show 1 / ρ * (1 / ρ) * c ^ 2 = (1 / ρ * c) * (1 / ρ * c) by ring]
    have : 1 / ρ * c = 1 / l := by rw [hρ]; field_simp
    rw [this]
    have : 1 / l ≤ 1.01 := by rw [div_le_iff₀ (by linarith)]; norm_num at l1 ⊢; linarith
    have q : 1 / l * l = 1 := by field_simp
    have : 1 / l ≤ 1.01001 := by linarith
    nlinarith
  -- the branch
  have nq := (H.near_sq R).sqrt
  rw [Real.sqrt_mul_self r0.le] at nq
  have nq2 := nq.fl R (1 / 1000) (le_trans (by norm_num) r0') (by norm_num at r1 ⊢; linarith) (by rw [show 4.7e-15 / ρ = 4.7e-15 * (1 / ρ) by ring]; norm_num at inv ⊢; linarith) le_rfl
  have br : fl (√(fl (fl ((flFk524Vec fl L s).1 0 * (flFk524Vec fl L s).1 0) + fl ((flFk524Vec fl L s).1 1 * (flFk524Vec fl L s).1 1)))) > fl (1 / 10 ^ 30) := by
    have h1 := nq2.lo'
    have h2 := small_of_err (R.cst (1 / 10 ^ 30) (M := 1e-30) (by norm_num) (by norm_num) (by norm_num)) (M := 1e-30) (by norm_num)
    have h3 := le_abs_self (fl (1 / 10 ^ 30))
    refine lt_of_lt_of_le ?_ h1
    norm_num at h2 h3 r0' ⊢
    linarith
  have sq' : (fk524Vec s).1 0 * (fk524Vec s).1 0 + (fk524Vec s).1 1 * (fk524Vec s).1 1 = ρ * ρ := H.sq
  have bR : √((fk524Vec s).1 0 * (fk524Vec s).1 0 + (fk524Vec s).1 1 * (fk524Vec s).1 1) > 1 / 10 ^ 30 := by
    rw [sq', Real.sqrt_mul_self r0.le]; exact lt_of_lt_of_le (by norm_num) r0'
  obtain ⟨u1, u2⟩ := H.ur R
  obtain ⟨d1, d2⟩ := H.ud R
  have xr : x.dr = ((fk524Vec s).1 0 * (fk524Vec s).2.1 1 - (fk524Vec s).1 1 * (fk524Vec s).2.1 0) / (ρ * ρ) / palPMF := by
    show (palFk524 s).dr = _
    unfold palFk524
    dsimp only
    rw [if_pos bR, sq']
  have xdd : x.dd = ((fk524Vec s).2.1 2 * (ρ * ρ) - (fk524Vec s).1 2 * ((fk524Vec s).1 0 * (fk524Vec s).2.1 0 + (fk524Vec s).1 1 * (fk524Vec s).2.1 1)) / ((ρ * ρ + (fk524Vec s).1 2 * (fk524Vec s).1 2) * ρ) / palPMF := by
    show (palFk524 s).dd = _
    unfold palFk524
    dsimp only
    rw [if_pos bR, sq', Real.sqrt_mul_self r0.le]
  have M0 : (0 : ℝ) ≤ 1.32 + 1.03 * K := by linarith
  have M1 : 1.32 + 1.03 * K ≤ 4019 := by norm_num at k1 ⊢; linarith
  rw [div_eq_mul_one_div (1.83e-14 + 1.53e-14 * K) (ρ * ρ), iq] at u1
  rw [div_eq_mul_one_div (1.41422 * (1.32 + 1.03 * K)) ρ] at u2
  rw [div_eq_mul_one_div (6.9e-14 + 5.5e-14 * K) ρ] at d1
  rw [← hc']
  constructor
  · have or : o.dr = fl (fl (fl (fl ((flFk524Vec fl L s).1 0 * (flFk524Vec fl L s).2.1 1) - fl ((flFk524Vec fl L s).1 1 * (flFk524Vec fl L s).2.1 0)) / fl (fl ((flFk524Vec fl L s).1 0 * (flFk524Vec fl L s).1 0) + fl ((flFk524Vec fl L s).1 1 * (flFk524Vec fl L s).1 1))) / flPMF fl) := by
      show (flFk524 fl L nz s).dr = _
      unfold flFk524
      dsimp only
      rw [if_pos br]
    rw [or, xr]
    have a : (1.83e-14 + 1.53e-14 * K) * (1 / ρ * (1 / ρ)) ≤ (1.83e-14 + 1.53e-14 * K) * (1112 * 1112) := mul_le_mul_of_nonneg_left inv2 (by positivity)
    have b : 1.41422 * (1.32 + 1.03 * K) * (1 / ρ) ≤ 1.41422 * (1.32 + 1.03 * K) * 1112 := mul_le_mul_of_nonneg_left inv (by positivity)
    have z := FkIn.pmf R u1 (by norm_num at a k1 ⊢; linarith) (u2.trans (by norm_num at b k1 ⊢; linarith))
    have w : |((fk524Vec s).1 0 * (fk524Vec s).2.1 1 - (fk524Vec s).1 1 * (fk524Vec s).2.1 0) / (ρ * ρ)| ≤ 1.41422 * (1.32 + 1.03 * K) * (1.0099 * (1 / ρ * (1 / ρ))) := u2.trans (mul_le_mul_of_nonneg_left inv3 (by positivity))
    refine (mul_le_mul_of_nonneg_right (z.trans (add_le_add (mul_le_mul_of_nonneg_left (add_le_add le_rfl (mul_le_mul_of_nonneg_left w (by norm_num))) (by norm_num)) le_rfl)) (sq_nonneg c)).trans ?_
    have cc : c ^ 2 ≤ 1 := by nlinarith
    have e : (4.87e-8 * ((1.83e-14 + 1.53e-14 * K) * (1 / ρ * (1 / ρ)) + 1 / 10 ^ 200 + 3.62e-16 * (1.41422 * (1.32 + 1.03 * K) * (1.0099 * (1 / ρ * (1 / ρ))))) + 1 / 10 ^ 200) * c ^ 2 =
      4.87e-8 * ((1.83e-14 + 1.53e-14 * K) + 3.62e-16 * (1.41422 * (1.32 + 1.03 * K) * 1.0099)) * (1 / ρ * (1 / ρ) * c ^ 2) + (4.87e-8 * (1 / 10 ^ 200) + 1 / 10 ^ 200) * c ^ 2 := by ring
    rw [e]
    have f1 := mul_le_mul_of_nonneg_left ic2 (by positivity : 0 ≤ 4.87e-8 * ((1.83e-14 + 1.53e-14 * K) + 3.62e-16 * (1.41422 * (1.32 + 1.03 * K) * 1.0099)))
    have f2 := mul_le_mul_of_nonneg_left cc (by norm_num : (0 : ℝ) ≤ 4.87e-8 * (1 / 10 ^ 200) + 1 / 10 ^ 200)
    refine (add_le_add f1 f2).trans ?_
    norm_num
    linarith
  · have od : o.dd = fl (fl (fl (fl ((flFk524Vec fl L s).2.1 2 * fl (fl ((flFk524Vec fl L s).1 0 * (flFk524Vec fl L s).1 0) + fl ((flFk524Vec fl L s).1 1 * (flFk524Vec fl L s).1 1))) - fl ((flFk524Vec fl L s).1 2 * fl (fl ((flFk524Vec fl L s).1 0 * (flFk524Vec fl L s).2.1 0) + fl ((flFk524Vec fl L s).1 1 * (flFk524Vec fl L s).2.1 1)))) /
        fl (fl (fl (fl ((flFk524Vec fl L s).1 0 * (flFk524Vec fl L s).1 0) + fl ((flFk524Vec fl L s).1 1 * (flFk524Vec fl L s).1 1)) + fl ((flFk524Vec fl L s).1 2 * (flFk524Vec fl L s).1 2)) * fl (√(fl (fl ((flFk524Vec fl L s).1 0 * (flFk524Vec fl L s).1 0) + fl ((flFk524Vec fl L s).1 1 * (flFk524Vec fl L s).1 1)))))) / flPMF fl) := by
      show (flFk524 fl L nz s).dd = _
      unfold flFk524
      dsimp only
      rw [if_pos br]
    rw [od, xdd]
    have a : (6.9e-14 + 5.5e-14 * K) * (1 / ρ) ≤ (6.9e-14 + 5.5e-14 * K) * 1112 := mul_le_mul_of_nonneg_left inv (by positivity)
    have z := FkIn.pmf R d1 (by norm_num at a k1 ⊢; linarith) (d2.trans (by norm_num at k1 ⊢; linarith))
    have w := d2.trans (le_mul_of_one_le_right (by positivity : (0 : ℝ) ≤ 2.5 * (1.32 + 1.03 * K)) inv')
    refine (mul_le_mul_of_nonneg_right (z.trans (add_le_add (mul_le_mul_of_nonneg_left (add_le_add le_rfl (mul_le_mul_of_nonneg_left w (by norm_num))) (by norm_num)) le_rfl)) c0.le).trans ?_
    have e : (4.87e-8 * ((6.9e-14 + 5.5e-14 * K) * (1 / ρ) + 1 / 10 ^ 200 + 3.62e-16 * (2.5 * (1.32 + 1.03 * K) * (1.0099 * (1 / ρ)))) + 1 / 10 ^ 200) * c =
      4.87e-8 * ((6.9e-14 + 5.5e-14 * K) + 3.62e-16 * (2.5 * (1.32 + 1.03 * K) * 1.0099)) * (1 / ρ * c) + (4.87e-8 * (1 / 10 ^ 200) + 1 / 10 ^ 200) * c := by ring
    rw [e]
    have f1 := mul_le_mul_of_nonneg_left ic (by positivity : 0 ≤ 4.87e-8 * ((6.9e-14 + 5.5e-14 * K) + 3.62e-16 * (2.5 * (1.32 + 1.03 * K) * 1.0099)))
    have f2 := mul_le_mul_of_nonneg_left c1 (by norm_num : (0 : ℝ) ≤ 4.87e-8 * (1 / 10 ^ 200) + 1 / 10 ^ 200)
    refine (add_le_add f1 f2).trans ?_
    norm_num
    linarith

/-- C136: the proper motions of palFk524 in double precision (radians per year): with a total motion of `K` arcsec per century, the errors times cos² δ and cos δ are at most 9.6e-22 + 8e-22 K and 3.5e-21 + 2.8e-21 K, for stars more than 3.5 arcmin from the poles. -/
theorem C136_fk524_motions (R : Rounding fl) (hL : LibmOK L) (nz : Bool) (s : Star) {K : ℝ} (hK : K = (|s.dr| + |s.dd|) * (100 * (648000 / π)) + 21.095 * |s.rv * s.px|) (hm : K ≤ 3900) (hv : |s.rv| ≤ 10 ^ 10) (hp : |s.px| ≤ 10 ^ 10)
    (hc : 0.001 ≤ cos (palFk524 s).d) :
    let o := flFk524 fl L nz s
    let x := palFk524 s
    |o.dr - x.dr| * cos x.d ^ 2 ≤ 9.6e-22 + 8e-22 * K ∧ |o.dd - x.dd| * cos x.d ≤ 3.5e-21 + 2.8e-21 * K :=
  fk524_rates R hL nz s (by rw [pmf_eq]; exact hK) hm hv hp hc

/-- A star at the vernal equinox with no proper motion, with IEEE rounding (in FK4 it has a motion, because that system rotates). -/
example : let s : Star := { r := 0, d := 0, dr := 0, dd := 0, px := 0, rv := 0 }
    |(flFk524 ieee roundedLibm false s).dd - (palFk524 s).dd| * cos (palFk524 s).d ≤ 3.5e-21 := by
  intro s
  have h := equator_star
  have e : (palFk54z 0 0 1950).1.2 = (palFk524 s).d := by unfold palFk54z; simp [s]
  rw [e] at h
  have := (C136_fk524_motions ieee_rounding roundedLibm_ok false s (K := 0) (by simp [s]) (by norm_num) (by simp [s]) (by simp [s]) (le_trans (by norm_num) h)).2
  simpa using this

/-- C136: the parallax of palFk524 in double precision has a relative error of at most 3.5e-15 and the radial velocity (km/s) times the parallax (arcsec) an error of at most 1.42e-15 + 1.19e-15 K, for a parallax of at least 1e-20; parallaxes that are zero,
negative or below 1e-31 are returned as they are, with the radial velocity. -/
theorem C136_fk524_distance (R : Rounding fl) (hL : LibmOK L) (nz : Bool) (s : Star) {K : ℝ} (hK : K = (|s.dr| + |s.dd|) * (100 * (648000 / π)) + 21.095 * |s.rv * s.px|) (hm : K ≤ 3900) (hv : |s.rv| ≤ 10 ^ 10) (hp : |s.px| ≤ 10 ^ 10) :
    let o := flFk524 fl L nz s
    let x := palFk524 s
    (1 / 10 ^ 20 ≤ s.px → |o.px - x.px| ≤ 3.5e-15 * x.px ∧ |o.rv - x.rv| * s.px ≤ 1.42e-15 + 1.19e-15 * K) ∧ (s.px ≤ 1 / 10 ^ 31 → o.px = s.px ∧ o.rv = s.rv) := by
  intro o x
  have t0 : |fl (1 / 10 ^ 30) - 1 / 10 ^ 30| ≤ 1e-40 := (R.cst (1 / 10 ^ 30) (M := 1e-30) (by norm_num) (by norm_num) (by norm_num)).trans (by norm_num)
  have t1 := abs_le.1 t0
  constructor
  · intro hx
    have p0 : 0 < s.px := lt_of_lt_of_le (by norm_num) hx
    have p1 := (le_abs_self _).trans hp
    obtain ⟨pm, pm1, pm2⟩ := flPMF_near R
    have pp : |palPMF| = palPMF := abs_of_pos pm.pos
    obtain ⟨e1, e3, e4, e2, e5⟩ := flFk524Vec_err R hL s (kr := |s.dr| * palPMF) (kd := |s.dd| * palPMF) (kw := 21.095 * |s.rv * s.px|) (K := K) (by rw [abs_mul, pp]) (by rw [abs_mul, pp])
      (by rw [mul_assoc, abs_mul, abs_of_pos (by norm_num : (0 : ℝ) < 21.095)]) (by rw [hK, pmf_eq]; ring) hm hv hp
    have K0 : 0 ≤ K := by rw [hK]; have := pi_pos; positivity
    have b : fl (1 / 10 ^ 30) < s.px := by norm_num at t1 hx ⊢; linarith
    have b' : 1 / 10 ^ 30 < s.px := by norm_num at hx ⊢; linarith
    have op : o.px = fl (s.px / (flFk524Vec fl L s).2.2) := by
      show (flFk524 fl L nz s).px = _
      unfold flFk524; dsimp only; rw [if_pos b]
    have orv : o.rv = fl (fl (fl (fl ((flFk524Vec fl L s).1 0 * (flFk524Vec fl L s).2.1 0) + fl ((flFk524Vec fl L s).1 1 * (flFk524Vec fl L s).2.1 1)) + fl ((flFk524Vec fl L s).1 2 * (flFk524Vec fl L s).2.1 2)) /
        fl (fl (s.px * fl 21.095) * (flFk524Vec fl L s).2.2)) := by
      show (flFk524 fl L nz s).rv = _
      unfold flFk524; dsimp only; rw [if_pos b]
    have xp : x.px = s.px / (fk524Vec s).2.2 := by
      show (palFk524 s).px = _
      unfold palFk524; dsimp only; rw [if_pos b']
    have xrv : x.rv = ((fk524Vec s).1 0 * (fk524Vec s).2.1 0 + (fk524Vec s).1 1 * (fk524Vec s).2.1 1 + (fk524Vec s).1 2 * (fk524Vec s).2.1 2) / (s.px * 21.095 * (fk524Vec s).2.2) := by
      show (palFk524 s).rv = _
      unfold palFk524; dsimp only; rw [if_pos b']; rfl
    rw [op, orv, xp, xrv]
    clear op orv xp xrv
    have e2' := abs_le.1 e2
    have cb : ∀ i, |(fk524Vec s).1 i| ≤ 1.0099 := fun i => (comp_le_len _ i).trans (by norm_num at e2' ⊢; linarith)
    have e5' := abs_le.1 e5
    obtain ⟨k, hk⟩ : ∃ k, k = (fk524Vec s).2.2 := ⟨_, rfl⟩
    obtain ⟨k', hk'⟩ : ∃ k, k = (flFk524Vec fl L s).2.2 := ⟨_, rfl⟩
    rw [← hk, ← hk'] at e4
    rw [← hk] at e5'
    rw [← hk, ← hk']
    have k1 : 0.9901 ≤ k := by norm_num at e5' ⊢; linarith
    have k2 : k ≤ 1.0099 := by norm_num at e5' ⊢; linarith
    have nk : Near 3.34e-15 k' k := ⟨by linarith, by norm_num, by norm_num, e4.trans (by norm_num at k1 ⊢; linarith)⟩
    have np := (Near.refl p0).div 3.35e-15 nk (by norm_num) (by norm_num)
    have P0 : 1 / 10 ^ 90 ≤ s.px / k := by rw [le_div_iff₀ nk.pos]; norm_num at hx ⊢; linarith
    have P1 : s.px / k ≤ 10 ^ 29 := by rw [div_le_iff₀ nk.pos]; norm_num at p1 k1 ⊢; linarith
    refine ⟨(np.fl R 3.5e-15 P0 P1 (by norm_num) (by norm_num)).err, ?_⟩
    have nv : Near 1.1116e-16 (fl 21.095) 21.095 := (Near.refl (by norm_num : (0 : ℝ) < 21.095)).fl R _ (by norm_num) (by norm_num) (by norm_num) (by norm_num)
    have h1 := ((Near.refl p0).mul 1.113e-16 nv (by norm_num) (by norm_num)).fl R 2.23e-16 (by norm_num at hx ⊢; linarith) (by norm_num at p1 ⊢; linarith) (by norm_num) (by norm_num)
    have D0 : 20.886 * s.px ≤ s.px * 21.095 * k := by nlinarith
    have D1 : s.px * 21.095 * k ≤ 22 * s.px := by nlinarith
    have h2 := (h1.mul 3.58e-15 nk (by norm_num) (by norm_num)).fl R 3.72e-15 (by norm_num at hx D0 ⊢; linarith) (by norm_num at p1 D1 ⊢; linarith) (by norm_num) (by norm_num)
    obtain ⟨u0, ub0⟩ := FkIn.prod R K0 hm (e1 0) (e3 0).1 (cb 0) (e3 0).2
    obtain ⟨u1, ub1⟩ := FkIn.prod R K0 hm (e1 1) (e3 1).1 (cb 1) (e3 1).2
    obtain ⟨u2, ub2⟩ := FkIn.prod R K0 hm (e1 2) (e3 2).1 (cb 2) (e3 2).2
    obtain ⟨u3, ub3⟩ := R.addB (9.2e-15 + 8.16e-15 * K) u0 u1 ub0 ub1 (by norm_num at hm ⊢; linarith) (by norm_num at hm ⊢; linarith)
    obtain ⟨u4, ub4⟩ := R.addB (1.42e-14 + 1.25e-14 * K) u3 u2 ub3 ub2 (by norm_num at hm ⊢; linarith) (by norm_num at hm ⊢; linarith)
    have aD : |s.px * 21.095 * k| = s.px * 21.095 * k := abs_of_pos h2.pos
    have q := R.quot u4 (by rw [aD]; exact h2.err) h2.e1 h2.pos.ne' (by
      rw [aD, div_le_iff₀ h2.pos]
      generalize |(fk524Vec s).1 0 * (fk524Vec s).2.1 0 + (fk524Vec s).1 1 * (fk524Vec s).2.1 1 + (fk524Vec s).1 2 * (fk524Vec s).2.1 2| = G at *
      norm_num at ub4 hm D0 hx ⊢
      linarith)
    rw [aD] at q
    generalize |(fk524Vec s).1 0 * (fk524Vec s).2.1 0 + (fk524Vec s).1 1 * (fk524Vec s).2.1 1 + (fk524Vec s).1 2 * (fk524Vec s).2.1 2| = G at *
    refine (mul_le_mul_of_nonneg_right q p0.le).trans ?_
    have G0 : 0 ≤ 1.42e-14 + 1.25e-14 * K + (3.72e-15 + 1.1104e-16) * G → 1.0012 * (1.42e-14 + 1.25e-14 * K + (3.72e-15 + 1.1104e-16) * G) / (s.px * 21.095 * k) * s.px ≤ 1.0012 * (1.42e-14 + 1.25e-14 * K + (3.72e-15 + 1.1104e-16) * G) / 20.886 := by
      intro g
      rw [div_mul_eq_mul_div, div_le_div_iff₀ h2.pos (by norm_num)]
      have := mul_le_mul_of_nonneg_left D0 (by positivity : 0 ≤ 1.0012 * (1.42e-14 + 1.25e-14 * K + (3.72e-15 + 1.1104e-16) * G))
      linarith
    by_cases g : 0 ≤ 1.42e-14 + 1.25e-14 * K + (3.72e-15 + 1.1104e-16) * G
    · have w := G0 g
      rw [add_mul]
      generalize 1.0012 * (1.42e-14 + 1.25e-14 * K + (3.72e-15 + 1.1104e-16) * G) / (s.px * 21.095 * k) * s.px = Q at *
      norm_num at w ub4 p1 ⊢
      linarith
    · have g' := not_le.1 g
      have w : 1.0012 * (1.42e-14 + 1.25e-14 * K + (3.72e-15 + 1.1104e-16) * G) / (s.px * 21.095 * k) * s.px ≤ 0 := mul_nonpos_of_nonpos_of_nonneg (div_nonpos_of_nonpos_of_nonneg (by linarith) h2.pos.le) p0.le
      rw [add_mul]
      generalize 1.0012 * (1.42e-14 + 1.25e-14 * K + (3.72e-15 + 1.1104e-16) * G) / (s.px * 21.095 * k) * s.px = Q at *
      norm_num at w p1 ⊢
      linarith
  · intro hx
    have b : ¬ (s.px > fl (1 / 10 ^ 30)) := by norm_num at t1 hx ⊢; linarith
    constructor
    · show (flFk524 fl L nz s).px = _
      unfold flFk524; dsimp only; rw [if_neg b]
    · show (flFk524 fl L nz s).rv = _
      unfold flFk524; dsimp only; rw [if_neg b]

/-- Barnard's star, with IEEE rounding. -/
example : let s : Star := { r := 4.70, d := 0.082, dr := -3.9e-6, dd := 5.0e-5, px := 0.547, rv := -110 }
    |(flFk524 ieee roundedLibm false s).px - (palFk524 s).px| ≤ 3.5e-15 * (palFk524 s).px :=
  ((C136_fk524_distance ieee_rounding roundedLibm_ok false _ rfl (by
    have : (100 : ℝ) * (648000 / π) ≤ 2.07e7 := by rw [mul_div_assoc', div_le_iff₀ pi_pos]; have := pi_gt_d4; norm_num at *; linarith
    norm_num [abs_of_pos, abs_of_neg] at *; linarith) (by norm_num [abs_le]) (by norm_num [abs_le])).1 (by norm_num)).1

end Pal.Props
