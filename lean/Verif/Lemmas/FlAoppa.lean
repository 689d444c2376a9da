import Verif.Model.FlAoppa
import Verif.Lemmas.FlAopTopo
import Verif.Lemmas.FlGmst
import Verif.Lemmas.FlRefr
import Verif.Props.Aoppa

/-! # Rounding errors of the parameters for observed places -/

namespace Pal
open Real Pal.Spec Pal.Props
variable {fl : ℝ → ℝ} {L : Libm} {pw : ℝ → ℝ → ℝ}

theorem ds2r_bd : |ds2r| ≤ 7.2723e-5 ∧ |7.272205216643039903848712e-5 - ds2r| ≤ 1e-24 := by
  have h1 := Real.pi_gt_d20
  have h2 := Real.pi_lt_d20
  unfold ds2r
  constructor
  · rw [abs_of_pos (by positivity)]; norm_num at *; linarith
  · rw [abs_le]; constructor <;> norm_num at * <;> linarith

theorem flDS2R_err (R : Rounding fl) : |flDS2R fl - ds2r| ≤ 8.1e-21 := by
  have h := R.cst 7.272205216643039903848712e-5 (M := 7.2723e-5) (by norm_num) (by norm_num) (by norm_num)
  have b := ds2r_bd.2
  unfold flDS2R
  rw [abs_le] at *
  constructor <;> norm_num at * <;> linarith

theorem flPal2PI_err (R : Rounding fl) : |flPal2PI fl - 2 * π| ≤ 2.5e-16 := by
  have hpi := D2_pi
  rw [flPal2PI_eq R, abs_sub_comm, abs_of_pos hpi.1]; exact hpi.2.le.trans (by norm_num)

theorem two_pi_bd : |2 * π| ≤ 6.284 := by rw [abs_of_pos two_pi_pos]; have := pi_lt_d4; norm_num at *; linarith

/-- Sidereal time as palAoppat computes it. -/
theorem flAopGmst_err (R : Rounding fl) (ut1 : ℝ) (h : |ut1 - 51544.5| ≤ 200000) :
    0 ≤ flAopGmst fl ut1 ∧ flAopGmst fl ut1 ≤ flD2PI fl ∧ ∃ k : ℤ, |flAopGmst fl ut1 - (gmst1982 ut1 + k * (2 * π))| ≤ 3.8e-12 := by
  have t1 := R.add_err2 (δ := 0) (B := 200000) 2.3e-11 (noerr (ut1 - 51544.5)) h (by norm_num) (by norm_num)
  have T1 : |(ut1 - 51544.5) / 36525| ≤ 5.476 := by
    rw [abs_div, abs_of_pos (by norm_num : (0 : ℝ) < 36525), div_le_iff₀ (by norm_num)]; exact h.trans (by norm_num)
  have t4 : |fl (ut1 - 51544.5) / 36525 - (ut1 - 51544.5) / 36525| ≤ 6.3e-16 := by
    rw [← sub_div, abs_div, abs_of_pos (by norm_num : (0 : ℝ) < 36525), div_le_iff₀ (by norm_num)]; exact t1.trans (by norm_num)
  have t5 := R.add_err2 (δ := 6.3e-16) (B := 5.476) 1.24e-15 t4 T1 (by norm_num) (by norm_num)
  obtain ⟨t, ht⟩ : ∃ t, t = fl (fl (ut1 - 51544.5) / 36525) := ⟨_, rfl⟩
  obtain ⟨T, hT⟩ : ∃ T, T = (ut1 - 51544.5) / 36525 := ⟨_, rfl⟩
  rw [← ht, ← hT] at t5
  rw [← hT] at T1
  have c3 := R.cst 6.2e-6 (M := 6.2e-6) (by norm_num) (by norm_num) (by norm_num)
  have c2 := R.cst 0.093104 (M := 0.0932) (by norm_num) (by norm_num) (by norm_num)
  have c1 := R.cst 8640184.812866 (M := 8640185) (by norm_num) (by norm_num) (by norm_num)
  have c0 := R.cst 24110.54841 (M := 24111) (by norm_num) (by norm_num) (by norm_num)
  have k3 : |(6.2e-6 : ℝ)| ≤ 6.2e-6 := by norm_num
  have k2 : |(0.093104 : ℝ)| ≤ 0.0932 := by norm_num
  have k1 : |(8640184.812866 : ℝ)| ≤ 8640185 := by norm_num
  have k0 : |(24110.54841 : ℝ)| ≤ 24111 := by norm_num
  have m3 := R.mulB 2e-20 c3 t5 k3 T1 (by norm_num) (by norm_num)
  obtain ⟨s2, b2⟩ := R.subB 2.1e-17 c2 m3 k2 (mul_bd k3 T1) (by norm_num) (by norm_num)
  have m2 := R.mulB 3e-16 s2 t5 b2 T1 (by norm_num) (by norm_num)
  obtain ⟨s1, b1⟩ := R.addB 1.93e-9 c1 m2 k1 (mul_bd b2 T1) (by norm_num) (by norm_num)
  have m1 := R.mulB 2.7e-8 s1 t5 b1 T1 (by norm_num) (by norm_num)
  obtain ⟨s0, b0⟩ := R.addB 3.3e-8 c0 m1 k0 (mul_bd b1 T1) (by norm_num) (by norm_num)
  have q := R.mulB 3.2e-12 s0 (flDS2R_err R) b0 ds2r_bd.1 (by norm_num) (by norm_num)
  have qb := mul_bd b0 ds2r_bd.1
  have g := fmod_one_lt ut1
  have w := R.mulB 1e-15 (noerr (fmod ut1 1)) (flPal2PI_err R) g.le two_pi_bd (by norm_num) (by norm_num)
  have wb := mul_bd g.le two_pi_bd
  obtain ⟨r1, r2⟩ := R.addB 3.6e-12 w q wb qb (by norm_num) (by norm_num)
  have sz : |fl (fmod ut1 1 * flPal2PI fl) + fl (fl (fl 24110.54841 + fl (fl (fl 8640184.812866 + fl (fl (fl 0.093104 - fl (fl 6.2e-6 * t)) * t)) * t)) * flDS2R fl)| ≤ 10 ^ 20 := by
    have u1 := abs_sub_abs_le_abs_sub (fl (fmod ut1 1 * flPal2PI fl)) (fmod ut1 1 * (2 * π))
    have u2 := abs_sub_abs_le_abs_sub (fl (fl (fl 24110.54841 + fl (fl (fl 8640184.812866 + fl (fl (fl 0.093104 - fl (fl 6.2e-6 * t)) * t)) * t)) * flDS2R fl)) ((24110.54841 + (8640184.812866 + (0.093104 - 6.2e-6 * T) * T) * T) * ds2r)
    refine (abs_add_le _ _).trans ?_
    linarith
  have e : flAopGmst fl ut1 = flAnp fl (fl (fl (fmod ut1 1 * flPal2PI fl) + fl (fl (fl 24110.54841 + fl (fl (fl 8640184.812866 + fl (fl (fl 0.093104 - fl (fl 6.2e-6 * t)) * t)) * t)) * flDS2R fl))) := by
    rw [ht]; rfl
  rw [e]
  rcases flAnp_near R r1 r2 (by norm_num) with ⟨v1, v2, v3⟩ | v
  · obtain ⟨l, hl⟩ := v3 sz
    refine ⟨v1, v2, ?_⟩
    obtain ⟨-, -, -, hf⟩ := fmod_spec ut1 one_pos
    refine ⟨l - truncR (ut1 / 1), ?_⟩
    have ex : gmst1982 ut1 + ((l - truncR (ut1 / 1) : ℤ) : ℝ) * (2 * π) = fmod ut1 1 * (2 * π) + (24110.54841 + (8640184.812866 + (0.093104 - 6.2e-6 * T) * T) * T) * ds2r + l * (2 * π) := by
      rw [hf, hT]; unfold gmst1982 ds2r; push_cast; ring
    rw [ex]
    refine hl.trans (by norm_num)
  · exact absurd sz v

/-- The polar motion correction as computed. -/
theorem flAopSiteVec_err (R : Rounding fl) (hL : LibmOK L) (elongm phim : ℝ) {xp yp : ℝ} (hx : |xp| ≤ 1e-3) (hy : |yp| ≤ 1e-3) (i : Fin 3) :
    |flAopSiteVec fl L elongm phim xp yp i - displacedSite elongm phim xp yp i| ≤ 7.1e-16 := by
  have s := hL.sin phim
  have c := hL.cos phim
  have se := hL.sin elongm
  have ce := hL.cos elongm
  have s1 := abs_sin_le_one phim
  have c1 := abs_cos_le_one phim
  have se1 := abs_sin_le_one elongm
  have ce1 := abs_cos_le_one elongm
  have x := R.mulB 5.8e-16 ce c ce1 c1 (by norm_num) (by norm_num)
  have y := R.mulB 5.8e-16 se c se1 c1 (by norm_num) (by norm_num)
  have xb := mul_bd ce1 c1
  have yb := mul_bd se1 c1
  have xz := R.mulB 4e-19 (noerr xp) s hx s1 (by norm_num) (by norm_num)
  have yz := R.mulB 4e-19 (noerr yp) s hy s1 (by norm_num) (by norm_num)
  have xx := R.mulB 8e-19 (noerr xp) x hx xb (by norm_num) (by norm_num)
  have yy := R.mulB 8e-19 (noerr yp) y hy yb (by norm_num) (by norm_num)
  obtain ⟨d, db⟩ := R.subB 2e-18 xx yy (mul_bd hx xb) (mul_bd hy yb) (by norm_num) (by norm_num)
  fin_cases i
  · have := (R.subB 7.1e-16 x xz xb (mul_bd hx s1) (by norm_num) (by norm_num)).1
    simpa [flAopSiteVec, displacedSite, dir, mul_comm (cos elongm)] using this
  · have := (R.addB 7.1e-16 y yz yb (mul_bd hy s1) (by norm_num) (by norm_num)).1
    simpa [flAopSiteVec, displacedSite, dir, mul_comm (sin elongm)] using this
  · have := (R.addB 7.1e-16 d s db s1 (by norm_num) (by norm_num)).1
    refine le_trans (le_of_eq ?_) this
    simp only [flAopSiteVec, displacedSite, dir, Fin.reduceFinMk, Matrix.cons_val]
    congr 1
    simp
    ring

/-- Longitude and latitude of the site as computed. -/
theorem flAopSite_err (R : Rounding fl) (hL : LibmOK L) (nz : Bool) (elongm phim : ℝ) {xp yp : ℝ} (hx : |xp| ≤ 1e-3) (hy : |yp| ≤ 1e-3) :
    let s := flAopSite fl L nz elongm phim xp yp
    |s.1| ≤ π + 4.5e-16 ∧ |s.2| ≤ π / 2 + 4.5e-16 ∧ len (fun i => dir s.1 s.2 i - unit (displacedSite elongm phim xp yp) i) ≤ 4.6e-15 := by
  intro s
  obtain ⟨V, hV⟩ : ∃ V, V = displacedSite elongm phim xp yp := ⟨_, rfl⟩
  obtain ⟨v, hv⟩ : ∃ v, v = flAopSiteVec fl L elongm phim xp yp := ⟨_, rfl⟩
  have he : ∀ i, |v i - V i| ≤ 7.1e-16 := fun i => by rw [hv, hV]; exact flAopSiteVec_err R hL elongm phim hx hy i
  have l1 : 1 ≤ len V := by rw [hV]; exact displaced_len _ _ _ _
  have l2 : len V ≤ 1.01 := by
    have e : V = fun i => dir elongm phim i + (![-(xp * dir elongm phim 2), yp * dir elongm phim 2, xp * dir elongm phim 0 - yp * dir elongm phim 1] : Vec3) i := by
      rw [hV]; funext i; fin_cases i <;> simp [displacedSite] <;> ring
    have t := len_add_le (dir elongm phim) (![-(xp * dir elongm phim 2), yp * dir elongm phim 2, xp * dir elongm phim 0 - yp * dir elongm phim 1] : Vec3)
    rw [← e, len_dir] at t
    have cb : ∀ j, |dir elongm phim j| ≤ 1 := fun j => (comp_le_len _ j).trans (len_dir _ _).le
    have w := len_le_of_comp (a := (![-(xp * dir elongm phim 2), yp * dir elongm phim 2, xp * dir elongm phim 0 - yp * dir elongm phim 1] : Vec3)) (e := 2e-3) (fun i => by
      fin_cases i
      · show |-(xp * dir elongm phim 2)| ≤ _
        rw [abs_neg]; exact (mul_bd hx (cb 2)).trans (by norm_num)
      · exact (mul_bd hy (cb 2)).trans (by norm_num)
      · refine (abs_sub _ _).trans ((add_le_add (mul_bd hx (cb 0)) (mul_bd hy (cb 1))).trans (by norm_num)))
    norm_num at t w ⊢; linarith
  have hu : (fun i => len V * unit V i) = V := by
    funext i; unfold unit; rw [mul_div_cancel₀]; linarith
  have e1 : s.1 = if v 0 = 0 ∧ v 1 = 0 then 0 else flAtan2 L nz (v 1) (v 0) := by rw [hv]; rfl
  have e2 : s.2 = L.atan2 (v 2) (fl (√(fl (fl (v 0 * v 0) + fl (v 1 * v 1))))) := by rw [hv]; rfl
  obtain ⟨T, P, t1, t2, t3, t4, t5⟩ := core_dir R hL nz he (by norm_num) (le_trans (by norm_num) l1) l2 hu s.1 s.2 (by
    by_cases h0 : v 0 = 0 ∧ v 1 = 0
    · left; rw [e1, if_pos h0, h0.1, h0.2]; simp [R.zero]
    · right; rw [e1, if_neg h0]; exact ⟨by by_contra hc; push Not at hc; exact h0 hc, rfl⟩) (fun _ => by rw [e2]; exact hL.atan2 _ _)
  refine ⟨close_range t1 t3, close_range t2 t4, ?_⟩
  have c := chord s.1 s.2 T P
  have := len_tri (dir s.1 s.2) (dir T P) (unit V)
  rw [← hV]
  norm_num at *
  linarith

set_option maxHeartbeats 1000000 in
/-- Distance from the Earth's axis as computed. -/
theorem flAopGeoc_err (R : Rounding fl) (hL : LibmOK L) (hp : PowOK pw) (phi : ℝ) {h : ℝ} (hh : |h| ≤ 1e7) :
    |flAopGeoc fl L pw phi h - (aopGeoc phi h).1| ≤ 2.2e-19 ∧ |(aopGeoc phi h).1| ≤ 1.1e-4 := by
  obtain ⟨b, hb⟩ : ∃ b, b = pw (fl (1 - fl (1 / fl 298.257))) 2 := ⟨_, rfl⟩
  obtain ⟨W, hW'⟩ : ∃ W : ℝ, W = (1 - 1 / 298.257) ^ 2 := ⟨_, rfl⟩
  obtain ⟨d, hd⟩ : ∃ d, d = fl (fl (L.cos phi * L.cos phi) + fl (fl (b * L.sin phi) * L.sin phi)) := ⟨_, rfl⟩
  obtain ⟨D, hD⟩ : ∃ D, D = cos phi * cos phi + W * sin phi * sin phi := ⟨_, rfl⟩
  have x0 : (aopGeoc phi h).1 = (6378140 * (1 / √D) + h) * cos phi / 149597870000 := by
    rw [hD, hW']; unfold aopGeoc; norm_num
  have x1 : flAopGeoc fl L pw phi h = fl (fl (fl (fl (6378140 * fl (1 / fl (√d))) + h) * L.cos phi) / 149597870000) := by rw [hd, hb]; rfl
  rw [x0, x1]
  have c0 := R.cst 298.257 (M := 298.3) (by norm_num) (by norm_num) (by norm_num)
  have nf0 : Near 1.2e-16 (fl 298.257) 298.257 := ⟨by norm_num, by norm_num, by norm_num, c0.trans (by norm_num)⟩
  have f1 := R.divN 1e-18 (noerr 1) nf0 (by norm_num : (0 : ℝ) < 298) (by norm_num) (by norm_num : |(1 / 298.257 : ℝ)| ≤ 0.00336) (by norm_num) (by norm_num)
  have g := R.add_err2 (x := 1 - fl (1 / fl 298.257)) (X := 1 - 1 / 298.257) (δ := 1e-18) (B := 0.99665) 1.12e-16 (by
    rw [show 1 - fl (1 / fl 298.257) - (1 - 1 / 298.257) = -(fl (1 / fl 298.257) - 1 / 298.257) by ring, abs_neg]; exact f1) (by norm_num) (by norm_num) (by norm_num)
  have hw : |b - W| ≤ 4.6e-16 := by
    have m := mul_err 2.3e-16 g g (by norm_num : |(1 - 1 / 298.257 : ℝ)| ≤ 0.99665) (by norm_num : |(1 - 1 / 298.257 : ℝ)| ≤ 0.99665) (by norm_num)
    have q := hp (fl (1 - fl (1 / fl 298.257))) 2 (by have := (abs_le.1 g).1; norm_num at *; linarith)
    rw [← hb, show (2 : ℝ) = ((2 : ℕ) : ℝ) by norm_num, rpow_natCast, pow_two] at q
    generalize fl (1 - fl (1 / fl 298.257)) * fl (1 - fl (1 / fl 298.257)) = z at *
    have hW2 : W = (1 - 1 / 298.257) * (1 - 1 / 298.257) := by rw [hW', pow_two]
    rw [← hW2] at m
    have W9 : W ≤ 0.9935 := by rw [hW2]; norm_num
    have mm := abs_le.1 m
    rw [show b - W = (b - z) + (z - W) by ring]
    refine (abs_add_le _ _).trans ?_
    norm_num at *; linarith
  have hW : |W| ≤ 0.9934 := by rw [hW']; norm_num
  have W0 : 0.9933 ≤ W := by rw [hW']; norm_num
  clear hb hW' x0 x1
  have hs := hL.sin phi
  have hc := hL.cos phi
  have s1 := abs_sin_le_one phi
  have k1 := abs_cos_le_one phi
  have sc := sin_sq_add_cos_sq phi
  have D0 : 0.9933 ≤ D := by
    rw [hD]
    have := mul_le_mul_of_nonneg_right W0 (sq_nonneg (sin phi))
    have := sq_nonneg (cos phi)
    clear s1 k1 hs hc
    generalize sin phi = s at *
    generalize cos phi = c at *
    norm_num at *; linarith
  have D1 : D ≤ 1 := by
    rw [hD]
    have := mul_le_mul_of_nonneg_right (abs_le.1 hW).2 (sq_nonneg (sin phi))
    have := sq_nonneg (sin phi)
    clear s1 k1 hs hc
    generalize sin phi = s at *
    generalize cos phi = c at *
    norm_num at *; linarith
  have a1 := R.mulB 5.8e-16 hc hc k1 k1 (by norm_num) (by norm_num)
  have a2 := R.mulB 8.1e-16 hw hs hW s1 (by norm_num) (by norm_num)
  have a3 := R.mulB 1.17e-15 a2 hs (mul_bd hW s1) s1 (by norm_num) (by norm_num)
  have a4 : |d - D| ≤ 1.89e-15 := by
    rw [hd]
    refine R.add_err2 (δ := 1.75e-15) (B := 1) 1.89e-15 ?_ (by rw [abs_of_nonneg (by norm_num at *; linarith)]; exact D1) (by norm_num) (by norm_num)
    rw [hD, show fl (L.cos phi * L.cos phi) + fl (fl (b * L.sin phi) * L.sin phi) - (cos phi * cos phi + W * sin phi * sin phi) =
      (fl (L.cos phi * L.cos phi) - cos phi * cos phi) + (fl (fl (b * L.sin phi) * L.sin phi) - W * sin phi * sin phi) by ring]
    exact (abs_add_le _ _).trans (by norm_num at *; linarith)
  have nd : Near 1.91e-15 d D := ⟨by norm_num at *; linarith, by norm_num, by norm_num, by norm_num at *; linarith⟩
  have rt : |√d - √D| ≤ 0.97e-15 := by
    have e : √d - √D = (d - D) / (√d + √D) := by
      have h1 := Real.mul_self_sqrt nd.pos.le
      have h2 := Real.mul_self_sqrt nd.xpos.le
      have h3 := Real.sqrt_pos.2 nd.pos
      have h4 := Real.sqrt_nonneg d
      rw [eq_div_iff (by linarith)]; nlinarith
    have l1 : 0.99 ≤ √D := Real.le_sqrt_of_sq_le (by norm_num at *; linarith)
    have l2 : 0.99 ≤ √d := Real.le_sqrt_of_sq_le (by have := (abs_le.1 a4).1; norm_num at *; linarith)
    rw [e, abs_div, abs_of_pos (by linarith : 0 < √d + √D), div_le_iff₀ (by linarith)]
    norm_num at *; linarith
  have r1 : √D ≤ 1 := Real.sqrt_le_one.2 D1
  have r0 : 0.99662 ≤ √D := Real.le_sqrt_of_sq_le (by norm_num at *; linarith)
  have rr := R.add_err2 (B := 1) 1.09e-15 rt (by rw [abs_of_nonneg (Real.sqrt_nonneg _)]; exact r1) (by norm_num) (by norm_num)
  have nr : Near 1.1e-15 (fl (√d)) (√D) := ⟨by norm_num at *; linarith, by norm_num, by norm_num, by norm_num at *; linarith⟩
  have Q : |1 / √D| ≤ 1.0034 := by rw [abs_div, abs_of_pos nr.pos, div_le_iff₀ nr.pos]; norm_num at *; linarith
  have q := R.divN 1.3e-15 (noerr 1) nr (by norm_num : (0 : ℝ) < 0.99662) r0 Q (by norm_num) (by norm_num)
  have A0 : |(6378140 : ℝ)| ≤ 6378140 := by norm_num
  have u1 := R.mulB 9.1e-9 (noerr 6378140) q A0 Q (by norm_num) (by norm_num)
  obtain ⟨u2, u3⟩ := R.addB 1.1e-8 u1 (noerr h) (mul_bd A0 Q) hh (by norm_num) (by norm_num)
  have u4 := R.mulB 1.7e-8 u2 hc u3 k1 (by norm_num) (by norm_num)
  have u5 := mul_bd u3 k1
  have n2 : Near 0 (149597870000 : ℝ) 149597870000 := Near.refl (by norm_num)
  have Q2 : |(6378140 * (1 / √D) + h) * cos phi / 149597870000| ≤ 1.1e-4 := by
    rw [abs_div, abs_of_pos (by norm_num : (0 : ℝ) < 149597870000), div_le_iff₀ (by norm_num)]; exact u5.trans (by norm_num)
  exact ⟨R.divN 2.2e-19 u4 n2 (by norm_num : (0 : ℝ) < 149597870000) le_rfl Q2 (by norm_num) (by norm_num), Q2⟩
end Pal
