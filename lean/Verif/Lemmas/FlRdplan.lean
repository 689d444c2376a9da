import Verif.Model.FlRdplan
import Verif.Lemmas.FlMappa
import Verif.Lemmas.FlGmst
import Verif.Props.FlGmst
import Verif.Props.FlObs
import Verif.Props.FlMoon
import Verif.Props.FlNut
import Verif.Props.Rdplan
import Verif.Props.MoonSpeed
import Verif.Lemmas.FlSmall
import Verif.Lemmas.FlRr

/-!
# Lemmas: palRdplan in double precision
-/

namespace Pal.Props
open Real Pal Pal.Spec Pal.Orbit Matrix

variable {fl : ℝ → ℝ} {L : Libm}

/-- Rounding every component of a vector. -/
theorem fl_vround (R : Rounding fl) {x : Vec3} (h : len x ≤ 10 ^ 20) : len (fun i => fl (x i) - x i) ≤ 1.924e-16 * len x + 1e-180 := by
  have c : ∀ i, |fl (x i) - x i| ≤ 1.1103e-16 * len x + 1 / 10 ^ 200 := fun i => by
    have := comp_le_len x i
    refine (R.err (this.trans (h.trans (by norm_num)))).trans ?_
    linarith
  refine (len_le_of_comp c).trans ?_
  have z : (1 : ℝ) / 10 ^ 200 ≤ 1e-190 := by norm_num
  have := len_nonneg x
  generalize (1 : ℝ) / 10 ^ 200 = t at *
  linarith

/-- Rounded differences of two vectors. -/
theorem fl_vsub (R : Rounding fl) {x X y Y : Vec3} {a b A C : ℝ} (hx : len (fun i => x i - X i) ≤ a) (hy : len (fun i => y i - Y i) ≤ b) (hX : len X ≤ A) (hY : len Y ≤ C) (h : A + C + a + b ≤ 10 ^ 20) :
    len (fun i => fl (x i - y i) - (X i - Y i)) ≤ a + b + 1.924e-16 * (A + C + a + b) + 1e-180 ∧ len (fun i => X i - Y i) ≤ A + C := by
  have e1 : len (fun i => x i - y i - (X i - Y i)) ≤ a + b := by
    have := len_sub_le (fun i => x i - X i) (fun i => y i - Y i)
    rw [show (fun i => x i - X i - (y i - Y i)) = fun i => x i - y i - (X i - Y i) by funext i; ring] at this
    linarith
  have e2 : len (fun i => X i - Y i) ≤ A + C := (len_sub_le X Y).trans (by linarith)
  have e3 : len (fun i => x i - y i) ≤ A + C + a + b := by
    have := abs_le.1 (len_rev_tri (fun i => x i - y i) (fun i => X i - Y i))
    linarith
  have e4 := fl_vround R (e3.trans h)
  have e5 := len_tri (fun i => fl (x i - y i)) (fun i => x i - y i) (fun i => X i - Y i)
  refine ⟨?_, e2⟩
  linarith

/-- Angles of a vector that is nearly W. -/
theorem flC2s_at (R : Rounding fl) (hL : LibmOK L) (nz : Bool) {w W u : Vec3} {e : ℝ} (hw : len (fun i => w i - W i) ≤ e) (h1 : 1e-6 ≤ len W) (h2 : len W ≤ 10 ^ 10) (he : e ≤ len W / 1000) (hu : (fun i => len W * u i) = W) :
    0 ≤ flAnp fl (flC2s fl L nz w).1 ∧ flAnp fl (flC2s fl L nz w).1 ≤ flD2PI fl ∧ |(flC2s fl L nz w).2| ≤ π / 2 + 4.5e-16 ∧
      len (fun i => dir (flAnp fl (flC2s fl L nz w).1) (flC2s fl L nz w).2 i - u i) ≤ 2 * (e / len W) + 3e-15 := by
  have e0 := (len_nonneg _).trans hw
  have hr := abs_le.1 ((len_rev_tri w W).trans hw)
  have n1 : 1e-7 ≤ len w := by norm_num at *; linarith
  have n2 : len w ≤ 1.001 * len W := by norm_num at *; linarith
  obtain ⟨T, P, t1, t2, t3, t4, t5⟩ := flC2s_spec R hL nz w (le_trans (by norm_num) n1) (n2.trans (by norm_num at *; linarith))
  have p1 := pi_lt_d4
  have hT : |(flC2s fl L nz w).1| ≤ 3.15 := (close_range t1 t3).trans (by norm_num at *; linarith)
  obtain ⟨a1, a2, k, a3⟩ := flAnp_small R _ hT
  refine ⟨a1, a2, close_range t2 t4, ?_⟩
  generalize flAnp fl (flC2s fl L nz w).1 = θ' at *
  generalize (flC2s fl L nz w).1 = θ at *
  generalize (flC2s fl L nz w).2 = φ at *
  have c1 : len (fun i => dir θ' φ i - dir T P i) ≤ 9.6e-16 + 4.5e-16 + 4.5e-16 := by
    have := chord θ' φ (T + k * (2 * π)) P
    rw [dir_add_turn] at this
    have g1 := abs_sub_le θ' (θ + k * (2 * π)) (T + k * (2 * π))
    rw [show θ + k * (2 * π) - (T + k * (2 * π)) = θ - T by ring] at g1
    linarith
  have W0 : 0 < len W := by norm_num at *; linarith
  have c2 : len W * len (fun i => dir T P i - u i) ≤ 1.05e-15 * (1.001 * len W) + 2 * e := by
    have ee : (fun i => len W * (dir T P i - u i)) = fun i => (len W * dir T P i - W i) := by
      funext i; have := congrFun hu i; rw [mul_sub, this]
    have e9 : len W * len (fun i => dir T P i - u i) = len (fun i => len W * dir T P i - W i) := by
      rw [← ee, len_smul (len W) (fun i => dir T P i - u i), abs_of_nonneg (len_nonneg W)]
    rw [e9]
    have q1 := len_tri (fun i => len W * dir T P i) (fun i => len w * dir T P i) W
    have q2 := len_tri (fun i => len w * dir T P i) w W
    have q3 : len (fun i => len W * dir T P i - len w * dir T P i) = |len W - len w| := by
      have : (fun i => len W * dir T P i - len w * dir T P i) = fun i => (len W - len w) * dir T P i := by funext i; ring
      rw [this, len_smul, len_one (dot_dir _ _), mul_one]
    have q4 : |len W - len w| ≤ e := by rw [abs_sub_comm]; exact abs_le.2 hr
    have q5 : (1.05e-15 : ℝ) * len w ≤ 1.05e-15 * (1.001 * len W) := mul_le_mul_of_nonneg_left n2 (by norm_num)
    linarith
  have c3 : len (fun i => dir T P i - u i) ≤ 2 * (e / len W) + 1.06e-15 := by
    have : len (fun i => dir T P i - u i) ≤ (1.05e-15 * (1.001 * len W) + 2 * e) / len W := by rw [le_div_iff₀ W0, mul_comm]; exact c2
    rw [add_div, ← mul_assoc, mul_div_cancel_right₀ _ W0.ne', mul_div_assoc] at this
    norm_num at *
    linarith
  have := len_tri (dir θ' φ) (dir T P) u
  norm_num at *
  linarith

theorem sin_gap {x y : ℝ} (hx : |x| ≤ 0.1) (hy : |y| ≤ 0.1) : |x - y| ≤ 1.6 * |sin x - sin y| := by
  rw [sin_sub_sin, abs_mul, abs_mul, abs_of_pos (by norm_num : (0 : ℝ) < 2)]
  have p1 := pi_lt_d4
  have p2 := pi_gt_d4
  obtain ⟨a1, a2⟩ := abs_le.1 hx
  obtain ⟨b1, b2⟩ := abs_le.1 hy
  have h1 : 2 / π * |(x - y) / 2| ≤ |sin ((x - y) / 2)| := mul_abs_le_abs_sin (by rw [abs_le]; constructor <;> norm_num at * <;> linarith)
  have h2 : 1 - ((x + y) / 2) ^ 2 / 2 ≤ cos ((x + y) / 2) := one_sub_sq_div_two_le_cos
  have h3 : ((x + y) / 2) ^ 2 ≤ 0.01 := by
    have : |(x + y) / 2| ≤ 0.1 := by rw [abs_le]; constructor <;> norm_num at * <;> linarith
    have := pow_le_pow_left₀ (abs_nonneg _) this 2
    rw [sq_abs] at this
    norm_num at *; linarith
  have h4 : 0.995 ≤ |cos ((x + y) / 2)| := le_trans (by norm_num at *; linarith) (le_abs_self _)
  have h5 : 0.6366 ≤ 2 / π := by rw [le_div_iff₀ pi_pos]; norm_num at *; linarith
  have h6 : |(x - y) / 2| = |x - y| / 2 := by rw [abs_div, abs_of_pos (by norm_num : (0 : ℝ) < 2)]
  rw [h6] at h1
  have n := abs_nonneg (x - y)
  have h7 : 0.6366 * (|x - y| / 2) ≤ |sin ((x - y) / 2)| := (mul_le_mul_of_nonneg_right h5 (by linarith)).trans h1
  have h8 : 0.6366 * (|x - y| / 2) * 0.995 ≤ |sin ((x - y) / 2)| * |cos ((x + y) / 2)| := mul_le_mul h7 h4 (by norm_num) (abs_nonneg _)
  linarith

/-- The distance in double precision. -/
theorem rdplan_dist (R : Rounding fl) {p P : Vec3} {e : ℝ} (hp : len (fun i => p i - P i) ≤ e) (h1 : 1e-3 ≤ len P) (h2 : len P ≤ 200) (he : e ≤ len P / 100000) : |flPm fl p - len P| ≤ e + 5.3e-16 * len P := by
  have hr := abs_le.1 ((len_rev_tri p P).trans hp)
  have n2 : len p ≤ 1.00001 * len P := by norm_num at *; linarith
  obtain ⟨-, m⟩ := flPm_err R p (n2.trans (by norm_num at *; linarith))
  have z : (1 : ℝ) / 10 ^ 96 ≤ 1e-30 := by norm_num
  have t := abs_sub_le (flPm fl p) (len p) (len P)
  have hr' : |len p - len P| ≤ e := abs_le.2 hr
  generalize (1 : ℝ) / 10 ^ 96 = z at *
  norm_num at *
  linarith

set_option maxHeartbeats 1000000 in
/-- From the topocentric state to the place. -/
theorem rdplan_place (R : Rounding fl) (hL : LibmOK L) (nz : Bool) {p v P V : Vec3} {e ra dec : ℝ}
    (hp : len (fun i => p i - P i) ≤ e) (hv : len (fun i => v i - V i) ≤ 2e-17) (h1 : 1e-3 ≤ len P) (h2 : len P ≤ 200) (hV : len V ≤ 5e-6) (he : e ≤ len P / 100000) (hP : IsPlace P V ra dec (len P)) :
    let c := flC2s fl L nz (fun i => fl (p i - fl (fl (fl 499.004782 * flPm fl p) * v i)))
    0 ≤ flAnp fl c.1 ∧ flAnp fl c.1 ≤ flD2PI fl ∧ |c.2| ≤ π / 2 + 4.5e-16 ∧ len (fun i => dir (flAnp fl c.1) c.2 i - dir ra dec i) ≤ 2.02 * (e / len P) + 6e-14 := by
  dsimp only
  have e0 := (len_nonneg _).trans hp
  have hr := rdplan_dist R hp h1 h2 he
  generalize flPm fl p = r at *
  have hk := R.cst 499.004782 (M := 500) (by norm_num) (by norm_num) (by norm_num)
  obtain ⟨D, hD⟩ : ∃ D, D = len P := ⟨_, rfl⟩
  rw [← hD] at hr h1 h2 he
  have D0 : 0 < D := by norm_num at *; linarith
  have ht := R.mulB (500.1 * e + 4e-13 * D) hk hr (by norm_num : |(499.004782 : ℝ)| ≤ 500) (abs_of_pos D0).le (by norm_num at *; linarith) (by norm_num at *; linarith)
  have hkD : |499.004782 * D| ≤ 499.1 * D := by rw [abs_of_pos (by positivity)]; norm_num at *; linarith
  have hx : ∀ i, |fl (fl (fl 499.004782 * r) * v i) - 499.004782 * D * V i| ≤ 2.6e-3 * e + 1.3e-14 * D := fun i =>
    R.mulB _ ht ((comp_le_len (fun i => v i - V i) i).trans hv) hkD ((comp_le_len V i).trans hV) (by norm_num at *; linarith) (by norm_num at *; linarith)
  have hY : len (fun i => 499.004782 * D * V i) ≤ 0.0025 * D := by
    rw [len_smul]
    calc |499.004782 * D| * len V ≤ 499.1 * D * 5e-6 := mul_le_mul hkD hV (len_nonneg V) (by positivity)
      _ ≤ _ := by norm_num at *; linarith
  obtain ⟨hw, -⟩ := fl_vsub R hp (len_le_of_comp hx) hD.ge hY (by norm_num at *; linarith)
  have hW1 : 0.9975 * D ≤ len (fun i => P i - 499.004782 * D * V i) := by
    have := abs_le.1 (len_rev_tri (fun i => P i - 499.004782 * D * V i) P)
    have t : (fun i => P i - 499.004782 * D * V i - P i) = fun i => (-1) * (499.004782 * D * V i) := by funext i; ring
    rw [t, len_smul (-1) (fun i => 499.004782 * D * V i)] at this
    norm_num at *
    linarith
  have hW2 : len (fun i => P i - 499.004782 * D * V i) ≤ 1.0025 * D := (len_sub_le P _).trans (by norm_num at *; linarith)
  obtain ⟨-, hu, -, -⟩ := hP
  rw [← hD] at hu
  have hu' : (fun i => len (fun i => P i - 499.004782 * D * V i) * dir ra dec i) = fun i => P i - 499.004782 * D * V i := by
    have e : (P - (499.004782 * D) • V) = fun i => P i - 499.004782 * D * V i := by funext i; simp
    rw [e] at hu
    funext i
    have := congrFun hu i
    simp only [Pi.smul_apply, smul_eq_mul] at this
    exact this.symm
  have hw' : len (fun i => fl (p i - fl (fl (fl 499.004782 * r) * v i)) - (P i - 499.004782 * D * V i)) ≤ 1.0046 * e + 2.4e-14 * D := hw.trans (by norm_num at *; linarith)
  obtain ⟨a, b, c', d⟩ := flC2s_at R hL nz hw' (by norm_num at *; linarith) (by norm_num at *; linarith) (by norm_num at *; linarith) hu'
  refine ⟨a, b, c', d.trans ?_⟩
  rw [← hD]
  have q : (1.0046 * e + 2.4e-14 * D) / len (fun i => P i - 499.004782 * D * V i) ≤ (1.0046 * e + 2.4e-14 * D) / (0.9975 * D) := div_le_div_of_nonneg_left (by positivity) (by positivity) hW1
  have q2 : (1.0046 * e + 2.4e-14 * D) / (0.9975 * D) = 1.0046 / 0.9975 * (e / D) + 2.4e-14 / 0.9975 := by field_simp
  have q3 : 0 ≤ e / D := by positivity
  rw [q2] at q
  norm_num at *
  linarith

set_option maxHeartbeats 1000000 in
/-- The diameter. -/
theorem rdplan_diam (R : Rounding fl) {asn : ℝ → ℝ} (hA : ∀ x, |x| ≤ 1 → |asn x - arcsin x| ≤ 2.3e-16) {r D e diam radius : ℝ} (hr : |r - D| ≤ e + 5.3e-16 * D) (e0 : 0 ≤ e) (h1 : 1e-3 ≤ D) (h2 : D ≤ 200) (he : e ≤ D / 100000)
    (d0 : 0 < diam) (d1 : diam ≤ π) (ds : sin (diam / 2) * (D * 149597870) = radius) (h3 : 1 ≤ radius) (h4 : radius ≤ 0.02 * (D * 149597870)) : |fl (2 * asn (fl (fl radius / fl (r * 149597870)))) - diam| ≤ 0.07 * (e / D) + 2e-15 := by
  have D0 : 0 < D := by norm_num at *; linarith
  have hr' := abs_le.1 hr
  have b1 : |D * 149597870| ≤ D * 149597870 := (abs_of_pos (by positivity)).le
  have hm := R.mulB (149600000 * e + 1e-7 * D) hr (noerr 149597870) (abs_of_pos D0).le (by norm_num : |(149597870 : ℝ)| ≤ 149597870) (by norm_num at *; linarith) (by norm_num at *; linarith)
  have hm' : Near (1.0001 * (e / D) + 7e-16) (fl (r * 149597870)) (D * 149597870) := by
    have ed : e / D ≤ 1 / 100000 := by rw [div_le_iff₀ D0]; linarith
    refine ⟨by positivity, by positivity, by norm_num at *; linarith, hm.trans ?_⟩
    have : (1.0001 * (e / D) + 7e-16) * (D * 149597870) = 1.0001 * 149597870 * e + 7e-16 * 149597870 * D := by field_simp
    rw [this]
    norm_num at *
    linarith
  have hB : radius ≤ 10 ^ 9 := by norm_num at *; linarith
  have hc := R.cst radius (M := radius) (abs_of_pos (by linarith)).le (by norm_num at *; linarith) (hB.trans (by norm_num))
  have Q0 : radius / (D * 149597870) = sin (diam / 2) := by rw [← ds]; field_simp
  have Q1 : |radius / (D * 149597870)| ≤ 0.02 := by
    rw [abs_of_nonneg (by positivity), div_le_iff₀ (by positivity)]; exact h4
  have ed0 : 0 ≤ e / D := by positivity
  have ed : e / D ≤ 1 / 100000 := by rw [div_le_iff₀ D0]; linarith
  have rr : 1.1104e-16 * radius / (D * 149597870) ≤ 2.3e-18 := by
    rw [div_le_iff₀ (by positivity)]; norm_num at *; linarith
  have hq := R.divN (0.02003 * (e / D) + 2.5e-17) hc hm' (by positivity : 0 < D * 149597870) le_rfl Q1 (by norm_num at *; linarith) (by norm_num at *; linarith)
  rw [Q0] at hq Q1
  generalize fl (fl radius / fl (r * 149597870)) = x at *
  have hx : |x| ≤ 0.021 := by
    have := abs_sub_abs_le_abs_sub x (sin (diam / 2))
    norm_num at *; linarith
  have hx' := abs_le.1 hx
  have p2 := pi_lt_d4
  have hd2 : |diam / 2| ≤ 0.1 := by
    have : 2 / π * (diam / 2) ≤ sin (diam / 2) := mul_le_sin (by linarith) (by linarith)
    have h5 : 0.6366 ≤ 2 / π := by rw [le_div_iff₀ pi_pos]; norm_num at *; linarith
    have h6 : 0.6366 * (diam / 2) ≤ 0.02 := ((mul_le_mul_of_nonneg_right h5 (by linarith)).trans this).trans ((le_abs_self _).trans Q1)
    rw [abs_of_pos (by linarith)]; norm_num at *; linarith
  have ha : |arcsin x| ≤ 0.1 := by
    have s : |sin (arcsin x)| ≤ 0.021 := by rw [sin_arcsin (by norm_num at *; linarith) (by norm_num at *; linarith)]; exact hx
    have : 2 / π * |arcsin x| ≤ |sin (arcsin x)| := mul_abs_le_abs_sin (abs_le.2 ⟨neg_pi_div_two_le_arcsin x, arcsin_le_pi_div_two x⟩)
    have h5 : 0.6366 ≤ 2 / π := by rw [le_div_iff₀ pi_pos]; norm_num at *; linarith
    have h6 := mul_le_mul_of_nonneg_right h5 (abs_nonneg (arcsin x))
    norm_num at *; linarith
  have hg := sin_gap ha hd2
  rw [sin_arcsin (by norm_num at *; linarith) (by norm_num at *; linarith)] at hg
  have hs := hA x (hx.trans (by norm_num))
  have t := abs_sub_le (asn x) (arcsin x) (diam / 2)
  have t2 : |asn x - diam / 2| ≤ 0.0321 * (e / D) + 2.8e-16 := by norm_num at *; linarith
  have t3 : |2 * asn x - diam| ≤ 0.0642 * (e / D) + 5.6e-16 := by
    rw [show 2 * asn x - diam = 2 * (asn x - diam / 2) by ring, abs_mul, abs_of_pos (by norm_num : (0 : ℝ) < 2)]
    norm_num at *; linarith
  have t4 : |diam| ≤ 0.2 := by
    rw [abs_div, abs_of_pos (by norm_num : (0 : ℝ) < 2)] at hd2; norm_num at *; linarith
  exact R.add_err2 _ t3 t4 (by norm_num at *; linarith) (by norm_num at *; linarith)

/-- TT - UT (seconds) at a Julian epoch after 1708.2, as palDt gives it (Stephenson and Morrison). -/
noncomputable def deltaT (y : ℝ) : ℝ := 5.156 + 13.3066 * ((y - 1800) / 100 - 0.19) ^ 2

/-- Greenwich mean sidereal time at a TDB date after 1708.2. -/
noncomputable def rdplanGst (d : ℝ) : ℝ := palGmst (d - deltaT (palEpjR d) / 86400)

theorem deltaT_err (R : Rounding fl) {y Y : ℝ} (h : |y - Y| ≤ 5.6e-13) (hY : |Y - 2000| ≤ 274) : |flDt fl y - deltaT Y| ≤ 3.2e-10 ∧ |deltaT Y| ≤ 300 := by
  obtain ⟨a1, a2⟩ := abs_le.1 h
  obtain ⟨b1, b2⟩ := abs_le.1 hY
  obtain ⟨p, -, -⟩ := flDt_polys R y (by rw [abs_le]; constructor <;> norm_num at * <;> linarith)
  have k := abs_le.1 (R.cst 1708.185161980887 (M := 1709) (by norm_num) (by norm_num) (by norm_num))
  have hy : y ≥ fl 1708.185161980887 := by norm_num at *; linarith
  have u : |(y - 1800) / 100 - 0.19 - ((Y - 1800) / 100 - 0.19)| ≤ 5.6e-15 := by
    rw [show (y - 1800) / 100 - 0.19 - ((Y - 1800) / 100 - 0.19) = (y - Y) / 100 by ring, abs_div, abs_of_pos (by norm_num : (0 : ℝ) < 100)]
    norm_num at *; linarith
  have w : |(Y - 1800) / 100 - 0.19| ≤ 4.56 := by rw [abs_le]; constructor <;> norm_num at * <;> linarith
  unfold flDt deltaT
  dsimp only
  rw [if_pos hy]
  generalize fl (fl 5.156 + fl (fl (fl 13.3066 * fl (fl (fl (y - 1800) / 100) - fl 0.19)) * fl (fl (fl (y - 1800) / 100) - fl 0.19))) = z at *
  generalize (y - 1800) / 100 - 0.19 = a at *
  generalize (Y - 1800) / 100 - 0.19 = b at *
  have s : |a + b| ≤ 9.2 := by
    have := abs_add_le (a - b) (2 * b)
    rw [abs_mul, abs_of_pos (by norm_num : (0 : ℝ) < 2), show a - b + 2 * b = a + b by ring] at this
    norm_num at *; linarith
  have q := mul_bd u s
  have q2 := mul_bd w w
  obtain ⟨q3, q4⟩ := abs_le.1 q2
  constructor
  · have e : z - (5.156 + 13.3066 * b ^ 2) = (z - (5.156 + 13.3066 * a * a)) + 13.3066 * ((a - b) * (a + b)) := by ring
    rw [e]
    have := abs_add_le (z - (5.156 + 13.3066 * a * a)) (13.3066 * ((a - b) * (a + b)))
    rw [abs_mul 13.3066, abs_of_pos (by norm_num : (0 : ℝ) < 13.3066)] at this
    norm_num at *; linarith
  · have := sq_nonneg b
    rw [abs_of_nonneg (by positivity), sq]
    norm_num at *; linarith

/-- Local sidereal time in double precision. -/
theorem rdplanLst_err (R : Rounding fl) {d elong : ℝ} (h : |d - 51544.5| ≤ 100000) (he : |elong| ≤ 10) : ∃ k : ℤ, |flRdplanLst fl d elong - (rdplanGst d + elong + k * (2 * π))| ≤ 1.2e-10 := by
  obtain ⟨c1, c2⟩ := abs_le.1 h
  obtain ⟨y1, -⟩ := flEpj_near R (h.trans (by norm_num))
  have y2 : |palEpjR d - 2000| ≤ 274 := by
    have : palEpjR d - 2000 = (d - 51544.5) / 365.25 := by unfold palEpjR rMJD0; ring
    rw [this]; exact (div_bd h (by norm_num)).trans (by norm_num)
  obtain ⟨t1, t2⟩ := deltaT_err R y1 y2
  unfold flRdplanLst rdplanGst
  generalize flDt fl (flEpj fl d) = t at *
  generalize deltaT (palEpjR d) = T at *
  have q1 := R.add_err2 (δ := 3.2e-10 / 86400) 5e-15 (div_const t1 (by norm_num : (0 : ℝ) < 86400)) (div_bd t2 (by norm_num : (0 : ℝ) < 86400)) (by norm_num) (by norm_num)
  have q2 := div_bd t2 (by norm_num : (0 : ℝ) < 86400)
  obtain ⟨q3, q4⟩ := abs_le.1 q2
  have hut : |d - T / 86400| ≤ 151545 := by rw [abs_le]; constructor <;> norm_num at * <;> linarith
  have u := R.add_err2 (δ := 5e-15) 1.69e-11 (x := d - fl (t / 86400)) (X := d - T / 86400) (by rw [sub_sub_sub_cancel_left, abs_sub_comm]; exact q1) hut (by norm_num) (by norm_num)
  generalize fl (d - fl (t / 86400)) = x at *
  have X1 : |d - T / 86400 - 51544.5| ≤ 100001 := by rw [abs_le]; constructor <;> norm_num at * <;> linarith
  generalize d - T / 86400 = X at *
  obtain ⟨u1, u2⟩ := abs_le.1 u
  obtain ⟨v1, v2⟩ := abs_le.1 X1
  have x1 : |x - 51544.5| ≤ 100002 := by rw [abs_le]; constructor <;> norm_num at * <;> linarith
  obtain ⟨g0, g1, g2, k, g3⟩ := C129_gmst R x (x1.trans (by norm_num))
  obtain ⟨-, k', e⟩ := gmst06_spec 2400000.5 X
  have l := gmstArcsec_lip (x := x - 51544.5) (y := X - 51544.5) (x1.trans (by norm_num)) (X1.trans (by norm_num))
  rw [sub_sub_sub_cancel_right] at l
  rw [show (2400000.5 : ℝ) + X - 2451545 = X - 51544.5 by ring] at e
  have a0 : 0 ≤ Spec.arcsec := by unfold Spec.arcsec; positivity
  have a1 : Spec.arcsec ≤ 4.8482e-6 := by unfold Spec.arcsec; have := pi_lt_d4; rw [div_le_iff₀ (by norm_num)]; norm_num at *; linarith
  have m : |(gmstArcsec (x - 51544.5) - gmstArcsec (X - 51544.5)) * Spec.arcsec| ≤ 1.066e-10 := by
    rw [abs_mul, abs_of_nonneg a0]
    calc _ ≤ (1299550 * 1.69e-11) * 4.8482e-6 := mul_le_mul (l.trans (mul_le_mul_of_nonneg_left u (by norm_num))) a1 a0 (by norm_num)
      _ ≤ _ := by norm_num
  have fin := R.add_err2 (δ := 0) (B := 17) 2e-15 (noerr (flGmst fl x + elong)) (by
    have p := pi_lt_d4
    obtain ⟨r1, r2⟩ := abs_le.1 he
    rw [abs_le]; constructor <;> norm_num at * <;> linarith) (by norm_num) (by norm_num)
  refine ⟨k - k', ?_⟩
  have ee : fl (flGmst fl x + elong) - (palGmst X + elong + ((k - k' : ℤ) : ℝ) * (2 * π)) =
      (fl (flGmst fl x + elong) - (flGmst fl x + elong)) + (flGmst fl x - (gmstArcsec (x - 51544.5) * Spec.arcsec + k * (2 * π))) + (gmstArcsec (x - 51544.5) - gmstArcsec (X - 51544.5)) * Spec.arcsec := by
    unfold palGmst
    rw [e, show (Pal.Props.arcsec : ℝ) = Spec.arcsec from rfl]; push_cast; ring
  rw [ee]
  have := abs_add_three (fl (flGmst fl x + elong) - (flGmst fl x + elong)) (flGmst fl x - (gmstArcsec (x - 51544.5) * Spec.arcsec + k * (2 * π))) ((gmstArcsec (x - 51544.5) - gmstArcsec (X - 51544.5)) * Spec.arcsec)
  norm_num at *
  linarith

/-- The observer in double precision, for a sidereal time that is not quite right. -/
theorem rdplanObs_err (R : Rounding fl) (hL : LibmOK L) (phi : ℝ) {s S : ℝ} {k : ℤ} (h : |s - (S + k * (2 * π))| ≤ 1.2e-10) :
    len (fun i => (flPvobs fl L phi 0 s).1 i - (palPvobs phi 0 S).1 i) ≤ 9.1e-15 ∧ len (fun i => (flPvobs fl L phi 0 s).2 i - (palPvobs phi 0 S).2 i) ≤ 6.7e-19 ∧ len (palPvobs phi 0 S).2 ≤ 3.2e-9 := by
  have hf := fun i => C126_pvobs R hL phi 0 s (by norm_num) i
  obtain ⟨-, o⟩ := pvobs_len phi 0
  have hr : |gd2gcWGS84 0 phi 0 0 / erfaDAU| ≤ 4.27e-5 := by
    have := (comp_le_len (palPvobs phi 0 0).1 0).trans o
    have e : (palPvobs phi 0 0).1 0 = gd2gcWGS84 0 phi 0 0 / erfaDAU := by
      unfold palPvobs; dsimp only; rw [cos_zero, mul_one]; rfl
    rw [e] at this
    norm_num at *; linarith
  have hs : |sin s - sin S| ≤ 1.2e-10 := by
    have := abs_sin_sub_sin_le s (S + k * (2 * π))
    rw [sin_add_int_mul_two_pi] at this
    exact this.trans h
  have hc : |cos s - cos S| ≤ 1.2e-10 := by
    have := abs_cos_sub_cos_le s (S + k * (2 * π))
    rw [cos_add_int_mul_two_pi] at this
    exact this.trans h
  have e1 : ∀ i, |(palPvobs phi 0 s).1 i - (palPvobs phi 0 S).1 i| ≤ 5.2e-15 := by
    intro i
    unfold palPvobs
    dsimp only
    generalize gd2gcWGS84 0 phi 0 0 / erfaDAU = r at *
    have a := mul_bd hr hc
    have b := mul_bd hr hs
    fin_cases i
    · show |r * cos s - r * cos S| ≤ _
      rw [← mul_sub]; exact a.trans (by norm_num)
    · show |r * sin s - r * sin S| ≤ _
      rw [← mul_sub]; exact b.trans (by norm_num)
    · show |_ - _| ≤ _
      simp; norm_num
  have hv : |palSR * (gd2gcWGS84 0 phi 0 0 / erfaDAU)| ≤ 3.12e-9 := by
    have : |palSR| ≤ 7.2922e-5 := by unfold palSR; norm_num [abs_of_pos]
    exact (mul_bd this hr).trans (by norm_num)
  have e2 : ∀ i, |(palPvobs phi 0 s).2 i - (palPvobs phi 0 S).2 i| ≤ 3.8e-19 := by
    intro i
    unfold palPvobs
    dsimp only
    generalize palSR * (gd2gcWGS84 0 phi 0 0 / erfaDAU) = r at *
    have a := mul_bd hv hc
    have b := mul_bd hv hs
    fin_cases i
    · show |-r * sin s - -r * sin S| ≤ _
      rw [← mul_sub, abs_mul, abs_neg, ← abs_mul]; exact b.trans (by norm_num)
    · show |r * cos s - r * cos S| ≤ _
      rw [← mul_sub]; exact a.trans (by norm_num)
    · show |(0 : ℝ) - 0| ≤ _
      norm_num
  have f1 : ∀ i, |(flPvobs fl L phi 0 s).1 i - (palPvobs phi 0 S).1 i| ≤ 5.21e-15 := fun i => by
    have := abs_sub_le ((flPvobs fl L phi 0 s).1 i) ((palPvobs phi 0 s).1 i) ((palPvobs phi 0 S).1 i)
    have := (hf i).1
    have := e1 i
    norm_num at *; linarith
  have f2 : ∀ i, |(flPvobs fl L phi 0 s).2 i - (palPvobs phi 0 S).2 i| ≤ 3.81e-19 := fun i => by
    have := abs_sub_le ((flPvobs fl L phi 0 s).2 i) ((palPvobs phi 0 s).2 i) ((palPvobs phi 0 S).2 i)
    have := (hf i).2.1
    have := e2 i
    norm_num at *; linarith
  refine ⟨(len_le_of_comp f1).trans (by norm_num), (len_le_of_comp f2).trans (by norm_num), ?_⟩
  obtain ⟨-, -, -, o3⟩ := C48_pvobs phi 0 S
  obtain ⟨-, o4⟩ := pvobs_len phi S
  rw [o3]
  have : √((palPvobs phi 0 S).1 0 ^ 2 + (palPvobs phi 0 S).1 1 ^ 2) ≤ len (palPvobs phi 0 S).1 := by
    refine sqrt_le_sqrt ?_
    rw [Fin.sum_univ_three]
    have := sq_nonneg ((palPvobs phi 0 S).1 2)
    linarith
  norm_num at *
  linarith

/-- The Moon, true equator and equinox of date, in double precision. -/
theorem rdplanMoon_err (R : Rounding fl) (hL : LibmOK L) {nf nx : ℝ → ℝ → ℝ × ℝ} {date : ℝ} (h : |date - 51544.5| ≤ 100000)
    (h1 : |(nf 2400000.5 date).1 - (nx 2400000.5 date).1| ≤ 1e-14) (h2 : |(nf 2400000.5 date).2 - (nx 2400000.5 date).2| ≤ 1e-14) (b2 : |(nx 2400000.5 date).2| ≤ 1e-3) :
    len (fun i => flRxp fl (flNut fl L nf date) (flDmoon fl L date).p i - (palNut (iau2006 nx) date *ᵥ (palDmoon date).p) i) ≤ 1.733e-12 ∧
    len (fun i => flRxp fl (flNut fl L nf date) (flDmoon fl L date).v i - (palNut (iau2006 nx) date *ᵥ (palDmoon date).v) i) ≤ 8.7e-18 ∧
    0.002377 ≤ len (palNut (iau2006 nx) date *ᵥ (palDmoon date).p) ∧ len (palNut (iau2006 nx) date *ᵥ (palDmoon date).p) ≤ 0.002797 ∧ len (palNut (iau2006 nx) date *ᵥ (palDmoon date).v) ≤ 9.3e-9 := by
  have hd : |date - 15019.5| ≤ 1095750 := by
    obtain ⟨a, b⟩ := abs_le.1 h
    rw [abs_le]; constructor <;> norm_num at * <;> linarith
  have hN : IsRotation (palNut (iau2006 nx) date) := deuler_rot _ _ _ _
  have hs := flNut_small R hL (h.trans (by norm_num)) h1 h2 le_rfl b2
  obtain ⟨m1, m2⟩ := C88_distance date hd
  obtain ⟨-, v2⟩ := C120_speed date hd
  obtain ⟨c1, c2⟩ := C146_accuracy R hL date hd
  have l1 := len_le_of_comp c1
  have l2 := len_le_of_comp c2
  have n1 : len (flDmoon fl L date).p ≤ 0.0028 := by have := abs_le.1 (len_rev_tri (flDmoon fl L date).p (palDmoon date).p); norm_num at *; linarith
  have n2 : len (flDmoon fl L date).v ≤ 9.4e-9 := by have := abs_le.1 (len_rev_tri (flDmoon fl L date).v (palDmoon date).v); norm_num at *; linarith
  have s1 := flRxp_scaled R hN hs (by norm_num) (flDmoon fl L date).p (n1.trans (by norm_num))
  have s2 := flRxp_scaled R hN hs (by norm_num) (flDmoon fl L date).v (n2.trans (by norm_num))
  rw [rot_len hN, rot_len hN]
  have t : ∀ x y : Vec3, len (fun i => (palNut (iau2006 nx) date *ᵥ x) i - (palNut (iau2006 nx) date *ᵥ y) i) = len (fun i => x i - y i) := fun x y => by
    have : (fun i => (palNut (iau2006 nx) date *ᵥ x) i - (palNut (iau2006 nx) date *ᵥ y) i) = palNut (iau2006 nx) date *ᵥ (fun i => x i - y i) := by
      rw [show (fun i => x i - y i) = x - y from rfl, Matrix.mulVec_sub]; rfl
    rw [this, rot_len hN]
  have q1 := len_tri (flRxp fl (flNut fl L nf date) (flDmoon fl L date).p) (palNut (iau2006 nx) date *ᵥ (flDmoon fl L date).p) (palNut (iau2006 nx) date *ᵥ (palDmoon date).p)
  have q2 := len_tri (flRxp fl (flNut fl L nf date) (flDmoon fl L date).v) (palNut (iau2006 nx) date *ᵥ (flDmoon fl L date).v) (palNut (iau2006 nx) date *ᵥ (palDmoon date).v)
  rw [t] at q1 q2
  have z : (1 : ℝ) / 10 ^ 198 ≤ 1e-50 := by norm_num
  generalize (1 : ℝ) / 10 ^ 198 = z at *
  refine ⟨?_, ?_, m1.le, m2.le, v2.le⟩ <;> norm_num at * <;> linarith

/-- A heliocentric state, true equator and equinox of date, in double precision. -/
theorem rdplanHel_err (R : Rounding fl) (hL : LibmOK L) {nf nx : ℝ → ℝ → ℝ × ℝ} {date : ℝ} (h : |date - 51544.5| ≤ 100000)
    (h1 : |(nf 2400000.5 date).1 - (nx 2400000.5 date).1| ≤ 1e-14) (h2 : |(nf 2400000.5 date).2 - (nx 2400000.5 date).2| ≤ 1e-14) (b1 : |(nx 2400000.5 date).1| ≤ 1e-3) (b2 : |(nx 2400000.5 date).2| ≤ 1e-3)
    {plan94 : ℝ → ℝ → ℤ → PV × ℤ} {np : ℤ} {B : ℝ} (hp : len (plan94 2400000.5 date np).1.p ≤ B) (hB : B ≤ 50) (hv : len (plan94 2400000.5 date np).1.v ≤ 0.1) :
    len (fun i => flRxp fl (flPrenut fl L nf 2000 date) (flPlanet fl plan94 date np).p i - (palPrenut (iau2006 nx) 2000 date *ᵥ (palPlanet plan94 date np).1.p) i) ≤ 3.94e-14 * B + 1e-50 ∧
    len (fun i => flRxp fl (flPrenut fl L nf 2000 date) (flPlanet fl plan94 date np).v i - (palPrenut (iau2006 nx) 2000 date *ᵥ (palPlanet plan94 date np).1.v) i) ≤ 4.6e-20 ∧
    len (palPrenut (iau2006 nx) 2000 date *ᵥ (palPlanet plan94 date np).1.p) = len (plan94 2400000.5 date np).1.p ∧ len (palPrenut (iau2006 nx) 2000 date *ᵥ (palPlanet plan94 date np).1.v) ≤ 1.16e-6 := by
  have B0 := (len_nonneg _).trans hp
  have hM : IsRotation (palPrenut (iau2006 nx) 2000 date) := ((C97_rotations nx).2.2 2000 date).2.1
  have hs := flPrenut_small R hL (epoch := 2000) (by norm_num) (h.trans (by norm_num)) h1 h2 le_rfl b1 b2
  have e1 : (palPlanet plan94 date np).1.p = (plan94 2400000.5 date np).1.p := rfl
  have e2 : (palPlanet plan94 date np).1.v = fun i => 1 / 86400 * (plan94 2400000.5 date np).1.v i := by
    unfold palPlanet spd; dsimp only; funext i; rw [show (rMJD0 : ℝ) = 2400000.5 from rfl]; norm_num; ring
  have e3 : (flPlanet fl plan94 date np).p = (plan94 2400000.5 date np).1.p := rfl
  have e4 : (flPlanet fl plan94 date np).v = fun i => fl ((palPlanet plan94 date np).1.v i) := by
    funext i; rw [e2]; show fl (_ / 86400) = _; congr 1; ring
  have l2 : len (palPlanet plan94 date np).1.v ≤ 1.158e-6 := by rw [e2, len_smul, abs_of_pos (by norm_num)]; norm_num at *; linarith
  have r2 := fl_vround R (l2.trans (by norm_num))
  have n2 : len (flPlanet fl plan94 date np).v ≤ 1.1581e-6 := by
    rw [e4]
    have := abs_le.1 (len_rev_tri (fun i => fl ((palPlanet plan94 date np).1.v i)) (palPlanet plan94 date np).1.v)
    norm_num at *; linarith
  have s1 := flRxp_scaled R hM hs (by norm_num) (flPlanet fl plan94 date np).p (by rw [e3]; exact hp.trans (hB.trans (by norm_num)))
  have s2 := flRxp_scaled R hM hs (by norm_num) (flPlanet fl plan94 date np).v (n2.trans (by norm_num))
  have z : (1 : ℝ) / 10 ^ 198 ≤ 1e-50 := by norm_num
  generalize (1 : ℝ) / 10 ^ 198 = z at *
  have q2 := len_tri (flRxp fl (flPrenut fl L nf 2000 date) (flPlanet fl plan94 date np).v) (palPrenut (iau2006 nx) 2000 date *ᵥ (flPlanet fl plan94 date np).v) (palPrenut (iau2006 nx) 2000 date *ᵥ (palPlanet plan94 date np).1.v)
  have t : len (fun i => (palPrenut (iau2006 nx) 2000 date *ᵥ (flPlanet fl plan94 date np).v) i - (palPrenut (iau2006 nx) 2000 date *ᵥ (palPlanet plan94 date np).1.v) i) ≤ 2.3e-22 := by
    have : (fun i => (palPrenut (iau2006 nx) 2000 date *ᵥ (flPlanet fl plan94 date np).v) i - (palPrenut (iau2006 nx) 2000 date *ᵥ (palPlanet plan94 date np).1.v) i) =
        palPrenut (iau2006 nx) 2000 date *ᵥ (fun i => fl ((palPlanet plan94 date np).1.v i) - (palPlanet plan94 date np).1.v i) := by
      rw [show (fun i => fl ((palPlanet plan94 date np).1.v i) - (palPlanet plan94 date np).1.v i) = (fun i => fl ((palPlanet plan94 date np).1.v i)) - (palPlanet plan94 date np).1.v from rfl, Matrix.mulVec_sub, ← e4]; rfl
    rw [this, rot_len hM]
    norm_num at *; linarith
  rw [rot_len hM, rot_len hM, e1]
  rw [e3] at s1
  refine ⟨?_, ?_, rfl, ?_⟩
  · rw [e3]; norm_num at *; linarith
  · norm_num at *; linarith
  · norm_num at *; linarith

/-- The Earth, true equator and equinox of date, in double precision. -/
theorem rdplanEarth_err (R : Rounding fl) (hL : LibmOK L) {nf nx : ℝ → ℝ → ℝ × ℝ} {date : ℝ} (h : |date - 51544.5| ≤ 100000)
    (h1 : |(nf 2400000.5 date).1 - (nx 2400000.5 date).1| ≤ 1e-14) (h2 : |(nf 2400000.5 date).2 - (nx 2400000.5 date).2| ≤ 1e-14) (b1 : |(nx 2400000.5 date).1| ≤ 1e-3) (b2 : |(nx 2400000.5 date).2| ≤ 1e-3)
    {plan94 : ℝ → ℝ → ℤ → PV × ℤ} (hp : len (plan94 2400000.5 date 3).1.p ≤ 1.1) (hv : len (plan94 2400000.5 date 3).1.v ≤ 0.1) :
    let M := palPrenut (iau2006 nx) 2000 date
    let N := palNut (iau2006 nx) date
    let Ep : Vec3 := fun i => (M *ᵥ (palPlanet plan94 date 3).1.p) i - 0.012150581 * (N *ᵥ (palDmoon date).p) i
    let Ev : Vec3 := fun i => (M *ᵥ (palPlanet plan94 date 3).1.v) i - 0.012150581 * (N *ᵥ (palDmoon date).v) i
    len (fun i => fl (flRxp fl (flPrenut fl L nf 2000 date) (flPlanet fl plan94 date 3).p i - fl (fl 0.012150581 * flRxp fl (flNut fl L nf date) (flDmoon fl L date).p i)) - Ep i) ≤ 8.3e-14 ∧
    len (fun i => fl (flRxp fl (flPrenut fl L nf 2000 date) (flPlanet fl plan94 date 3).v i - fl (fl 0.012150581 * flRxp fl (flNut fl L nf date) (flDmoon fl L date).v i)) - Ev i) ≤ 2.6e-19 ∧
    len Ep ≤ 1.101 ∧ len Ev ≤ 1.161e-6 := by
  intro M N Ep Ev
  obtain ⟨m1, m2, m3, m4, m5⟩ := rdplanMoon_err R hL h h1 h2 b2
  obtain ⟨e1, e2, e3, e4⟩ := rdplanHel_err R hL h h1 h2 b1 b2 hp (by norm_num) hv
  rw [← e3] at hp
  have hk := R.cst 0.012150581 (M := 0.01216) (by norm_num) (by norm_num) (by norm_num)
  have x1 : ∀ i, |fl (fl 0.012150581 * flRxp fl (flNut fl L nf date) (flDmoon fl L date).p i) - 0.012150581 * (N *ᵥ (palDmoon date).p) i| ≤ 2.2e-14 := fun i =>
    R.mulB _ hk ((comp_le_len (fun i => flRxp fl (flNut fl L nf date) (flDmoon fl L date).p i - (N *ᵥ (palDmoon date).p) i) i).trans m1) (by norm_num : |(0.012150581 : ℝ)| ≤ 0.01216) ((comp_le_len _ i).trans m4) (by norm_num) (by norm_num)
  have x2 : ∀ i, |fl (fl 0.012150581 * flRxp fl (flNut fl L nf date) (flDmoon fl L date).v i) - 0.012150581 * (N *ᵥ (palDmoon date).v) i| ≤ 1.1e-19 := fun i =>
    R.mulB _ hk ((comp_le_len (fun i => flRxp fl (flNut fl L nf date) (flDmoon fl L date).v i - (N *ᵥ (palDmoon date).v) i) i).trans m2) (by norm_num : |(0.012150581 : ℝ)| ≤ 0.01216) ((comp_le_len _ i).trans m5) (by norm_num) (by norm_num)
  have y1 : len (fun i => 0.012150581 * (N *ᵥ (palDmoon date).p) i) ≤ 0.0000341 := by rw [len_smul, abs_of_pos (by norm_num)]; norm_num at *; linarith
  have y2 : len (fun i => 0.012150581 * (N *ᵥ (palDmoon date).v) i) ≤ 1.2e-10 := by rw [len_smul, abs_of_pos (by norm_num)]; norm_num at *; linarith
  obtain ⟨p1, p2⟩ := fl_vsub R e1 (len_le_of_comp x1) hp y1 (by norm_num)
  obtain ⟨q1, q2⟩ := fl_vsub R e2 (len_le_of_comp x2) e4 y2 (by norm_num)
  exact ⟨p1.trans (by norm_num), q1.trans (by norm_num), p2.trans (by norm_num), q2.trans (by norm_num)⟩

/-- From the geocentric state to the answer. -/
theorem rdplan_all (R : Rounding fl) (hL : LibmOK L) {asn : ℝ → ℝ} (hA : ∀ x, |x| ≤ 1 → |asn x - arcsin x| ≤ 2.3e-16) (nz : Bool) (nf : ℝ → ℝ → ℝ × ℝ) (T : Theory) (plan94 : ℝ → ℝ → ℤ → PV × ℤ)
    {date elong phi a : ℝ} (h : |date - 51544.5| ≤ 100000) (hE : |elong| ≤ 10) (n : Fin 9) (b : PV) (hb : b = geoBody (palPrenut T 2000 date) (palNut T date) (fun k => (palPlanet plan94 date k).1) (palDmoon date) n)
    (g1 : len (fun i => (flRdplanGeo fl L nf plan94 date (n : ℕ)).p i - b.p i) ≤ a) (g2 : len (fun i => (flRdplanGeo fl L nf plan94 date (n : ℕ)).v i - b.v i) ≤ 1e-17) (l1 : len b.p ≤ 60) (l2 : len b.v ≤ 4e-6) (a1 : a ≤ 1e-9)
    (d1 : 1e-3 ≤ len (b.p - (observerAt rdplanGst date elong phi).p)) (d2 : a + 4e-14 ≤ len (b.p - (observerAt rdplanGst date elong phi).p) / 100000)
    (hr : bodyRadius n ≤ 0.02 * (len (b.p - (observerAt rdplanGst date elong phi).p) * 149597870)) :
    ∃ ra dec diam, palRdplan T plan94 palDmoon rdplanGst date (n : ℕ) elong phi = some (ra, dec, diam) ∧
      0 ≤ (flRdplan fl L asn nz nf plan94 date (n : ℕ) elong phi).1 ∧ (flRdplan fl L asn nz nf plan94 date (n : ℕ) elong phi).1 ≤ flD2PI fl ∧ |(flRdplan fl L asn nz nf plan94 date (n : ℕ) elong phi).2.1| ≤ π / 2 + 4.5e-16 ∧
      len (fun i => dir (flRdplan fl L asn nz nf plan94 date (n : ℕ) elong phi).1 (flRdplan fl L asn nz nf plan94 date (n : ℕ) elong phi).2.1 i - dir ra dec i) ≤
        2.02 * ((a + 9.2e-15 + 2e-16 * len b.p) / len (b.p - (observerAt rdplanGst date elong phi).p)) + 6e-14 ∧
      |(flRdplan fl L asn nz nf plan94 date (n : ℕ) elong phi).2.2 - diam| ≤ 0.07 * ((a + 9.2e-15 + 2e-16 * len b.p) / len (b.p - (observerAt rdplanGst date elong phi).p)) + 2e-15 := by
  have a0 := (len_nonneg _).trans g1
  obtain ⟨P, hP⟩ : ∃ P, P = b.p - (observerAt rdplanGst date elong phi).p := ⟨_, rfl⟩
  obtain ⟨V, hV⟩ : ∃ V, V = b.v - (observerAt rdplanGst date elong phi).v := ⟨_, rfl⟩
  rw [← hP] at d1 d2 hr ⊢
  have D0 : 0 < len P := by norm_num at *; linarith
  obtain ⟨ra, dec, diam, h1, h2, h3, h4, h5⟩ := (C68_rdplan T plan94 palDmoon rdplanGst date n elong phi b hb P V hP hV).2 (hr.trans (by norm_num at *; linarith))
  obtain ⟨k, hk⟩ := rdplanLst_err R h hE
  obtain ⟨o1, o2, o3⟩ := rdplanObs_err R hL phi hk
  obtain ⟨-, o4⟩ := pvobs_len phi (rdplanGst date + elong)
  have o4' : len (palPvobs phi 0 (rdplanGst date + elong)).1 ≤ 4.27e-5 := o4.trans (by norm_num)
  have b0 := len_nonneg b.p
  obtain ⟨p1, p2⟩ := fl_vsub R g1 o1 (le_refl (len b.p)) o4' (by norm_num at *; linarith)
  obtain ⟨v1, v2⟩ := fl_vsub R g2 o2 l2 o3 (by norm_num)
  have hn : ¬ (((n : ℕ) : ℤ) < 0 ∨ ((n : ℕ) : ℤ) > 8) := by have := n.2; omega
  have hrad : eqrau ((n : ℕ) : ℤ) = bodyRadius n := by
    unfold eqrau bodyRadius
    fin_cases n <;> simp
  have hpos : 1 ≤ bodyRadius n := by unfold bodyRadius; fin_cases n <;> norm_num
  have eP : (fun i => b.p i - (palPvobs phi 0 (rdplanGst date + elong)).1 i) = P := by rw [hP]; rfl
  have eV : (fun i => b.v i - (palPvobs phi 0 (rdplanGst date + elong)).2 i) = V := by rw [hV]; rfl
  rw [eP] at p2
  rw [eV] at v2
  have p3 : len (fun i => fl ((flRdplanGeo fl L nf plan94 date (n : ℕ)).p i - (flPvobs fl L phi 0 (flRdplanLst fl date elong)).1 i) - P i) ≤ a + 9.2e-15 + 2e-16 * len b.p := by
    have e : ∀ i, P i = b.p i - (palPvobs phi 0 (rdplanGst date + elong)).1 i := fun i => (congrFun eP i).symm
    simp only [e]
    norm_num at *; linarith
  have v3 : len (fun i => fl ((flRdplanGeo fl L nf plan94 date (n : ℕ)).v i - (flPvobs fl L phi 0 (flRdplanLst fl date elong)).2 i) - V i) ≤ 2e-17 := by
    have e : ∀ i, V i = b.v i - (palPvobs phi 0 (rdplanGst date + elong)).2 i := fun i => (congrFun eV i).symm
    simp only [e]
    norm_num at *; linarith
  have he : a + 9.2e-15 + 2e-16 * len b.p ≤ len P / 100000 := by norm_num at *; linarith
  have r := rdplan_dist R p3 d1 (by norm_num at *; linarith) he
  obtain ⟨q1, q2, q3, q4⟩ := rdplan_place R hL nz p3 v3 d1 (by norm_num at *; linarith) (by norm_num at *; linarith) he h2
  have q5 := rdplan_diam R hA r (by positivity) d1 (by norm_num at *; linarith) he h3 h4 h5 hpos hr
  have e : flRdplan fl L asn nz nf plan94 date (n : ℕ) elong phi = flRdplanTopo fl L asn nz (flRdplanGeo fl L nf plan94 date (n : ℕ)) (flPvobs fl L phi 0 (flRdplanLst fl date elong)) (bodyRadius n) := by
    unfold flRdplan; dsimp only; rw [if_neg hn, hrad]
  rw [e]
  exact ⟨ra, dec, diam, h1, q1, q2, q3, q4, q5⟩

end Pal.Props
