import Verif.Lemmas.FlRr
import Verif.Lemmas.Moon
import Verif.Lemmas.FlSmall
import Verif.Lemmas.FlAngle
import Verif.Lemmas.FlAoppa

/-!
# palDmoon in double precision: the fundamental arguments
-/

namespace Pal.Moon
open Pal Pal.Spec Real

variable {fl : ℝ → ℝ} {L : Libm}

local macro "nn" : tactic => `(tactic| norm_num [abs_of_pos])

theorem rr_dd2r (R : Rounding fl) : Rr 1.05 0.01746 (flDd2r fl) dd2r := by
  have h : |flDd2r fl - π / 180| ≤ 1.95e-18 := by
    unfold flDd2r
    have p1 := pi_gt_d20
    have p2 := pi_lt_d20
    have e := R.err (x := 0.017453292519943295769236907684886127134428718885417) (by norm_num)
    have := abs_sub_le (fl 0.017453292519943295769236907684886127134428718885417) 0.017453292519943295769236907684886127134428718885417 (π / 180)
    have q : |(0.017453292519943295769236907684886127134428718885417 : ℝ) - π / 180| ≤ 1e-21 := by rw [abs_le]; constructor <;> linarith
    have t : (1 : ℝ) / 10 ^ 200 ≤ 1e-30 := by norm_num
    rw [abs_of_pos (by norm_num : (0 : ℝ) < 0.017453292519943295769236907684886127134428718885417)] at e
    generalize (1 : ℝ) / 10 ^ 200 = z at *
    linarith
  have p1 := pi_gt_d20
  have p2 := pi_lt_d20
  refine ⟨by norm_num, by norm_num, by norm_num, by norm_num, ?_, ?_⟩
  · unfold dd2r; rw [abs_of_pos (by positivity)]; linarith
  · unfold dd2r; refine h.trans (by norm_num)

/-- A fundamental argument, up to whole turns. -/
theorem flMoonArg_rr (R : Rounding fl) {t T : ℝ} (ht : Rr 2.001 30 t T) {a0 a1 a2 a3 : ℝ} (A0 A1 A2 A3 k : ℝ) (h0 : |a0| ≤ A0) (h1 : |a1| ≤ A1) (h2 : |a2| ≤ A2) (h3 : |a3| ≤ A3)
    (l0 : 1 ≤ A0) (u0 : A0 ≤ 1000) (u1 : A1 ≤ 1e6) (l2 : 1e-9 ≤ A2) (l3 : 1e-9 ≤ A3) (hd : 1000 * (30 * A2 + 900 * A3) ≤ A1) (hk : 6.02 * (30.04 * A1 + A0) ≤ (k - 4) * 361) (hk' : k ≤ 1e9) :
    ∃ n : ℤ, Rr (1.00001 * k) 6.304 (flMoonArg fl a0 a1 a2 a3 t) (moonArg a0 a1 a2 a3 T + n * (2 * π)) := by
  have c3 := Rr.cst R a3 h3 (by linarith) (by linarith)
  have c2 := Rr.cst R a2 h2 (by linarith) (by linarith)
  have c1 := Rr.cst R a1 h1 (by linarith) (by linarith)
  have c0 := Rr.cst R a0 h0 (by linarith) (by linarith)
  have p1 := Rr.mul R 4.01 (30 * A3) c3 ht (by norm_num) (by norm_num) (by linarith) (by linarith) (by linarith)
  have p2 := Rr.add R 5.02 (A2 + 30 * A3) c2 p1 (by linarith) (by norm_num) (by norm_num) (by linarith) (by linarith)
  have p3 := Rr.mul R 8.04 (30 * A2 + 900 * A3) p2 ht (by norm_num) (by norm_num) (by linarith) (by linarith) (by linarith)
  have p4 := Rr.add R 2.01 (1.001 * A1) c1 p3 (by linarith) (by norm_num) (by norm_num) (by linarith) (by linarith)
  have p5 := Rr.mul R 5.015 (30.03 * A1) p4 ht (by norm_num) (by norm_num) (by linarith) (by linarith) (by linarith)
  have p6 := Rr.add R 6.02 (30.04 * A1 + A0) c0 p5 (by linarith) (by norm_num) (by norm_num) (by linarith) (by linarith)
  unfold flMoonArg
  generalize fl (fl a0 + fl (fl (fl a1 + fl (fl (fl a2 + fl (fl a3 * t)) * t)) * t)) = x at *
  obtain ⟨X, hX⟩ : ∃ X, X = a0 + (a1 + (a2 + a3 * T) * T) * T := ⟨_, rfl⟩
  rw [← hX] at p6
  obtain ⟨n0, hn⟩ := moonArg_eq a0 a1 a2 a3 T
  refine ⟨-truncR (x / 360) - n0, ?_⟩
  have b := (fmod_bounds x 360 (by norm_num)).1
  have e : fmod x 360 - (X - 360 * truncR (x / 360)) = x - X := by unfold fmod; ring
  have er := p6.err
  have er' : |x - X| ≤ (k - 4) * 1.12e-16 * 361 := er.trans (by linarith)
  have q : Rr (k - 4) 361 (fmod x 360) (X - 360 * truncR (x / 360)) := by
    refine ⟨by linarith, by linarith, by norm_num, by norm_num, ?_, by rw [e]; exact er'⟩
    have := abs_sub_abs_le_abs_sub (X - 360 * truncR (x / 360)) (fmod x 360)
    rw [abs_sub_comm _ (fmod x 360), e] at this
    linarith
  have w := Rr.mul R (1.00001 * k) 6.304 (rr_dd2r R) q (by linarith) (by linarith) (by norm_num) (by norm_num) (by norm_num)
  have eq : dd2r * (X - 360 * truncR (x / 360)) = moonArg a0 a1 a2 a3 T + ((-truncR (x / 360) - n0 : ℤ) : ℝ) * (2 * π) := by
    rw [hX, hn]; unfold dd2r; push_cast; ring
  rw [← eq]; exact w

/-- Its rate. -/
theorem flMoonArgD_rr (R : Rounding fl) {t T : ℝ} (ht : Rr 2.001 30 t T) {a1 a2 a3 : ℝ} (A1 A2 A3 : ℝ) (h1 : |a1| ≤ A1) (h2 : |a2| ≤ A2) (h3 : |a3| ≤ A3)
    (u1 : A1 ≤ 1e6) (l2 : 1e-9 ≤ A2) (l3 : 1e-9 ≤ A3) (hd : 1000 * (60 * A2 + 2700 * A3) ≤ A1) :
    Rr 4.1 (0.01748 * A1) (flMoonArgD fl a1 a2 a3 t) (moonArgD a1 a2 a3 T) := by
  have c3 := Rr.cst R a3 h3 (by linarith) (by linarith)
  have c2 := Rr.cst R a2 h2 (by linarith) (by linarith)
  have c1 := Rr.cst R a1 h1 (by linarith) (by linarith)
  have two := Rr.exact (X := 2) (M := 2) (by norm_num) (by norm_num) (by norm_num)
  have three := Rr.exact (X := 3) (M := 3) (by norm_num) (by norm_num) (by norm_num)
  have d3 := Rr.mul R 2.01 (3 * A3) three c3 (by norm_num) (by norm_num) le_rfl (by linarith) (by linarith)
  have d2 := Rr.mul R 2.01 (2 * A2) two c2 (by norm_num) (by norm_num) le_rfl (by linarith) (by linarith)
  have p1 := Rr.mul R 5.02 (90 * A3) d3 ht (by norm_num) (by norm_num) (by linarith) (by linarith) (by linarith)
  have p2 := Rr.add R 6.03 (2 * A2 + 90 * A3) d2 p1 (by linarith) (by norm_num) (by norm_num) (by linarith) (by linarith)
  have p3 := Rr.mul R 9.04 (60 * A2 + 2700 * A3) p2 ht (by norm_num) (by norm_num) (by linarith) (by linarith) (by linarith)
  have p4 := Rr.add R 2.02 (1.001 * A1) c1 p3 (by linarith) (by norm_num) (by norm_num) (by linarith) (by linarith)
  exact Rr.mul R 4.1 (0.01748 * A1) (rr_dd2r R) p4 (by norm_num) (by norm_num) (by linarith) (by linarith) (by linarith)

/-- The computed arguments against arguments that differ from the exact ones by whole turns. -/
structure ArgsRr (a b : MoonArgs) : Prop where
  elp : Rr 2.421e5 6.311 a.elp b.elp
  delp : Rr 5.2 8413 a.delp b.delp
  em : Rr 2.421e5 6.33 a.em b.em
  dem : Rr 5.2 8450 a.dem b.dem
  emp : Rr 2.421e5 6.33 a.emp b.emp
  demp : Rr 5.2 8450 a.demp b.demp
  d : Rr 2.421e5 6.33 a.d b.d
  dd : Rr 5.2 8450 a.dd b.dd
  f : Rr 2.421e5 6.33 a.f b.f
  df : Rr 5.2 8450 a.df b.df
  om : Rr 1000 6.304 a.om b.om
  dom : Rr 4.1 33.85 a.dom b.dom
  wom : Rr 520 12.4 a.wom b.wom
  dwom : Rr 5.2 33.9 a.dwom b.dwom
  e : Rr 1.5 1.09 a.e b.e
  de : Rr 3 0.00296 a.de b.de

set_option maxHeartbeats 2000000 in
theorem flMoonArgs_rr (R : Rounding fl) (hL : LibmOK L) {t T : ℝ} (ht : Rr 2.001 30 t T) : ∃ b, Turn b (moonArgs T) ∧ ArgsRr (flMoonArgs fl L t) b := by
  obtain ⟨n1, elp⟩ := flMoonArg_rr R ht (a0 := 270.434164) (a1 := 481267.8831) (a2 := -0.001133) (a3 := 0.0000019) 271 481268 0.001133 0.0000019 242100
    (by nn) (by nn) (by nn) (by nn) (by nn) (by nn) (by nn) (by nn) (by nn) (by nn) (by nn) (by nn)
  have delp := flMoonArgD_rr R ht (a1 := 481267.8831) (a2 := -0.001133) (a3 := 0.0000019) 481268 0.001133 0.0000019 (by nn) (by nn) (by nn) (by nn) (by nn) (by nn) (by nn)
  obtain ⟨n2, em⟩ := flMoonArg_rr R ht (a0 := 358.475833) (a1 := 35999.0498) (a2 := -0.000150) (a3 := -0.0000033) 359 36000 0.000150 0.0000033 242100
    (by nn) (by nn) (by nn) (by nn) (by nn) (by nn) (by nn) (by nn) (by nn) (by nn) (by nn) (by nn)
  have dem := flMoonArgD_rr R ht (a1 := 35999.0498) (a2 := -0.000150) (a3 := -0.0000033) 36000 0.000150 0.0000033 (by nn) (by nn) (by nn) (by nn) (by nn) (by nn) (by nn)
  obtain ⟨n3, emp⟩ := flMoonArg_rr R ht (a0 := 296.104608) (a1 := 477198.8491) (a2 := 0.009192) (a3 := 0.0000144) 297 477199 0.009192 0.0000144 242100
    (by nn) (by nn) (by nn) (by nn) (by nn) (by nn) (by nn) (by nn) (by nn) (by nn) (by nn) (by nn)
  have demp := flMoonArgD_rr R ht (a1 := 477198.8491) (a2 := 0.009192) (a3 := 0.0000144) 477199 0.009192 0.0000144 (by nn) (by nn) (by nn) (by nn) (by nn) (by nn) (by nn)
  obtain ⟨n4, d⟩ := flMoonArg_rr R ht (a0 := 350.737486) (a1 := 445267.1142) (a2 := -0.001436) (a3 := 0.0000019) 351 445268 0.001436 0.0000019 242100
    (by nn) (by nn) (by nn) (by nn) (by nn) (by nn) (by nn) (by nn) (by nn) (by nn) (by nn) (by nn)
  have dd := flMoonArgD_rr R ht (a1 := 445267.1142) (a2 := -0.001436) (a3 := 0.0000019) 445268 0.001436 0.0000019 (by nn) (by nn) (by nn) (by nn) (by nn) (by nn) (by nn)
  obtain ⟨n5, f⟩ := flMoonArg_rr R ht (a0 := 11.250889) (a1 := 483202.0251) (a2 := -0.003211) (a3 := -0.0000003) 12 483203 0.003211 0.0000003 242100
    (by nn) (by nn) (by nn) (by nn) (by nn) (by nn) (by nn) (by nn) (by nn) (by nn) (by nn) (by nn)
  have df := flMoonArgD_rr R ht (a1 := 483202.0251) (a2 := -0.003211) (a3 := -0.0000003) 483203 0.003211 0.0000003 (by nn) (by nn) (by nn) (by nn) (by nn) (by nn) (by nn)
  obtain ⟨n6, om⟩ := flMoonArg_rr R ht (a0 := 259.183275) (a1 := -1934.1420) (a2 := 0.002078) (a3 := 0.0000022) 260 1935 0.002078 0.0000022 990
    (by nn) (by nn) (by nn) (by nn) (by nn) (by nn) (by nn) (by nn) (by nn) (by nn) (by nn) (by nn)
  have dom := flMoonArgD_rr R ht (a1 := -1934.1420) (a2 := 0.002078) (a3 := 0.0000022) 1935 0.002078 0.0000022 (by nn) (by nn) (by nn) (by nn) (by nn) (by nn) (by nn)
  have so := Rr.sin hL 6313 om (by nn) (by nn)
  have co := Rr.cos hL 6313 om (by nn) (by nn)
  rw [sin_turn] at so
  rw [cos_turn] at co
  have D := rr_dd2r R
  have domcom := Rr.mul R 6320 33.85 dom co (by nn) (by nn) (by nn) (by nn) (by nn)
  have th := Rr.mul R 7.2 11.48 D (Rr.add R 5.1 657.3 (Rr.cst R 51.2 (M := 51.2) (by nn) (by nn) (by nn)) (Rr.mul R 4.01 606 (Rr.cst R 20.2 (M := 20.2) (by nn) (by nn) (by nn)) ht (by nn) (by nn) (by nn) (by nn) (by nn)) (by nn) (by nn) (by nn) (by nn) (by nn)) (by nn) (by nn) (by nn) (by nn) (by nn)
  have wa := Rr.sin hL 85 th (by nn) (by nn)
  have dwa := Rr.mul R 90 0.36 (Rr.mul R 3.1 0.3527 D (Rr.cst R 20.2 (M := 20.2) (by nn) (by nn) (by nn)) (by nn) (by nn) (by nn) (by nn) (by nn)) (Rr.cos hL 85 th (by nn) (by nn)) (by nn) (by nn) (by nn) (by nn) (by nn)
  have pe2 := Rr.cst R (-0.0091731) (M := 0.0091731) (by nn) (by nn) (by nn)
  have pe1 := Rr.cst R 132.870 (M := 132.87) (by nn) (by nn) (by nn)
  have th2 := Rr.mul R 8.2 76 D (Rr.add R 6.1 4344 (Rr.cst R 346.560 (M := 346.56) (by nn) (by nn) (by nn)) (Rr.mul R 5.05 3997 (Rr.add R 2.02 133.2 pe1 (Rr.mul R 4.01 0.2753 pe2 ht (by nn) (by nn) (by nn) (by nn) (by nn)) (by nn) (by nn) (by nn) (by nn) (by nn)) ht (by nn) (by nn) (by nn) (by nn) (by nn)) (by nn) (by nn) (by nn) (by nn) (by nn)) (by nn) (by nn) (by nn) (by nn) (by nn)
  have pec := Rr.cst R 0.003964 (M := 0.003964) (by nn) (by nn) (by nn)
  have wb := Rr.mul R 630 0.003964 pec (Rr.sin hL 626 th2 (by nn) (by nn)) (by nn) (by nn) (by nn) (by nn) (by nn)
  have two := Rr.exact (X := 2) (M := 2) (by nn) (by nn) (by nn)
  have dwb := Rr.mul R 640 0.0093 (Rr.mul R 6.2 0.0093 (Rr.mul R 3.1 0.0000693 D pec (by nn) (by nn) (by nn) (by nn) (by nn)) (Rr.add R 2.05 133.5 pe1 (Rr.mul R 5.05 0.5504 (Rr.mul R 2.01 0.0183462 two pe2 (by nn) (by nn) (by nn) (by nn) (by nn)) ht (by nn) (by nn) (by nn) (by nn) (by nn)) (by nn) (by nn) (by nn) (by nn) (by nn)) (by nn) (by nn) (by nn) (by nn) (by nn)) (Rr.cos hL 626 th2 (by nn) (by nn)) (by nn) (by nn) (by nn) (by nn) (by nn)
  have per := fun (c e : ℝ) (hc : |c| ≤ 0.0025) (he : |e| ≤ 0.003) => Rr.mul R 5000 0.0002 D (Rr.add R 4900 0.0096 (Rr.add R 800 0.0065 (Rr.mul R 90 0.0025 (Rr.cst R c (M := 0.0025) hc (by nn) (by nn)) wa (by nn) (by nn) (by nn) (by nn) (by nn)) wb (by nn) (by nn) (by nn) (by nn) (by nn)) (Rr.mul R 6320 0.003 (Rr.cst R e (M := 0.003) he (by nn) (by nn)) so (by nn) (by nn) (by nn) (by nn) (by nn)) (by nn) (by nn) (by nn) (by nn) (by nn)) (by nn) (by nn) (by nn) (by nn) (by nn)
  have dper := fun (c e : ℝ) (hc : |c| ≤ 0.0025) (he : |e| ≤ 0.003) => Rr.mul R 7000 0.002 D (Rr.add R 6900 0.113 (Rr.add R 800 0.0103 (Rr.mul R 100 0.0009 (Rr.cst R c (M := 0.0025) hc (by nn) (by nn)) dwa (by nn) (by nn) (by nn) (by nn) (by nn)) dwb (by nn) (by nn) (by nn) (by nn) (by nn)) (Rr.mul R 6330 0.1016 (Rr.cst R e (M := 0.003) he (by nn) (by nn)) domcom (by nn) (by nn) (by nn) (by nn) (by nn)) (by nn) (by nn) (by nn) (by nn) (by nn)) (by nn) (by nn) (by nn) (by nn) (by nn)
  have pb := Rr.mul R 3.1 0.0000311 D (Rr.cst R (-0.001778) (M := 0.001778) (by nn) (by nn) (by nn)) (by nn) (by nn) (by nn) (by nn) (by nn)
  have ELP := Rr.add R 2.421e5 6.311 elp (per 0.000233 0.001964 (by nn) (by nn)) (by nn) (by nn) (by nn) (by nn) (by nn)
  have DELP := Rr.add R 5.2 8413 delp (dper 0.000233 0.001964 (by nn) (by nn)) (by nn) (by nn) (by nn) (by nn) (by nn)
  have EM := Rr.add R 2.421e5 6.33 em (Rr.mul R 90 0.0000311 pb wa (by nn) (by nn) (by nn) (by nn) (by nn)) (by nn) (by nn) (by nn) (by nn) (by nn)
  have DEM := Rr.add R 5.2 8450 dem (Rr.mul R 100 0.0000113 pb dwa (by nn) (by nn) (by nn) (by nn) (by nn)) (by nn) (by nn) (by nn) (by nn) (by nn)
  have EMP := Rr.add R 2.421e5 6.33 emp (per 0.000817 0.002541 (by nn) (by nn)) (by nn) (by nn) (by nn) (by nn) (by nn)
  have DEMP := Rr.add R 5.2 8450 demp (dper 0.000817 0.002541 (by nn) (by nn)) (by nn) (by nn) (by nn) (by nn) (by nn)
  have DD := Rr.add R 2.421e5 6.33 d (per 0.002011 0.001964 (by nn) (by nn)) (by nn) (by nn) (by nn) (by nn) (by nn)
  have DDD := Rr.add R 5.2 8450 dd (dper 0.002011 0.001964 (by nn) (by nn)) (by nn) (by nn) (by nn) (by nn) (by nn)
  have pj1 := Rr.cst R (-2.30) (M := 2.3) (by nn) (by nn) (by nn)
  have WOM := Rr.add R 520 12.4 om (Rr.mul R 7.2 6.01 D (Rr.add R 5.1 344.1 (Rr.cst R 275.05 (M := 275.05) (by nn) (by nn) (by nn)) (Rr.mul R 4.01 69 pj1 ht (by nn) (by nn) (by nn) (by nn) (by nn)) (by nn) (by nn) (by nn) (by nn) (by nn)) (by nn) (by nn) (by nn) (by nn) (by nn)) (by nn) (by nn) (by nn) (by nn) (by nn)
  have DWOM := Rr.add R 5.2 33.9 dom (Rr.mul R 3.1 0.0402 D pj1 (by nn) (by nn) (by nn) (by nn) (by nn)) (by nn) (by nn) (by nn) (by nn) (by nn)
  rw [add_right_comm] at WOM
  have sw := Rr.sin hL 6452 WOM (by nn) (by nn)
  have cw := Rr.cos hL 6452 WOM (by nn) (by nn)
  rw [sin_turn] at sw
  rw [cos_turn] at cw
  have pic := Rr.cst R (-0.024691) (M := 0.024691) (by nn) (by nn) (by nn)
  have pjc := Rr.cst R (-0.004328) (M := 0.004328) (by nn) (by nn) (by nn)
  have FF := Rr.add R 2.421e5 6.33 f (Rr.mul R 6500 0.00058 D (Rr.add R 6400 0.033 (Rr.add R 6321 0.02866 wb (Rr.mul R 6320 0.024691 pic so (by nn) (by nn) (by nn) (by nn) (by nn)) (by nn) (by nn) (by nn) (by nn) (by nn)) (Rr.mul R 6460 0.004328 pjc sw (by nn) (by nn) (by nn) (by nn) (by nn)) (by nn) (by nn) (by nn) (by nn) (by nn)) (by nn) (by nn) (by nn) (by nn) (by nn)) (by nn) (by nn) (by nn) (by nn) (by nn)
  have DF := Rr.add R 5.2 8450 df (Rr.mul R 6600 0.0174 D (Rr.add R 6500 0.993 (Rr.add R 6328 0.8452 dwb (Rr.mul R 6326 0.8359 pic domcom (by nn) (by nn) (by nn) (by nn) (by nn)) (by nn) (by nn) (by nn) (by nn) (by nn)) (Rr.mul R 6470 0.1468 (Rr.mul R 7.3 0.1468 pjc DWOM (by nn) (by nn) (by nn) (by nn) (by nn)) cw (by nn) (by nn) (by nn) (by nn) (by nn)) (by nn) (by nn) (by nn) (by nn) (by nn)) (by nn) (by nn) (by nn) (by nn) (by nn)) (by nn) (by nn) (by nn) (by nn) (by nn)
  have e1 := Rr.cst R (-0.002495) (M := 0.002495) (by nn) (by nn) (by nn)
  have e2 := Rr.cst R (-0.00000752) (M := 0.00000752) (by nn) (by nn) (by nn)
  have E := Rr.add R 1.5 1.09 (Rr.exact (X := 1) (M := 1) (by nn) (by nn) (by nn)) (Rr.mul R 5.4 0.082 (Rr.add R 2.3 0.002721 e1 (Rr.mul R 4.01 0.0002256 e2 ht (by nn) (by nn) (by nn) (by nn) (by nn)) (by nn) (by nn) (by nn) (by nn) (by nn)) ht (by nn) (by nn) (by nn) (by nn) (by nn)) (by nn) (by nn) (by nn) (by nn) (by nn)
  have DE := Rr.add R 3 0.00296 e1 (Rr.mul R 5.05 0.0004512 (Rr.mul R 2.01 0.00001504 two e2 (by nn) (by nn) (by nn) (by nn) (by nn)) ht (by nn) (by nn) (by nn) (by nn) (by nn)) (by nn) (by nn) (by nn) (by nn) (by nn)
  refine ⟨{ moonArgs T with elp := (moonArgs T).elp + n1 * (2 * π), em := (moonArgs T).em + n2 * (2 * π), emp := (moonArgs T).emp + n3 * (2 * π), d := (moonArgs T).d + n4 * (2 * π), f := (moonArgs T).f + n5 * (2 * π), om := (moonArgs T).om + n6 * (2 * π), wom := (moonArgs T).wom + n6 * (2 * π) }, ?_, ?_⟩
  · exact ⟨⟨_, rfl⟩, ⟨_, rfl⟩, ⟨_, rfl⟩, ⟨_, rfl⟩, ⟨_, rfl⟩, ⟨_, rfl⟩, ⟨_, rfl⟩, rfl, rfl, rfl, rfl, rfl, rfl, rfl, rfl, rfl⟩
  · rw [add_right_comm] at ELP EM EMP DD FF
    exact ⟨ELP, DELP, EM, DEM, EMP, DEMP, DD, DDD, FF, DF, om.weak 1000 6.304 (by nn) (by nn) (by nn) (by nn), dom.weak 4.1 33.85 (by nn) (by nn) (by nn) (by nn), WOM, DWOM, E, DE⟩

/-- The bounds that every term of the three series satisfies. -/
def TermOK (x : ℝ × ℤ × ℤ × ℤ × ℤ × ℕ) : Prop := 1e-6 ≤ |x.1| ∧ |x.1| ≤ 10 ∧ |(x.2.1 : ℝ)| + |(x.2.2.1 : ℝ)| + |(x.2.2.2.1 : ℝ)| + |(x.2.2.2.2.1 : ℝ)| ≤ 7 ∧ x.2.2.2.2.2 ≤ 2

/-- The number of arguments in a term. -/
noncomputable def termS (x : ℝ × ℤ × ℤ × ℤ × ℤ × ℕ) : ℝ := |(x.2.1 : ℝ)| + |(x.2.2.1 : ℝ)| + |(x.2.2.2.1 : ℝ)| + |(x.2.2.2.2.1 : ℝ)|

/-- Sums over a series of the coefficients times powers of the number of arguments. -/
noncomputable def termW (j : ℕ) : List (ℝ × ℤ × ℤ × ℤ × ℤ × ℕ) → ℝ
  | [] => 0
  | x :: l => termW j l + |x.1| * 1.09 ^ x.2.2.2.2.2 * termS x ^ j

theorem rr_int (m : ℤ) (h : |(m : ℝ)| ≤ 7) : Rr 0 (|(m : ℝ)| + 1e-6) m m := Rr.exact (by linarith) (by linarith [abs_nonneg (m : ℝ)]) (by linarith)

/-- A combination of four quantities of the same size with integer coefficients. -/
theorem rr_comb (R : Rounding fl) {k M a b c d A B C D : ℝ} (k' : ℝ) (hk : 1.00001 * k + 4 ≤ k') (hk' : k' ≤ 1e9) (hM : 1 ≤ M) (hM' : M ≤ 1e6) (ha : Rr k M a A) (hb : Rr k M b B) (hc : Rr k M c C) (hd : Rr k M d D)
    (m n p q : ℤ) (hS : |(m : ℝ)| + |(n : ℝ)| + |(p : ℝ)| + |(q : ℝ)| ≤ 7) :
    Rr k' (M * (|(m : ℝ)| + |(n : ℝ)| + |(p : ℝ)| + |(q : ℝ)| + 4e-6)) (fl (fl (fl (fl (m * a) + fl (n * b)) + fl (p * c)) + fl (q * d))) (m * A + n * B + p * C + q * D) := by
  have m0 := abs_nonneg (m : ℝ)
  have n0 := abs_nonneg (n : ℝ)
  have p0 := abs_nonneg (p : ℝ)
  have q0 := abs_nonneg (q : ℝ)
  have k0 := ha.k0
  have sz : ∀ z : ℝ, 0 ≤ z → z ≤ 8 → M * (z + 1e-6) ≤ 1e28 := fun z h0 h7 => by nlinarith only [h0, h7, hM, hM']
  have lo : ∀ z : ℝ, 0 ≤ z → 1e-60 ≤ M * (z + 1e-6) := fun z h0 => by
    have : 1 * 1e-6 ≤ M * (z + 1e-6) := mul_le_mul hM (by linarith) (by norm_num) (by linarith)
    linarith
  have one : ∀ (i : ℤ) {x X : ℝ}, |(i : ℝ)| ≤ 7 → Rr k M x X → Rr (k' - 3) (M * (|(i : ℝ)| + 1e-6)) (fl (i * x)) (i * X) := fun i x X hi h =>
    Rr.mul R (k' - 3) _ (rr_int i hi) h (by linarith) (by linarith) (by rw [mul_comm]) (lo _ (abs_nonneg _)) (sz _ (abs_nonneg _) (by linarith))
  have a1 := one m (by linarith) ha
  have b1 := one n (by linarith) hb
  have c1 := one p (by linarith) hc
  have d1 := one q (by linarith) hd
  have s1 := Rr.add R (k' - 2) (M * (|(m : ℝ)| + |(n : ℝ)| + 2e-6)) a1 b1 (le_of_eq (by ring)) (by linarith) (by linarith) (le_of_eq (by ring)) (by have := sz (|(m : ℝ)| + |(n : ℝ)| + 1e-6) (by linarith) (by linarith); linarith)
  have s2 := Rr.add R (k' - 1) (M * (|(m : ℝ)| + |(n : ℝ)| + |(p : ℝ)| + 3e-6)) s1 c1 (by nlinarith only [m0, n0, p0, hM, hk, k0]) (by linarith) (by linarith) (le_of_eq (by ring)) (by have := sz (|(m : ℝ)| + |(n : ℝ)| + |(p : ℝ)| + 2e-6) (by linarith) (by linarith); linarith)
  exact Rr.add R k' _ s2 d1 (by nlinarith only [m0, n0, p0, q0, hM, hk, k0]) (by linarith) (by linarith) (le_of_eq (by ring)) (by have := sz (|(m : ℝ)| + |(n : ℝ)| + |(p : ℝ)| + |(q : ℝ)| + 3e-6) (by linarith) (by linarith); linarith)

theorem rr_E (R : Rounding fl) {a b : MoonArgs} (h : ArgsRr a b) {i : ℕ} (hi : i ≤ 2) : Rr 5 (1.09 ^ i) (flMoonE fl a i).1 (moonE b i).1 ∧ Rr 10 0.0066 (flMoonE fl a i).2 (moonE b i).2 := by
  have two := Rr.exact (X := 2) (M := 2) (by nn) (by nn) (by nn)
  unfold flMoonE moonE
  have : i = 0 ∨ i = 1 ∨ i = 2 := by omega
  rcases this with rfl | rfl | rfl
  · simp only [if_true, pow_zero]
    exact ⟨(Rr.exact (X := 1) (M := 1) (by nn) (by nn) (by nn)).weak 5 1 (by nn) (by nn) (by nn) (by nn), (Rr.exact (X := 0) (M := 0.0066) (by nn) (by nn) (by nn)).weak 10 0.0066 (by nn) (by nn) (by nn) (by nn)⟩
  · simp only [one_ne_zero, if_false, if_true, pow_one]
    exact ⟨h.e.weak 5 1.09 (by nn) (by nn) (by nn) (by nn), h.de.weak 10 0.0066 (by nn) (by nn) (by nn) (by nn)⟩
  · simp only [OfNat.ofNat_ne_zero, if_false, OfNat.ofNat_ne_one]
    exact ⟨Rr.mul R 5 _ h.e h.e (by nn) (by nn) (by nn) (by nn) (by nn), Rr.mul R 10 0.0066 (Rr.mul R 2.6 2.18 two h.e (by nn) (by nn) (by nn) (by nn) (by nn)) h.de (by nn) (by nn) (by nn) (by nn) (by nn)⟩

/-- A term of a series, and of its derivative; `f` is the sine (or the cosine) of the argument and `g` the cosine (or minus the sine). -/
theorem rr_term (R : Rounding fl) {a b : MoonArgs} (h : ArgsRr a b) (x : ℝ × ℤ × ℤ × ℤ × ℤ × ℕ) (hx : TermOK x) {f g F G : ℝ} (hf : Rr (1.5327e6 * termS x + 9) 1 f F) (hg : Rr (1.5327e6 * termS x + 9) 1 g G) :
    Rr (1.5328e6 * termS x + 18) (|x.1| * 1.09 ^ x.2.2.2.2.2) (fl (fl (fl x.1 * f) * (flMoonE fl a x.2.2.2.2.2).1)) (x.1 * F * (moonE b x.2.2.2.2.2).1) ∧
    Rr (1.5328e6 * termS x + 35) (8450 * (|x.1| * 1.09 ^ x.2.2.2.2.2 * (termS x + 5e-6)))
      (fl (fl x.1 * fl (fl (fl (g * (flMoonTheta fl a x.2.1 x.2.2.1 x.2.2.2.1 x.2.2.2.2.1).2) * (flMoonE fl a x.2.2.2.2.2).1) + fl (f * (flMoonE fl a x.2.2.2.2.2).2))))
      (x.1 * (G * (moonTheta b x.2.1 x.2.2.1 x.2.2.2.1 x.2.2.2.2.1).2 * (moonE b x.2.2.2.2.2).1 + F * (moonE b x.2.2.2.2.2).2)) := by
  obtain ⟨c, m, n, p, q, i⟩ := x
  obtain ⟨hc, hc', hS, hi⟩ := hx
  obtain ⟨en, den⟩ := rr_E R h hi
  have th2 := rr_comb R 9.3 (by nn) (by nn) (by nn) (by nn) h.dem h.demp h.dd h.df m n p q hS
  unfold flMoonTheta moonTheta
  dsimp only at *
  have eS : |(m : ℝ)| + |(n : ℝ)| + |(p : ℝ)| + |(q : ℝ)| = termS (c, m, n, p, q, i) := rfl
  rw [eS] at th2 hS
  have S0 : 0 ≤ termS (c, m, n, p, q, i) := by unfold termS; positivity
  generalize termS (c, m, n, p, q, i) = S at *
  have E1 : (1 : ℝ) ≤ 1.09 ^ i := one_le_pow₀ (by norm_num)
  have E2 : (1.09 : ℝ) ^ i ≤ 1.2 := (pow_le_pow_right₀ (by norm_num) hi).trans (by norm_num)
  generalize (1.09 : ℝ) ^ i = E at *
  have cc := Rr.cst R c (M := |c|) le_rfl (by linarith) (by linarith)
  have c0 : 0 < |c| := by linarith
  have cE : 0 < |c| * E := by positivity
  have cE1 : |c| * E ≤ 12 := by nlinarith only [c0, hc', E1, E2]
  have cE0 : 1e-6 ≤ |c| * E := by nlinarith only [c0, hc, E1, E2]
  constructor
  · have t1 := Rr.mul R (1.53275e6 * S + 11.1) |c| cc hf (by linarith) (by linarith) (by linarith) (by linarith) (by linarith)
    exact Rr.mul R _ _ t1 en (by linarith) (by linarith) le_rfl (by linarith) (by linarith)
  · have s0 : 4e-6 ≤ S + 4e-6 := by linarith
    have s1 : S + 4e-6 ≤ 8 := by linarith
    have t1 := Rr.mul R (1.53272e6 * S + 19.4) (8450 * (S + 4e-6)) hg th2 (by linarith) (by linarith) (by linarith) (by linarith) (by linarith)
    have ES0 : S + 4e-6 ≤ (S + 4e-6) * E := by nlinarith only [s0, E1]
    have ES1 : (S + 4e-6) * E ≤ 10 := by nlinarith only [s0, s1, E1, E2]
    have t2 := Rr.mul R (1.53274e6 * S + 25.5) (8450 * ((S + 4e-6) * E)) t1 en (by linarith) (by linarith) (by linarith) (by linarith) (by linarith)
    have t3 := Rr.mul R (1.53274e6 * S + 25.5) 0.0066 hf den (by linarith) (by linarith) (by linarith) (by linarith) (by linarith)
    have t4 := Rr.add R (1.53274e6 * S + 26.5) (8450 * ((S + 5e-6) * E)) t2 t3 (by nlinarith only [S0, E1, ES0]) (by linarith) (by linarith) (by linarith) (by linarith)
    have z : |c| * ((S + 5e-6) * E) = |c| * E * (S + 5e-6) := by ring
    have z0 : 1e-12 ≤ |c| * E * (S + 5e-6) := by nlinarith only [cE0, S0]
    have z1 : |c| * E * (S + 5e-6) ≤ 100 := by nlinarith only [cE, cE1, S0, s1]
    exact Rr.mul R _ _ cc t4 (by linarith) (by linarith) (by linarith) (by linarith) (by linarith)

end Pal.Moon
