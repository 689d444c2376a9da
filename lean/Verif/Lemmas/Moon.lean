import Verif.Model.Moon
import Verif.Spec.Moon
import Mathlib.Analysis.SpecialFunctions.Trigonometric.Deriv
import Mathlib.Tactic.LinearCombination

/-!
# Lemmas for the Moon: the arguments without `fmod`, and derivatives
-/

namespace Pal.Moon
open Pal Pal.Spec Real

/-- The model's arguments with the angles not reduced. -/
noncomputable def smooth (t : ℝ) : MoonArgs where
  elp := moonMeanLong t * (π / 180)
  delp := (moonArgs t).delp
  em := sunAnomaly t * (π / 180)
  dem := (moonArgs t).dem
  emp := moonAnomaly t * (π / 180)
  demp := (moonArgs t).demp
  d := moonElongation t * (π / 180)
  dd := (moonArgs t).dd
  f := moonLatArg t * (π / 180)
  df := (moonArgs t).df
  om := moonNode t * (π / 180)
  dom := (moonArgs t).dom
  wom := moonC t * (π / 180)
  dwom := (moonArgs t).dwom
  e := moonEcc t
  de := (moonArgs t).de

theorem moonArg_eq (a0 a1 a2 a3 t : ℝ) : ∃ k : ℤ, moonArg a0 a1 a2 a3 t = (a0 + a1 * t + a2 * t ^ 2 + a3 * t ^ 3) * (π / 180) + k * (2 * π) := by
  refine ⟨-truncR ((a0 + (a1 + (a2 + a3 * t) * t) * t) / 360), ?_⟩
  unfold moonArg fmod dd2r
  push_cast
  ring

theorem sin_turn (x : ℝ) (k : ℤ) : sin (x + k * (2 * π)) = sin x := sin_add_int_mul_two_pi x k
theorem cos_turn (x : ℝ) (k : ℤ) : cos (x + k * (2 * π)) = cos x := cos_add_int_mul_two_pi x k

/-- Two sets of arguments that differ by whole turns. -/
structure Turn (a b : MoonArgs) : Prop where
  elp : ∃ k : ℤ, a.elp = b.elp + k * (2 * π)
  em : ∃ k : ℤ, a.em = b.em + k * (2 * π)
  emp : ∃ k : ℤ, a.emp = b.emp + k * (2 * π)
  d : ∃ k : ℤ, a.d = b.d + k * (2 * π)
  f : ∃ k : ℤ, a.f = b.f + k * (2 * π)
  om : ∃ k : ℤ, a.om = b.om + k * (2 * π)
  wom : ∃ k : ℤ, a.wom = b.wom + k * (2 * π)
  delp : a.delp = b.delp
  dem : a.dem = b.dem
  demp : a.demp = b.demp
  dd : a.dd = b.dd
  df : a.df = b.df
  dom : a.dom = b.dom
  dwom : a.dwom = b.dwom
  e : a.e = b.e
  de : a.de = b.de

theorem turn_smooth (t : ℝ) : Turn (moonArgs t) (smooth t) := by
  obtain ⟨k6, h6⟩ := moonArg_eq 259.183275 (-1934.1420) 0.002078 0.0000022 t
  have hom : moonArg 259.183275 (-1934.1420) 0.002078 0.0000022 t = moonNode t * (π / 180) + k6 * (2 * π) := by
    rw [h6]; unfold moonNode; ring
  have hso : sin (moonArg 259.183275 (-1934.1420) 0.002078 0.0000022 t) = sinDeg (moonNode t) := by rw [hom, sin_turn]; rfl
  have hco : cos (moonArg 259.183275 (-1934.1420) 0.002078 0.0000022 t) = cosDeg (moonNode t) := by rw [hom, cos_turn]; rfl
  have hwom : moonArg 259.183275 (-1934.1420) 0.002078 0.0000022 t + dd2r * (275.05 + -2.30 * t) = moonC t * (π / 180) + k6 * (2 * π) := by
    rw [hom]; unfold moonC dd2r; ring
  have hsw : sin (moonArg 259.183275 (-1934.1420) 0.002078 0.0000022 t + dd2r * (275.05 + -2.30 * t)) = sinDeg (moonC t) := by rw [hwom, sin_turn]; rfl
  have ha : sin (dd2r * (51.2 + 20.2 * t)) = moonA t := by unfold moonA sinDeg dd2r; rw [mul_comm]
  have hb : 0.003964 * sin (dd2r * (346.560 + (132.870 + -0.0091731 * t) * t)) = moonB t := by
    unfold moonB sinDeg dd2r; congr 2; ring
  constructor
  · obtain ⟨k, h⟩ := moonArg_eq 270.434164 481267.8831 (-0.001133) 0.0000019 t
    refine ⟨k, ?_⟩
    simp only [moonArgs, smooth, hso, ha, hb]
    rw [h]; unfold moonMeanLong dd2r; ring
  · obtain ⟨k, h⟩ := moonArg_eq 358.475833 35999.0498 (-0.000150) (-0.0000033) t
    refine ⟨k, ?_⟩
    simp only [moonArgs, smooth, ha]
    rw [h]; unfold sunAnomaly dd2r; ring
  · obtain ⟨k, h⟩ := moonArg_eq 296.104608 477198.8491 0.009192 0.0000144 t
    refine ⟨k, ?_⟩
    simp only [moonArgs, smooth, hso, ha, hb]
    rw [h]; unfold moonAnomaly dd2r; ring
  · obtain ⟨k, h⟩ := moonArg_eq 350.737486 445267.1142 (-0.001436) 0.0000019 t
    refine ⟨k, ?_⟩
    simp only [moonArgs, smooth, hso, ha, hb]
    rw [h]; unfold moonElongation dd2r; ring
  · obtain ⟨k, h⟩ := moonArg_eq 11.250889 483202.0251 (-0.003211) (-0.0000003) t
    refine ⟨k, ?_⟩
    simp only [moonArgs, smooth, hso, hsw, hb]
    rw [h]; unfold moonLatArg dd2r; ring
  · exact ⟨k6, hom⟩
  · exact ⟨k6, hwom⟩
  all_goals try rfl
  · simp only [moonArgs, smooth]; unfold moonEcc; ring

theorem moonTheta_turn {a b : MoonArgs} (h : Turn a b) (m m' d f : ℤ) :
    ∃ k : ℤ, (moonTheta a m m' d f).1 = (moonTheta b m m' d f).1 + k * (2 * π) ∧ (moonTheta a m m' d f).2 = (moonTheta b m m' d f).2 := by
  obtain ⟨k1, h1⟩ := h.em
  obtain ⟨k2, h2⟩ := h.emp
  obtain ⟨k3, h3⟩ := h.d
  obtain ⟨k4, h4⟩ := h.f
  refine ⟨m * k1 + m' * k2 + d * k3 + f * k4, ?_, ?_⟩
  · simp only [moonTheta, h1, h2, h3, h4]; push_cast; ring
  · simp only [moonTheta, h.dem, h.demp, h.dd, h.df]

theorem moonE_turn {a b : MoonArgs} (h : Turn a b) (i : ℕ) : moonE a i = moonE b i := by
  simp only [moonE, h.e, h.de]

theorem moonSin_turn {a b : MoonArgs} (h : Turn a b) (L : List (ℝ × ℤ × ℤ × ℤ × ℤ × ℕ)) : moonSin a L = moonSin b L := by
  induction L with
  | nil => rfl
  | cons x L ih =>
    obtain ⟨c, m, m', d, f, i⟩ := x
    obtain ⟨k, h1, h2⟩ := moonTheta_turn h m m' d f
    simp only [moonSin, ih, moonE_turn h, h1, h2, sin_turn, cos_turn]

theorem moonCos_turn {a b : MoonArgs} (h : Turn a b) (L : List (ℝ × ℤ × ℤ × ℤ × ℤ × ℕ)) : moonCos a L = moonCos b L := by
  induction L with
  | nil => rfl
  | cons x L ih =>
    obtain ⟨c, m, m', d, f, i⟩ := x
    obtain ⟨k, h1, h2⟩ := moonTheta_turn h m m' d f
    simp only [moonCos, ih, moonE_turn h, h1, h2, sin_turn, cos_turn]

theorem moonEcl_turn {a b : MoonArgs} (h : Turn a b) : moonEcl a = moonEcl b := by
  obtain ⟨k1, h1⟩ := h.elp
  obtain ⟨k2, h2⟩ := h.om
  obtain ⟨k3, h3⟩ := h.wom
  have hs : sin (a.elp + dd2r * (moonSin b moonTL).1) = sin (b.elp + dd2r * (moonSin b moonTL).1) := by
    rw [h1, show b.elp + k1 * (2 * π) + dd2r * (moonSin b moonTL).1 = b.elp + dd2r * (moonSin b moonTL).1 + k1 * (2 * π) by ring, sin_turn]
  have hc : cos (a.elp + dd2r * (moonSin b moonTL).1) = cos (b.elp + dd2r * (moonSin b moonTL).1) := by
    rw [h1, show b.elp + k1 * (2 * π) + dd2r * (moonSin b moonTL).1 = b.elp + dd2r * (moonSin b moonTL).1 + k1 * (2 * π) by ring, cos_turn]
  simp only [moonEcl, moonSin_turn h, moonCos_turn h, hs, hc, h2, h3, sin_turn, cos_turn, h.delp, h.dom, h.dwom]

/-! ### The series of the specification -/

theorem longSeries_eq (e M M' D F : ℝ) (a : MoonArgs) (he : a.e = e) (h1 : a.em = M * (π / 180)) (h2 : a.emp = M' * (π / 180)) (h3 : a.d = D * (π / 180)) (h4 : a.f = F * (π / 180)) :
    (moonSin a moonTL).1 = moonLongSeries e M M' D F := by
  simp only [moonTL, moonSin, moonTheta, moonE, h1, h2, h3, h4, he, moonLongSeries, sinDeg]
  norm_num
  ring_nf

theorem latSeries_eq (e M M' D F : ℝ) (a : MoonArgs) (he : a.e = e) (h1 : a.em = M * (π / 180)) (h2 : a.emp = M' * (π / 180)) (h3 : a.d = D * (π / 180)) (h4 : a.f = F * (π / 180)) :
    (moonSin a moonTB).1 = moonLatSeries e M M' D F := by
  simp only [moonTB, moonSin, moonTheta, moonE, h1, h2, h3, h4, he, moonLatSeries, sinDeg]
  norm_num
  ring_nf

theorem parSeries_eq (e M M' D F : ℝ) (a : MoonArgs) (he : a.e = e) (h1 : a.em = M * (π / 180)) (h2 : a.emp = M' * (π / 180)) (h3 : a.d = D * (π / 180)) (h4 : a.f = F * (π / 180)) :
    (moonCos a moonTP).1 = moonParSeries e M M' D F := by
  simp only [moonTP, moonCos, moonTheta, moonE, h1, h2, h3, h4, he, moonParSeries, cosDeg]
  norm_num
  ring_nf

/-! ### Derivatives -/

theorem hd_cub (a0 a1 a2 a3 t : ℝ) : HasDerivAt (fun t : ℝ => (a0 + a1 * t + a2 * t ^ 2 + a3 * t ^ 3) * (π / 180)) (moonArgD a1 a2 a3 t) t := by
  have h := ((((hasDerivAt_const t a0).add ((hasDerivAt_id t).const_mul a1)).add (((hasDerivAt_id t).pow 2).const_mul a2)).add (((hasDerivAt_id t).pow 3).const_mul a3)).mul_const (π / 180)
  refine h.congr_deriv ?_
  simp [moonArgD, dd2r]
  ring

theorem hd_sinDeg {g : ℝ → ℝ} {g' t : ℝ} (h : HasDerivAt (fun t => g t * (π / 180)) g' t) : HasDerivAt (fun t => sinDeg (g t)) (g' * cos (g t * (π / 180))) t := by
  have := h.sin
  refine this.congr_deriv ?_
  ring

theorem hd_node (t : ℝ) : HasDerivAt (fun t => moonNode t * (π / 180)) (moonArgs t).dom t := by
  have h := hd_cub 259.183275 (-1934.1420) 0.002078 0.0000022 t
  refine h.congr_of_eventuallyEq (Filter.Eventually.of_forall fun x => ?_)
  simp only [moonNode]; ring

theorem hd_A (t : ℝ) : HasDerivAt moonA (dd2r * 20.2 * cos (dd2r * (51.2 + 20.2 * t))) t := by
  have h := hd_sinDeg (hd_cub 51.2 20.2 0 0 t)
  refine (h.congr_of_eventuallyEq (Filter.Eventually.of_forall fun x => ?_)).congr_deriv ?_
  · simp only [moonA]; congr 1; ring
  · simp only [moonArgD, dd2r]; ring_nf

theorem hd_B (t : ℝ) : HasDerivAt moonB (dd2r * 0.003964 * (132.870 + 2 * -0.0091731 * t) * cos (dd2r * (346.560 + (132.870 + -0.0091731 * t) * t))) t := by
  have h := (hd_sinDeg (hd_cub 346.560 132.870 (-0.0091731) 0 t)).const_mul 0.003964
  refine (h.congr_of_eventuallyEq (Filter.Eventually.of_forall fun x => ?_)).congr_deriv ?_
  · simp only [moonB]; congr 2; ring
  · simp only [moonArgD, dd2r]; ring_nf

theorem hd_sinNode (t : ℝ) : HasDerivAt (fun t => sinDeg (moonNode t)) ((moonArgs t).dom * cos (moonArg 259.183275 (-1934.1420) 0.002078 0.0000022 t)) t := by
  refine (hd_sinDeg (hd_node t)).congr_deriv ?_
  obtain ⟨k, h⟩ := (turn_smooth t).om
  have h' : moonArg 259.183275 (-1934.1420) 0.002078 0.0000022 t = moonNode t * (π / 180) + k * (2 * π) := h
  rw [h', cos_turn]

theorem hd_C (t : ℝ) : HasDerivAt (fun t => moonC t * (π / 180)) (moonArgs t).dwom t := by
  have h := (hd_node t).add (hd_cub 275.05 (-2.30) 0 0 t)
  refine (h.congr_of_eventuallyEq (Filter.Eventually.of_forall fun x => ?_)).congr_deriv ?_
  · simp only [moonC, Pi.add_apply]; ring
  · simp only [moonArgD, moonArgs]; ring

theorem hd_sinC (t : ℝ) :
    HasDerivAt (fun t => sinDeg (moonC t)) ((moonArgs t).dwom * cos (moonArg 259.183275 (-1934.1420) 0.002078 0.0000022 t + dd2r * (275.05 + -2.30 * t))) t := by
  refine (hd_sinDeg (hd_C t)).congr_deriv ?_
  obtain ⟨k, h⟩ := (turn_smooth t).wom
  have h' : moonArg 259.183275 (-1934.1420) 0.002078 0.0000022 t + dd2r * (275.05 + -2.30 * t) = moonC t * (π / 180) + k * (2 * π) := h
  rw [h', cos_turn]

theorem hd_elp (t : ℝ) : HasDerivAt (fun t => (smooth t).elp) (smooth t).delp t := by
  have h := (hd_cub 270.434164 481267.8831 (-0.001133) 0.0000019 t).add (((((hd_A t).const_mul 0.000233).add (hd_B t)).add ((hd_sinNode t).const_mul 0.001964)).mul_const (π / 180))
  refine (h.congr_of_eventuallyEq (Filter.Eventually.of_forall fun x => ?_)).congr_deriv ?_
  · simp only [smooth, moonMeanLong, Pi.add_apply]; ring
  · simp only [smooth, moonArgs, moonArgD, dd2r]; ring

theorem hd_em (t : ℝ) : HasDerivAt (fun t => (smooth t).em) (smooth t).dem t := by
  have h := (hd_cub 358.475833 35999.0498 (-0.000150) (-0.0000033) t).add (((hd_A t).const_mul (-0.001778)).mul_const (π / 180))
  refine (h.congr_of_eventuallyEq (Filter.Eventually.of_forall fun x => ?_)).congr_deriv ?_
  · simp only [smooth, sunAnomaly, Pi.add_apply]; ring
  · simp only [smooth, moonArgs, moonArgD, dd2r]; ring

theorem hd_emp (t : ℝ) : HasDerivAt (fun t => (smooth t).emp) (smooth t).demp t := by
  have h := (hd_cub 296.104608 477198.8491 0.009192 0.0000144 t).add (((((hd_A t).const_mul 0.000817).add (hd_B t)).add ((hd_sinNode t).const_mul 0.002541)).mul_const (π / 180))
  refine (h.congr_of_eventuallyEq (Filter.Eventually.of_forall fun x => ?_)).congr_deriv ?_
  · simp only [smooth, moonAnomaly, Pi.add_apply]; ring
  · simp only [smooth, moonArgs, moonArgD, dd2r]; ring

theorem hd_d (t : ℝ) : HasDerivAt (fun t => (smooth t).d) (smooth t).dd t := by
  have h := (hd_cub 350.737486 445267.1142 (-0.001436) 0.0000019 t).add (((((hd_A t).const_mul 0.002011).add (hd_B t)).add ((hd_sinNode t).const_mul 0.001964)).mul_const (π / 180))
  refine (h.congr_of_eventuallyEq (Filter.Eventually.of_forall fun x => ?_)).congr_deriv ?_
  · simp only [smooth, moonElongation, Pi.add_apply]; ring
  · simp only [smooth, moonArgs, moonArgD, dd2r]; ring

theorem hd_f (t : ℝ) : HasDerivAt (fun t => (smooth t).f) (smooth t).df t := by
  have h := (hd_cub 11.250889 483202.0251 (-0.003211) (-0.0000003) t).add ((((hd_B t).add ((hd_sinNode t).const_mul (-0.024691))).add ((hd_sinC t).const_mul (-0.004328))).mul_const (π / 180))
  refine (h.congr_of_eventuallyEq (Filter.Eventually.of_forall fun x => ?_)).congr_deriv ?_
  · simp only [smooth, moonLatArg, Pi.add_apply]; ring
  · simp only [smooth, moonArgs, moonArgD, dd2r]; ring

theorem hd_e (t : ℝ) : HasDerivAt (fun t => (smooth t).e) (smooth t).de t := by
  have h := ((hasDerivAt_const t (1 : ℝ)).add ((hasDerivAt_id t).const_mul (-0.002495))).add (((hasDerivAt_id t).pow 2).const_mul (-0.00000752))
  refine (h.congr_of_eventuallyEq (Filter.Eventually.of_forall fun x => ?_)).congr_deriv ?_
  · simp [smooth, moonEcc]; ring
  · simp [smooth, moonArgs]; ring

theorem hd_E (i : ℕ) (t : ℝ) : HasDerivAt (fun t => (moonE (smooth t) i).1) (moonE (smooth t) i).2 t := by
  unfold moonE
  by_cases h0 : i = 0
  · simp only [h0, if_true]
    exact hasDerivAt_const _ _
  by_cases h1 : i = 1
  · simp only [h1, if_true, one_ne_zero, if_false]
    exact hd_e t
  · simp only [h0, h1, if_false]
    refine ((hd_e t).mul (hd_e t)).congr_deriv ?_
    ring

theorem hd_theta (m m' d f : ℤ) (t : ℝ) : HasDerivAt (fun t => (moonTheta (smooth t) m m' d f).1) (moonTheta (smooth t) m m' d f).2 t :=
  ((((hd_em t).const_mul (m : ℝ)).add ((hd_emp t).const_mul (m' : ℝ))).add ((hd_d t).const_mul (d : ℝ))).add ((hd_f t).const_mul (f : ℝ))

theorem hd_moonSin (L : List (ℝ × ℤ × ℤ × ℤ × ℤ × ℕ)) (t : ℝ) : HasDerivAt (fun t => (moonSin (smooth t) L).1) (moonSin (smooth t) L).2 t := by
  induction L with
  | nil => exact hasDerivAt_const _ _
  | cons x L ih =>
    obtain ⟨c, m, m', d, f, i⟩ := x
    refine (ih.add ((((hd_theta m m' d f t).sin).const_mul c).mul (hd_E i t))).congr_deriv ?_
    simp only [moonSin]
    ring

theorem hd_moonCos (L : List (ℝ × ℤ × ℤ × ℤ × ℤ × ℕ)) (t : ℝ) : HasDerivAt (fun t => (moonCos (smooth t) L).1) (moonCos (smooth t) L).2 t := by
  induction L with
  | nil => exact hasDerivAt_const _ _
  | cons x L ih =>
    obtain ⟨c, m, m', d, f, i⟩ := x
    refine (ih.add ((((hd_theta m m' d f t).cos).const_mul c).mul (hd_E i t))).congr_deriv ?_
    simp only [moonCos]
    ring

/-- The model's ecliptic position is the specification's. -/
theorem moonEcl_place (date : ℝ) : (moonEcl (moonArgs ((date - 15019.5) / 36525))).p = moonPlace date := by
  rw [moonEcl_turn (turn_smooth _)]
  unfold moonPlace
  dsimp only
  generalize (date - 15019.5) / 36525 = t
  have e1 : (smooth t).elp + dd2r * (moonSin (smooth t) moonTL).1 = moonLong t * (π / 180) := by
    rw [longSeries_eq _ _ _ _ _ (smooth t) rfl rfl rfl rfl rfl]
    simp only [smooth, moonLong, dd2r]; ring
  have e2 : dd2r * (moonSin (smooth t) moonTB).1 * (1 - 0.0004664 * cos (smooth t).om - 0.0000754 * cos (smooth t).wom) = moonLat t * (π / 180) := by
    rw [latSeries_eq _ _ _ _ _ (smooth t) rfl rfl rfl rfl rfl]
    simp only [smooth, moonLat, dd2r, cosDeg]; ring
  have e3 : dd2r * (moonCos (smooth t) moonTP).1 = moonPar t * (π / 180) := by
    rw [parSeries_eq _ _ _ _ _ (smooth t) rfl rfl rfl rfl rfl]
    simp only [smooth, moonPar, dd2r]; ring
  simp only [moonEcl, e1, e2, e3]
  simp only [sinDeg, cosDeg, mul_assoc]

/-- The model's ecliptic velocity, times the seconds in a century, is the derivative of its position with respect to the time in centuries. -/
theorem hd_moonEcl (t : ℝ) (hp : sin (dd2r * (moonCos (smooth t) moonTP).1) ≠ 0) (i : Fin 3) :
    HasDerivAt (fun t => (moonEcl (smooth t)).p i) ((moonEcl (smooth t)).v i * 3155760000) t := by
  have hl := (hd_elp t).add ((hd_moonSin moonTL t).const_mul dd2r)
  have hbf : HasDerivAt (fun t => 1 - 0.0004664 * cos (smooth t).om - 0.0000754 * cos (smooth t).wom)
      (0.0004664 * (smooth t).dom * sin (smooth t).om + 0.0000754 * (smooth t).dwom * sin (smooth t).wom) t := by
    refine (((hasDerivAt_const t (1 : ℝ)).sub (((show HasDerivAt (fun t => (smooth t).om) (smooth t).dom t from hd_node t).cos).const_mul 0.0004664)).sub
      (((show HasDerivAt (fun t => (smooth t).wom) (smooth t).dwom t from hd_C t).cos).const_mul 0.0000754)).congr_deriv ?_
    ring
  have hb := ((hd_moonSin moonTB t).const_mul dd2r).mul hbf
  have hpd := (hd_moonCos moonTP t).const_mul dd2r
  have hr := (hasDerivAt_const t (4.2635212653763e-5 : ℝ)).div hpd.sin hp
  have hlc := hl.cos
  have hls := hl.sin
  have hbc := hb.cos
  have hbs := hb.sin
  fin_cases i
  · refine ((hr.mul hbc).mul hlc).congr_deriv ?_
    simp [moonEcl]
    field_simp
    ring
  · refine ((hr.mul hbc).mul hls).congr_deriv ?_
    simp [moonEcl]
    field_simp
    ring
  · refine (hr.mul hbs).congr_deriv ?_
    simp [moonEcl]
    field_simp
    ring

end Pal.Moon
