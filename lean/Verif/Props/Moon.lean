import Verif.Lemmas.Moon
import Verif.Lemmas.Map
import Verif.Spec.Sphere
import Mathlib.Analysis.Real.Pi.Bounds
import Mathlib.Analysis.SpecialFunctions.Trigonometric.Bounds

/-!
# Properties C87, C88: the Moon
-/

namespace Pal.Props
open Pal Pal.Spec Pal.Moon Real Matrix

/-- Mean obliquity (IAU 1976, radians) and Fricke's equinox correction (radians) at the Modified Julian Date `d`. -/
noncomputable def obliquity76 (d : ℝ) : ℝ :=
  (84381.448 - 46.8150 * ((d - 51544.5) / 36525) - 0.00059 * ((d - 51544.5) / 36525) ^ 2 + 0.001813 * ((d - 51544.5) / 36525) ^ 3) * (π / 648000)
@[inherit_doc obliquity76] noncomputable def equinoxShift (d : ℝ) : ℝ := (0.035 + 0.00085 * ((d - 51544.5) / 365.25 + 2000 - 1949.9997904423)) * (2 * π / 86400)

/-- From the ecliptic to the equator of date: a turn about x by minus the obliquity, then the (first-order) shift of the equinox. -/
noncomputable def moonFrame (d : ℝ) : Matrix (Fin 3) (Fin 3) ℝ :=
  !![1, -equinoxShift d, 0; equinoxShift d, 1, 0; 0, 0, 1] * axisX (-obliquity76 d)

theorem frame_apply (d : ℝ) (v : Fin 3 → ℝ) : moonFrame d *ᵥ v =
    ![v 0 - equinoxShift d * cos (obliquity76 d) * v 1 + equinoxShift d * sin (obliquity76 d) * v 2,
      equinoxShift d * v 0 + v 1 * cos (obliquity76 d) - v 2 * sin (obliquity76 d), v 1 * sin (obliquity76 d) + v 2 * cos (obliquity76 d)] := by
  ext i
  fin_cases i <;> simp [moonFrame, axisX, Matrix.mulVec, dotProduct, Matrix.mul_apply, Fin.sum_univ_three] <;> ring

theorem dmoon_frame (d : ℝ) : (palDmoon d).p = moonFrame d *ᵥ (moonEcl (moonArgs ((d - 15019.5) / 36525))).p ∧
    (palDmoon d).v = moonFrame d *ᵥ (moonEcl (moonArgs ((d - 15019.5) / 36525))).v := by
  have h1 : das2r * (84381.448 + (-46.8150 + (-0.00059 + 0.001813 * ((d - 51544.5) / 36525)) * ((d - 51544.5) / 36525)) * ((d - 51544.5) / 36525)) = obliquity76 d := by
    unfold das2r obliquity76; ring
  have h2 : ds2r * (0.035 + 0.00085 * (2000 + (d - 51544.5) / 36525 * 100 - 1949.9997904423)) = equinoxShift d := by
    unfold ds2r equinoxShift; ring
  constructor <;>
  · rw [frame_apply]
    unfold palDmoon
    dsimp only
    rw [h1, h2]

/-- **C87** (position) palDmoon's position is Meeus's theory of the Moon, turned into the equatorial system of date. -/
theorem C87_position (d : ℝ) : (palDmoon d).p = moonFrame d *ᵥ moonPlace d := by
  rw [(dmoon_frame d).1, moonEcl_place]

theorem place_eq : moonPlace = fun d => (moonEcl (smooth ((d - 15019.5) / 36525))).p := by
  funext d
  rw [← moonEcl_place, moonEcl_turn (turn_smooth _)]

theorem par_eq (t : ℝ) : dd2r * (moonCos (smooth t) moonTP).1 = moonPar t * (π / 180) := by
  rw [parSeries_eq _ _ _ _ _ (smooth t) rfl rfl rfl rfl rfl]
  simp only [smooth, moonPar, dd2r]; ring

theorem place_deriv (d : ℝ) (hp : sinDeg (moonPar ((d - 15019.5) / 36525)) ≠ 0) (i : Fin 3) :
    HasDerivAt (fun x => moonPlace x i) ((moonEcl (moonArgs ((d - 15019.5) / 36525))).v i * 86400) d := by
  rw [moonEcl_turn (turn_smooth _), place_eq]
  have ht : HasDerivAt (fun d : ℝ => (d - 15019.5) / 36525) (1 / 36525) d := ((hasDerivAt_id d).sub_const _).div_const _
  have h := hd_moonEcl ((d - 15019.5) / 36525) (by rw [par_eq]; exact hp) i
  refine (HasDerivAt.comp d h ht).congr_deriv ?_
  ring

/-- **C87** (velocity) palDmoon's velocity (AU per second) is, for every date, exactly the time derivative of the theory's position, seen in the equatorial system of that date: the differentiation of the
series is complete and right.  (The Moon's parallax must not vanish; `C88_parallax` shows that it does not for thousands of years.) -/
theorem C87_velocity (d : ℝ) (hp : sinDeg (moonPar ((d - 15019.5) / 36525)) ≠ 0) (i : Fin 3) :
    HasDerivAt (fun x => (moonFrame d *ᵥ moonPlace x) i) ((palDmoon d).v i * 86400) d := by
  have h : ∀ j, HasDerivAt (fun x => moonPlace x j) ((moonEcl (moonArgs ((d - 15019.5) / 36525))).v j * 86400) d := fun j => place_deriv d hp j
  have e : ∀ x, (moonFrame d *ᵥ moonPlace x) i = moonFrame d i 0 * moonPlace x 0 + moonFrame d i 1 * moonPlace x 1 + moonFrame d i 2 * moonPlace x 2 := by
    intro x; simp [Matrix.mulVec, dotProduct, Fin.sum_univ_three]
  simp only [e]
  refine ((((h 0).const_mul _).add ((h 1).const_mul _)).add ((h 2).const_mul _)).congr_deriv ?_
  rw [(dmoon_frame d).2]
  simp [Matrix.mulVec, dotProduct, Fin.sum_univ_three]
  ring

/-! ### Bounds -/

theorem moonE_le {a : MoonArgs} {E : ℝ} (h1 : 1 ≤ E) (h : |a.e| ≤ E) {i : ℕ} (hi : i ≤ 2) : |(moonE a i).1| ≤ E ^ i := by
  unfold moonE
  have : i = 0 ∨ i = 1 ∨ i = 2 := by omega
  rcases this with rfl | rfl | rfl
  · simp
  · simpa using h
  · simp only [OfNat.ofNat_ne_zero, if_false, OfNat.ofNat_ne_one]
    rw [abs_mul, pow_two]
    exact mul_le_mul h h (abs_nonneg _) (by linarith)

/-- Sum of the absolute coefficients, with the factor bounded by `E`. -/
noncomputable def absSum (E : ℝ) : List (ℝ × ℤ × ℤ × ℤ × ℤ × ℕ) → ℝ
  | [] => 0
  | x :: L => absSum E L + |x.1| * E ^ x.2.2.2.2.2

theorem moonSin_le {a : MoonArgs} {E : ℝ} (h1 : 1 ≤ E) (h : |a.e| ≤ E) (L : List (ℝ × ℤ × ℤ × ℤ × ℤ × ℕ)) (hL : ∀ x ∈ L, x.2.2.2.2.2 ≤ 2) :
    |(moonSin a L).1| ≤ absSum E L := by
  induction L with
  | nil => simp [moonSin, absSum]
  | cons x L ih =>
    obtain ⟨c, m, m', d, f, i⟩ := x
    have hi : i ≤ 2 := hL _ List.mem_cons_self
    have ih := ih fun x hx => hL x (List.mem_cons_of_mem _ hx)
    simp only [moonSin, absSum]
    refine (abs_add_le _ _).trans (add_le_add ih ?_)
    rw [abs_mul, abs_mul]
    have hs := abs_sin_le_one (moonTheta a m m' d f).1
    have he := moonE_le h1 h hi
    calc |c| * |sin (moonTheta a m m' d f).1| * |(moonE a i).1| ≤ |c| * 1 * E ^ i := by gcongr
      _ = |c| * E ^ i := by ring

theorem moonCos_le {a : MoonArgs} {E : ℝ} (h1 : 1 ≤ E) (h : |a.e| ≤ E) (L : List (ℝ × ℤ × ℤ × ℤ × ℤ × ℕ)) (hL : ∀ x ∈ L, x.2.2.2.2.2 ≤ 2) :
    |(moonCos a L).1| ≤ absSum E L := by
  induction L with
  | nil => simp [moonCos, absSum]
  | cons x L ih =>
    obtain ⟨c, m, m', d, f, i⟩ := x
    have hi : i ≤ 2 := hL _ List.mem_cons_self
    have ih := ih fun x hx => hL x (List.mem_cons_of_mem _ hx)
    simp only [moonCos, absSum]
    refine (abs_add_le _ _).trans (add_le_add ih ?_)
    rw [abs_mul, abs_mul]
    have hs := abs_cos_le_one (moonTheta a m m' d f).1
    have he := moonE_le h1 h hi
    calc |c| * |cos (moonTheta a m m' d f).1| * |(moonE a i).1| ≤ |c| * 1 * E ^ i := by gcongr
      _ = |c| * E ^ i := by ring

theorem sum_TB : absSum 1.07 moonTB ≤ 6.084 := by
  norm_num [absSum, moonTB, abs_of_pos, abs_of_neg]
theorem sum_TP : absSum 1.07 moonTP.tail ≤ 0.0765 := by
  norm_num [absSum, moonTP, abs_of_pos, abs_of_neg]
theorem pow_TB : ∀ x ∈ moonTB, x.2.2.2.2.2 ≤ 2 := by simp [moonTB]
theorem pow_TP : ∀ x ∈ moonTP.tail, x.2.2.2.2.2 ≤ 2 := by simp [moonTP]

theorem ecc_le {t : ℝ} (ht : |t| ≤ 30) : |(smooth t).e| ≤ 1.07 := by
  show |moonEcc t| ≤ _
  unfold moonEcc
  rw [abs_le] at *
  constructor <;> nlinarith

theorem par_range {t : ℝ} (ht : |t| ≤ 30) : 0.874 < moonPar t ∧ moonPar t < 1.0275 := by
  have hb := moonCos_le (by norm_num) (ecc_le ht) _ pow_TP
  have e : moonPar t = 0.950724 + (moonCos (smooth t) moonTP.tail).1 := by
    have h : (moonCos (smooth t) moonTP).1 = moonPar t := parSeries_eq _ _ _ _ _ (smooth t) rfl rfl rfl rfl rfl
    rw [← h]
    show (moonCos (smooth t) ((0.950724, 0, 0, 0, 0, 0) :: moonTP.tail)).1 = _
    simp [moonCos, moonTheta, moonE]
    ring
  have := sum_TP
  rw [abs_le] at hb
  rw [e]
  constructor <;> linarith [hb.1, hb.2]

theorem lat_range {t : ℝ} (ht : |t| ≤ 30) : |moonLat t| ≤ 6.09 := by
  have hb := (moonSin_le (by norm_num) (ecc_le ht) _ pow_TB).trans sum_TB
  rw [latSeries_eq _ _ _ _ _ (smooth t) rfl rfl rfl rfl rfl] at hb
  have h2 : |1 - 0.0004664 * cosDeg (moonNode t) - 0.0000754 * cosDeg (moonC t)| ≤ 1.0006 := by
    have c1 := cos_le_one (moonNode t * (π / 180))
    have c2 := neg_one_le_cos (moonNode t * (π / 180))
    have c3 := cos_le_one (moonC t * (π / 180))
    have c4 := neg_one_le_cos (moonC t * (π / 180))
    unfold cosDeg
    rw [abs_le]
    constructor <;> linarith
  show |_ * _| ≤ _
  rw [abs_mul]
  calc _ ≤ 6.084 * 1.0006 := mul_le_mul hb h2 (abs_nonneg _) (by norm_num)
    _ ≤ 6.09 := by norm_num

theorem sinPar_range {p : ℝ} (h1 : 0.874 < p) (h2 : p < 1.0275) : 0.01525 < sinDeg p ∧ sinDeg p < 0.017935 := by
  have p1 := pi_gt_d4
  have p2 := pi_lt_d4
  have l1 : 0.015253 < p * (π / 180) := by nlinarith
  have l2 : p * (π / 180) < 0.017935 := by nlinarith
  unfold sinDeg
  constructor
  · have := sin_gt_sub_cube (show 0 < p * (π / 180) by linarith)
    generalize p * (π / 180) = x at *
    have : x ^ 3 ≤ 0.017935 ^ 3 := by gcongr
    norm_num at this
    linarith
  · exact (sin_lt (by linarith)).trans l2

theorem place_form (d : ℝ) (hd : |d - 15019.5| ≤ 1095750) : ∃ r b l : ℝ, 0.002377 < r ∧ r < 0.002796 ∧ |b| ≤ 6.09 * (π / 180) ∧
    moonPlace d = ![r * (cos b * cos l), r * (cos b * sin l), r * sin b] := by
  have ht : |(d - 15019.5) / 36525| ≤ 30 := by
    rw [abs_div, abs_of_pos (show (0 : ℝ) < 36525 by norm_num), div_le_iff₀ (by norm_num)]
    linarith
  obtain ⟨q1, q2⟩ := par_range ht
  obtain ⟨s1, s2⟩ := sinPar_range q1 q2
  refine ⟨4.2635212653763e-5 / sinDeg (moonPar ((d - 15019.5) / 36525)), moonLat ((d - 15019.5) / 36525) * (π / 180), moonLong ((d - 15019.5) / 36525) * (π / 180), ?_, ?_, ?_, rfl⟩
  · rw [lt_div_iff₀ (by linarith)]; nlinarith
  · rw [div_lt_iff₀ (by linarith)]; nlinarith
  · rw [abs_mul, abs_of_pos (show 0 < π / 180 by positivity)]
    exact mul_le_mul_of_nonneg_right (lat_range ht) (by positivity)

theorem obl_range (d : ℝ) (hd : |d - 15019.5| ≤ 1095750) : 0.4 < obliquity76 d ∧ obliquity76 d ≤ 23.89 * (π / 180) := by
  have ht : |(d - 51544.5) / 36525| ≤ 31 := by
    rw [abs_le] at hd
    rw [abs_div, abs_of_pos (show (0 : ℝ) < 36525 by norm_num), div_le_iff₀ (by norm_num), abs_le]
    constructor <;> linarith [hd.1, hd.2]
  unfold obliquity76
  generalize (d - 51544.5) / 36525 = t at *
  rw [abs_le] at ht
  obtain ⟨t1, t2⟩ := ht
  have c2 : 0 ≤ t ^ 2 := sq_nonneg t
  have c2' : t ^ 2 ≤ 961 := by nlinarith
  have k1 : 84381.448 - 46.8150 * t - 0.00059 * t ^ 2 + 0.001813 * t ^ 3 ≤ 86004 := by nlinarith
  have k2 : 82600 ≤ 84381.448 - 46.8150 * t - 0.00059 * t ^ 2 + 0.001813 * t ^ 3 := by nlinarith
  have p1 := pi_gt_d4
  constructor
  · calc (0.4 : ℝ) < 82600 * (3.1415 / 648000) := by norm_num
      _ ≤ _ := mul_le_mul k2 (by linarith) (by norm_num) (by linarith)
  · calc _ ≤ 86004 * (π / 648000) := mul_le_mul_of_nonneg_right k1 (by positivity)
      _ ≤ _ := by linarith

theorem shift_range (d : ℝ) (hd : |d - 15019.5| ≤ 1095750) : |equinoxShift d| ≤ 0.0002 := by
  have ht : |(d - 51544.5) / 365.25| ≤ 3100 := by
    rw [abs_le] at hd
    rw [abs_div, abs_of_pos (show (0 : ℝ) < 365.25 by norm_num), div_le_iff₀ (by norm_num), abs_le]
    constructor <;> linarith [hd.1, hd.2]
  unfold equinoxShift
  generalize (d - 51544.5) / 365.25 = t at *
  have p1 := pi_lt_d4
  rw [abs_mul, abs_of_pos (show 0 < 2 * π / 86400 by positivity)]
  have k : |0.035 + 0.00085 * (t + 2000 - 1949.9997904423)| ≤ 2.72 := by
    rw [abs_le] at *
    constructor <;> linarith [ht.1, ht.2]
  calc _ ≤ 2.72 * (2 * 3.1416 / 86400) := mul_le_mul k (by linarith) (by positivity) (by norm_num)
    _ ≤ _ := by norm_num

theorem len_frame (d : ℝ) (v : Fin 3 → ℝ) : len v ≤ len (moonFrame d *ᵥ v) ∧ len (moonFrame d *ᵥ v) ≤ (1 + |equinoxShift d|) * len v := by
  rw [frame_apply]
  generalize equinoxShift d = q
  generalize obliquity76 d = w
  have hsc := sin_sq_add_cos_sq w
  have e : (v 0 - q * cos w * v 1 + q * sin w * v 2) ^ 2 + (q * v 0 + v 1 * cos w - v 2 * sin w) ^ 2 + (v 1 * sin w + v 2 * cos w) ^ 2
      = v 0 ^ 2 + v 1 ^ 2 + v 2 ^ 2 + q ^ 2 * (v 0 ^ 2 + (v 1 * cos w - v 2 * sin w) ^ 2) := by
    linear_combination (v 1 ^ 2 + v 2 ^ 2) * hsc
  have e2 : (v 1 * cos w - v 2 * sin w) ^ 2 ≤ v 1 ^ 2 + v 2 ^ 2 := by
    have : v 1 ^ 2 + v 2 ^ 2 - (v 1 * cos w - v 2 * sin w) ^ 2 = (v 1 * sin w + v 2 * cos w) ^ 2 := by
      linear_combination -(v 1 ^ 2 + v 2 ^ 2) * hsc
    linarith [sq_nonneg (v 1 * sin w + v 2 * cos w)]
  have hl : ∀ a b c : ℝ, len ![a, b, c] = √(a ^ 2 + b ^ 2 + c ^ 2) := fun a b c => by simp [len, Fin.sum_univ_three]
  have hv : len v = √(v 0 ^ 2 + v 1 ^ 2 + v 2 ^ 2) := by simp [len, Fin.sum_univ_three]
  rw [hl, hv, e]
  constructor
  · apply Real.sqrt_le_sqrt
    have : 0 ≤ q ^ 2 * (v 0 ^ 2 + (v 1 * cos w - v 2 * sin w) ^ 2) := by positivity
    linarith
  · rw [Real.sqrt_le_left (by positivity), mul_pow, Real.sq_sqrt (by positivity)]
    have : q ^ 2 * (v 0 ^ 2 + (v 1 * cos w - v 2 * sin w) ^ 2) ≤ q ^ 2 * (v 0 ^ 2 + v 1 ^ 2 + v 2 ^ 2) := by
      apply mul_le_mul_of_nonneg_left _ (sq_nonneg q); linarith
    have h3 : (1 + |q|) ^ 2 = 1 + 2 * |q| + q ^ 2 := by rw [add_sq, sq_abs]; ring
    rw [h3]
    have : 0 ≤ |q| * (v 0 ^ 2 + v 1 ^ 2 + v 2 ^ 2) := by positivity
    linarith

theorem len_place {r b l : ℝ} (hr : 0 ≤ r) : len ![r * (cos b * cos l), r * (cos b * sin l), r * sin b] = r := by
  have h1 := sin_sq_add_cos_sq b
  have h2 := sin_sq_add_cos_sq l
  have : (r * (cos b * cos l)) ^ 2 + (r * (cos b * sin l)) ^ 2 + (r * sin b) ^ 2 = r ^ 2 := by
    linear_combination r ^ 2 * cos b ^ 2 * h2 + r ^ 2 * h1
  simp [len, Fin.sum_univ_three]
  rw [this, Real.sqrt_sq hr]

/-- **C88** (parallax) For thirty centuries before and after 1900 the parallax of the theory stays between 0.874 and 1.0275 degrees, so palDmoon never divides by zero there. -/
theorem C88_parallax (d : ℝ) (hd : |d - 15019.5| ≤ 1095750) :
    0.874 < moonPar ((d - 15019.5) / 36525) ∧ moonPar ((d - 15019.5) / 36525) < 1.0275 ∧ sinDeg (moonPar ((d - 15019.5) / 36525)) ≠ 0 := by
  have ht : |(d - 15019.5) / 36525| ≤ 30 := by
    rw [abs_div, abs_of_pos (show (0 : ℝ) < 36525 by norm_num), div_le_iff₀ (by norm_num)]
    linarith
  obtain ⟨q1, q2⟩ := par_range ht
  exact ⟨q1, q2, by linarith [(sinPar_range q1 q2).1]⟩

/-- **C88** (distance) For thirty centuries before and after 1900, the Moon returned by palDmoon is between 0.002377 and 0.002797 AU away (355 600 to 418 400 km). -/
theorem C88_distance (d : ℝ) (hd : |d - 15019.5| ≤ 1095750) : 0.002377 < len (palDmoon d).p ∧ len (palDmoon d).p < 0.002797 := by
  obtain ⟨r, b, l, r1, r2, hb, e⟩ := place_form d hd
  obtain ⟨h1, h2⟩ := len_frame d (moonPlace d)
  rw [C87_position]
  have hl : len (moonPlace d) = r := by rw [e, len_place (by linarith)]
  have hq := shift_range d hd
  rw [hl] at h1 h2
  constructor
  · linarith
  · have : (1 + |equinoxShift d|) * r ≤ 1.0002 * 0.002796 := mul_le_mul (by linarith) r2.le (by linarith) (by norm_num)
    linarith

/-- **C88** (declination) For thirty centuries before and after 1900, the declination of the Moon returned by palDmoon never exceeds 30 degrees. -/
theorem C88_declination (d : ℝ) (hd : |d - 15019.5| ≤ 1095750) : |(palDmoon d).p 2| ≤ sin (π / 6) * len (palDmoon d).p := by
  obtain ⟨r, b, l, r1, r2, hb, e⟩ := place_form d hd
  obtain ⟨h1, -⟩ := len_frame d (moonPlace d)
  obtain ⟨o1, o2⟩ := obl_range d hd
  rw [C87_position]
  have hl : len (moonPlace d) = r := by rw [e, len_place (by linarith)]
  rw [hl] at h1
  have hz : (moonFrame d *ᵥ moonPlace d) 2 = r * (cos b * sin l * sin (obliquity76 d) + sin b * cos (obliquity76 d)) := by
    rw [frame_apply, e]; simp; ring
  rw [hz, abs_mul, abs_of_pos (show 0 < r by linarith)]
  have pp := pi_pos
  have cb : 0 ≤ cos b := cos_nonneg_of_mem_Icc ⟨by linarith [(abs_le.1 hb).1], by linarith [(abs_le.1 hb).2]⟩
  have so : 0 ≤ sin (obliquity76 d) := sin_nonneg_of_nonneg_of_le_pi (by linarith) (by linarith)
  have co : 0 ≤ cos (obliquity76 d) := cos_nonneg_of_mem_Icc ⟨by linarith, by linarith⟩
  have hs : |sin b| = sin |b| := by
    rcases le_total 0 b with h0 | h0
    · rw [abs_of_nonneg h0, abs_of_nonneg (sin_nonneg_of_nonneg_of_le_pi h0 (by linarith [(abs_le.1 hb).2]))]
    · rw [abs_of_nonpos h0, sin_neg, abs_of_nonpos (sin_nonpos_of_nonpos_of_neg_pi_le h0 (by linarith [(abs_le.1 hb).1]))]
  have key : |cos b * sin l * sin (obliquity76 d) + sin b * cos (obliquity76 d)| ≤ sin (obliquity76 d + |b|) := by
    rw [sin_add, cos_abs]
    refine (abs_add_le _ _).trans ?_
    rw [abs_mul, abs_mul, abs_mul, abs_of_nonneg cb, abs_of_nonneg so, abs_of_nonneg co, hs]
    have : cos b * |sin l| * sin (obliquity76 d) ≤ cos b * 1 * sin (obliquity76 d) := by
      gcongr; exact abs_sin_le_one l
    linarith
  have hm : sin (obliquity76 d + |b|) ≤ sin (π / 6) := by
    apply sin_le_sin_of_le_of_le_pi_div_two <;> linarith [abs_nonneg b]
  have s6 : 0 ≤ sin (π / 6) := by rw [sin_pi_div_six]; norm_num
  calc _ ≤ r * sin (π / 6) := mul_le_mul_of_nonneg_left (key.trans hm) (by linarith)
    _ ≤ _ := by rw [mul_comm]; exact mul_le_mul_of_nonneg_left h1 s6

theorem obl_deriv (d : ℝ) (hd : |d - 15019.5| ≤ 1095750) : ∃ D, HasDerivAt obliquity76 D d ∧ |D| ≤ 7e-9 := by
  have ht : |(d - 51544.5) / 36525| ≤ 31 := by
    rw [abs_le] at hd
    rw [abs_div, abs_of_pos (show (0 : ℝ) < 36525 by norm_num), div_le_iff₀ (by norm_num), abs_le]
    constructor <;> linarith [hd.1, hd.2]
  have hT : HasDerivAt (fun d : ℝ => (d - 51544.5) / 36525) (1 / 36525) d := ((hasDerivAt_id d).sub_const _).div_const _
  have h := ((((hasDerivAt_const d (84381.448 : ℝ)).sub (hT.const_mul 46.8150)).sub ((hT.pow 2).const_mul 0.00059)).add ((hT.pow 3).const_mul 0.001813)).mul_const (π / 648000)
  refine ⟨_, h, ?_⟩
  generalize (d - 51544.5) / 36525 = t at *
  rw [abs_mul, abs_of_pos (show 0 < π / 648000 by positivity)]
  have c2' : t ^ 2 ≤ 961 := by rw [← sq_abs]; nlinarith [abs_nonneg t]
  have c2 : 0 ≤ t ^ 2 := sq_nonneg t
  rw [abs_le] at ht
  have k : |0 - 46.8150 * (1 / 36525) - 0.00059 * (((2 : ℕ) : ℝ) * t ^ (2 - 1) * (1 / 36525)) + 0.001813 * (((3 : ℕ) : ℝ) * t ^ (3 - 1) * (1 / 36525))| ≤ 0.001427 := by
    rw [abs_le]
    norm_num
    constructor <;> linarith [ht.1, ht.2]
  have p1 := pi_lt_d4
  calc _ ≤ 0.001427 * (3.1416 / 648000) := mul_le_mul k (by linarith) (by positivity) (by norm_num)
    _ ≤ _ := by norm_num

theorem shift_deriv (d : ℝ) : ∃ D, HasDerivAt equinoxShift D d ∧ |D| ≤ 2e-10 := by
  have hT : HasDerivAt (fun d : ℝ => (d - 51544.5) / 365.25 + 2000 - 1949.9997904423) (1 / 365.25) d := ((((hasDerivAt_id d).sub_const _).div_const _).add_const _).sub_const _
  have h := ((hasDerivAt_const d (0.035 : ℝ)).add (hT.const_mul 0.00085)).mul_const (2 * π / 86400)
  refine ⟨_, h, ?_⟩
  have p1 := pi_lt_d4
  have p2 := pi_pos
  rw [abs_of_nonneg (by positivity)]
  linarith

/-- **C87** (velocity, observable form) For thirty centuries before and after 1900, the position returned by palDmoon is a differentiable function of the date, and its derivative (AU per day) is the returned
velocity (AU per second) times 86400 up to the slow rotation of the system of date: each component agrees to within one part in 10^8 of the Moon's distance per day. -/
theorem C87_velocity_close (d : ℝ) (hd : |d - 15019.5| ≤ 1095750) (i : Fin 3) :
    ∃ D, HasDerivAt (fun x => (palDmoon x).p i) D d ∧ |D - (palDmoon d).v i * 86400| ≤ 1e-8 * len (palDmoon d).p := by
  obtain ⟨D1, hD1, b1⟩ := obl_deriv d hd
  obtain ⟨D2, hD2, b2⟩ := shift_deriv d
  have hq := shift_range d hd
  have hp := (C88_parallax d hd).2.2
  have hP : ∀ j, HasDerivAt (fun x => moonPlace x j) ((moonEcl (moonArgs ((d - 15019.5) / 36525))).v j * 86400) d := fun j => place_deriv d hp j
  have hle := (len_frame d (moonPlace d)).1
  rw [← C87_position] at hle
  have e : ∀ x, (palDmoon x).p = _ := fun x => (C87_position x).trans (frame_apply x (moonPlace x))
  have ev := (dmoon_frame d).2
  rw [frame_apply] at ev
  rw [ev]
  simp only [e]
  generalize hv : (moonEcl (moonArgs ((d - 15019.5) / 36525))).v = v at *
  have hl2 : len (moonPlace d) ^ 2 = moonPlace d 0 ^ 2 + moonPlace d 1 ^ 2 + moonPlace d 2 ^ 2 := by
    rw [len, Real.sq_sqrt (Finset.sum_nonneg fun i _ => sq_nonneg _), Fin.sum_univ_three]
  have hl0 : 0 ≤ len (moonPlace d) := Real.sqrt_nonneg _
  have hsc := sin_sq_add_cos_sq (obliquity76 d)
  have cx : |moonPlace d 0| ≤ len (moonPlace d) := abs_le_of_sq_le_sq (by rw [hl2]; nlinarith [sq_nonneg (moonPlace d 1), sq_nonneg (moonPlace d 2)]) hl0
  have c1 : |moonPlace d 1 * sin (obliquity76 d) + moonPlace d 2 * cos (obliquity76 d)| ≤ len (moonPlace d) := by
    apply abs_le_of_sq_le_sq _ hl0
    rw [hl2]
    have : (moonPlace d 1 * sin (obliquity76 d) + moonPlace d 2 * cos (obliquity76 d)) ^ 2 + (moonPlace d 1 * cos (obliquity76 d) - moonPlace d 2 * sin (obliquity76 d)) ^ 2 = moonPlace d 1 ^ 2 + moonPlace d 2 ^ 2 := by
      linear_combination (moonPlace d 1 ^ 2 + moonPlace d 2 ^ 2) * hsc
    nlinarith [sq_nonneg (moonPlace d 0), sq_nonneg (moonPlace d 1 * cos (obliquity76 d) - moonPlace d 2 * sin (obliquity76 d))]
  have c2 : |moonPlace d 1 * cos (obliquity76 d) - moonPlace d 2 * sin (obliquity76 d)| ≤ len (moonPlace d) := by
    apply abs_le_of_sq_le_sq _ hl0
    rw [hl2]
    have : (moonPlace d 1 * sin (obliquity76 d) + moonPlace d 2 * cos (obliquity76 d)) ^ 2 + (moonPlace d 1 * cos (obliquity76 d) - moonPlace d 2 * sin (obliquity76 d)) ^ 2 = moonPlace d 1 ^ 2 + moonPlace d 2 ^ 2 := by
      linear_combination (moonPlace d 1 ^ 2 + moonPlace d 2 ^ 2) * hsc
    nlinarith [sq_nonneg (moonPlace d 0), sq_nonneg (moonPlace d 1 * sin (obliquity76 d) + moonPlace d 2 * cos (obliquity76 d))]
  have fin : ∀ w, |w| ≤ 1e-8 * len (moonPlace d) → |w| ≤ 1e-8 * len ![moonPlace d 0 - equinoxShift d * cos (obliquity76 d) * moonPlace d 1 + equinoxShift d * sin (obliquity76 d) * moonPlace d 2,
      equinoxShift d * moonPlace d 0 + moonPlace d 1 * cos (obliquity76 d) - moonPlace d 2 * sin (obliquity76 d), moonPlace d 1 * sin (obliquity76 d) + moonPlace d 2 * cos (obliquity76 d)] := by
    intro w hw
    rw [← e d]
    exact hw.trans (mul_le_mul_of_nonneg_left hle (by norm_num))
  obtain ⟨A, hA⟩ : ∃ A, A = moonPlace d 1 * sin (obliquity76 d) + moonPlace d 2 * cos (obliquity76 d) := ⟨_, rfl⟩
  obtain ⟨B, hB⟩ : ∃ B, B = moonPlace d 1 * cos (obliquity76 d) - moonPlace d 2 * sin (obliquity76 d) := ⟨_, rfl⟩
  have m1 : |D1 * A| ≤ 7e-9 * len (moonPlace d) := by rw [abs_mul, hA]; exact mul_le_mul b1 c1 (abs_nonneg _) (by norm_num)
  have m2 : |D1 * B| ≤ 7e-9 * len (moonPlace d) := by rw [abs_mul, hB]; exact mul_le_mul b1 c2 (abs_nonneg _) (by norm_num)
  have m3 : |D2 * B| ≤ 2e-10 * len (moonPlace d) := by rw [abs_mul, hB]; exact mul_le_mul b2 c2 (abs_nonneg _) (by norm_num)
  have m4 : |D2 * moonPlace d 0| ≤ 2e-10 * len (moonPlace d) := by rw [abs_mul]; exact mul_le_mul b2 cx (abs_nonneg _) (by norm_num)
  have m5 : |equinoxShift d * (D1 * A)| ≤ 0.0002 * (7e-9 * len (moonPlace d)) := by rw [abs_mul]; exact mul_le_mul hq m1 (abs_nonneg _) (by norm_num)
  rw [abs_le] at m1 m2 m3 m4 m5
  fin_cases i
  · refine ⟨_, ((hP 0).sub ((hD2.mul hD1.cos).mul (hP 1))).add ((hD2.mul hD1.sin).mul (hP 2)), fin _ ?_⟩
    have : ∀ z, z = -(D2 * B) + equinoxShift d * (D1 * A) → |z| ≤ 1e-8 * len (moonPlace d) := by
      rintro z rfl
      rw [abs_le]
      constructor <;> linarith [m3.1, m3.2, m5.1, m5.2]
    apply this
    rw [hA, hB]
    simp
    ring
  · refine ⟨_, ((hD2.mul (hP 0)).add ((hP 1).mul hD1.cos)).sub ((hP 2).mul hD1.sin), fin _ ?_⟩
    have : ∀ z, z = D2 * moonPlace d 0 - D1 * A → |z| ≤ 1e-8 * len (moonPlace d) := by
      rintro z rfl
      rw [abs_le]
      constructor <;> linarith [m4.1, m4.2, m1.1, m1.2]
    apply this
    rw [hA]
    simp
    ring
  · refine ⟨_, ((hP 1).mul hD1.sin).add ((hP 2).mul hD1.cos), fin _ ?_⟩
    have : ∀ z, z = D1 * B → |z| ≤ 1e-8 * len (moonPlace d) := by
      rintro z rfl
      rw [abs_le]
      constructor <;> linarith [m2.1, m2.2]
    apply this
    rw [hB]
    simp
    ring

/-- Bound for the derivative of a series. -/
noncomputable def rateSum : List (ℝ × ℤ × ℤ × ℤ × ℤ × ℕ) → ℝ
  | [] => 0
  | x :: L => rateSum L + |x.1| * ((|(x.2.1 : ℝ)| * 36001 + |(x.2.2.1 : ℝ)| * 477211 + |(x.2.2.2.1 : ℝ)| * 445281 + |(x.2.2.2.2.1 : ℝ)| * 483211) * 1.07 ^ x.2.2.2.2.2 + 1)

theorem sum_rate : rateSum moonTL ≤ 6256000 := by
  norm_num [rateSum, moonTL, abs_of_pos, abs_of_neg]
theorem pow_TL : ∀ x ∈ moonTL, x.2.2.2.2.2 ≤ 2 := by simp [moonTL]

theorem moonSin_rate {a : MoonArgs} (h : |a.e| ≤ 1.07) (hde : |a.de| ≤ 0.003) (h1 : |a.dem| ≤ 36001 * (π / 180)) (h2 : |a.demp| ≤ 477211 * (π / 180)) (h3 : |a.dd| ≤ 445281 * (π / 180))
    (h4 : |a.df| ≤ 483211 * (π / 180)) (L : List (ℝ × ℤ × ℤ × ℤ × ℤ × ℕ)) (hL : ∀ x ∈ L, x.2.2.2.2.2 ≤ 2) : |(moonSin a L).2| ≤ rateSum L * (π / 180) := by
  induction L with
  | nil => simp [moonSin, rateSum]
  | cons x L ih =>
    obtain ⟨c, m, m', d, f, i⟩ := x
    have hi : i ≤ 2 := hL _ List.mem_cons_self
    have ih := ih fun x hx => hL x (List.mem_cons_of_mem _ hx)
    simp only [moonSin, rateSum]
    rw [add_mul]
    refine (abs_add_le _ _).trans (add_le_add ih ?_)
    have he := moonE_le (by norm_num) h hi
    have hs := abs_sin_le_one (moonTheta a m m' d f).1
    have hc := abs_cos_le_one (moonTheta a m m' d f).1
    have hth : |(moonTheta a m m' d f).2| ≤ (|(m : ℝ)| * 36001 + |(m' : ℝ)| * 477211 + |(d : ℝ)| * 445281 + |(f : ℝ)| * 483211) * (π / 180) := by
      simp only [moonTheta]
      refine (abs_add_le _ _).trans ?_
      refine (add_le_add_left ((abs_add_le _ _).trans (add_le_add_left (abs_add_le _ _) _)) _).trans ?_
      simp only [abs_mul]
      have g1 := mul_le_mul_of_nonneg_left h1 (abs_nonneg (m : ℝ))
      have g2 := mul_le_mul_of_nonneg_left h2 (abs_nonneg (m' : ℝ))
      have g3 := mul_le_mul_of_nonneg_left h3 (abs_nonneg (d : ℝ))
      have g4 := mul_le_mul_of_nonneg_left h4 (abs_nonneg (f : ℝ))
      linarith
    have hden : |(moonE a i).2| ≤ 1 * (π / 180) := by
      have pp := pi_gt_three
      have : i = 0 ∨ i = 1 ∨ i = 2 := by omega
      rcases this with rfl | rfl | rfl
      · simp [moonE]; positivity
      · simp [moonE]; linarith
      · simp only [moonE, OfNat.ofNat_ne_zero, if_false, OfNat.ofNat_ne_one]
        rw [abs_mul, abs_mul, abs_two]
        have : |a.e| * |a.de| ≤ 1.07 * 0.003 := mul_le_mul h hde (abs_nonneg _) (by norm_num)
        linarith
    rw [abs_mul, mul_assoc |c|]
    refine mul_le_mul_of_nonneg_left ?_ (abs_nonneg c)
    refine (abs_add_le _ _).trans ?_
    rw [abs_mul, abs_mul, abs_mul, add_mul]
    refine add_le_add ?_ ?_
    · calc _ ≤ 1 * ((|(m : ℝ)| * 36001 + |(m' : ℝ)| * 477211 + |(d : ℝ)| * 445281 + |(f : ℝ)| * 483211) * (π / 180)) * 1.07 ^ i := by gcongr
        _ = _ := by ring
    · calc _ ≤ 1 * (1 * (π / 180)) := by gcongr
        _ = _ := by ring

/-- The rate of a mean argument with its periodic terms. -/
theorem rate_abs {x a c1 c2 c3 : ℝ} (hx : |x - a| ≤ c1) (h2 : |a| ≤ c2) (h3 : c1 + c2 ≤ c3) : |x| ≤ c3 := by
  rw [abs_le] at *
  constructor <;> linarith [hx.1, hx.2, h2.1, h2.2]

theorem args_rates {t : ℝ} (ht : |t| ≤ 30) : |(smooth t).de| ≤ 0.003 ∧ |(smooth t).dem| ≤ 36001 * (π / 180) ∧ |(smooth t).demp| ≤ 477211 * (π / 180) ∧ |(smooth t).dd| ≤ 445281 * (π / 180) ∧
    |(smooth t).df| ≤ 483211 * (π / 180) ∧ 481255 * (π / 180) ≤ (smooth t).delp ∧ (smooth t).delp ≤ 481281 * (π / 180) := by
  have pp := pi_gt_three
  have p4 := pi_lt_d4
  have c2 : t ^ 2 ≤ 900 := by rw [← sq_abs]; nlinarith [abs_nonneg t]
  have c0 : 0 ≤ t ^ 2 := sq_nonneg t
  rw [abs_le] at ht
  obtain ⟨t1, t2⟩ := ht
  have sb : ∀ x y C : ℝ, |x| ≤ 1 → 0 ≤ C → |y| ≤ C → |y * x| ≤ C := by
    intro x y C hx hC hy
    rw [abs_mul]
    calc |y| * |x| ≤ C * 1 := mul_le_mul hy hx (abs_nonneg _) hC
      _ = C := mul_one C
  have wa := sb (cos (dd2r * (51.2 + 20.2 * t))) 20.2 20.2 (abs_cos_le_one _) (by norm_num) (by norm_num [abs_of_pos])
  have wb := sb (cos (dd2r * (346.560 + (132.870 + -0.0091731 * t) * t))) (0.003964 * (132.870 + 2 * -0.0091731 * t)) 0.6 (abs_cos_le_one _) (by norm_num)
    (by rw [abs_le]; constructor <;> linarith)
  have wo := sb (cos (moonArg 259.183275 (-1934.1420) 0.002078 0.0000022 t)) (-1934.1420 + (2 * 0.002078 + 3 * 0.0000022 * t) * t) 1936 (abs_cos_le_one _) (by norm_num)
    (by rw [abs_le]; constructor <;> nlinarith)
  have ww := sb (cos (moonArg 259.183275 (-1934.1420) 0.002078 0.0000022 t + dd2r * (275.05 + -2.30 * t))) (-1934.1420 + (2 * 0.002078 + 3 * 0.0000022 * t) * t + -2.30) 1939 (abs_cos_le_one _) (by norm_num)
    (by rw [abs_le]; constructor <;> nlinarith)
  have k0 : 0 < π / 180 := by positivity
  have fac : ∀ x C : ℝ, |x| ≤ C → |x * (π / 180)| ≤ C * (π / 180) := by
    intro x C h
    rw [abs_mul, abs_of_pos k0]
    exact mul_le_mul_of_nonneg_right h k0.le
  have kk : π / 180 ≤ 0.0175 := by linarith
  have wa' := fac _ _ wa
  have wb' := fac _ _ wb
  have wo' := fac _ _ wo
  have ww' := fac _ _ ww
  generalize hwa : cos (dd2r * (51.2 + 20.2 * t)) = ca at *
  generalize hwb : cos (dd2r * (346.560 + (132.870 + -0.0091731 * t) * t)) = cb at *
  generalize hwo : cos (moonArg 259.183275 (-1934.1420) 0.002078 0.0000022 t) = co at *
  generalize hww : cos (moonArg 259.183275 (-1934.1420) 0.002078 0.0000022 t + dd2r * (275.05 + -2.30 * t)) = cw at *
  obtain ⟨A, hA⟩ : ∃ A, A = 20.2 * ca * (π / 180) := ⟨_, rfl⟩
  obtain ⟨B, hB⟩ : ∃ B, B = 0.003964 * (132.870 + 2 * -0.0091731 * t) * cb * (π / 180) := ⟨_, rfl⟩
  obtain ⟨O, hO⟩ : ∃ O, O = (-1934.1420 + (2 * 0.002078 + 3 * 0.0000022 * t) * t) * co * (π / 180) := ⟨_, rfl⟩
  obtain ⟨W, hW⟩ : ∃ W, W = (-1934.1420 + (2 * 0.002078 + 3 * 0.0000022 * t) * t + -2.30) * cw * (π / 180) := ⟨_, rfl⟩
  rw [← hA] at wa'
  rw [← hB] at wb'
  rw [← hO] at wo'
  rw [← hW] at ww'
  rw [abs_le] at wa' wb' wo' ww'
  have A1 : |A| ≤ 0.36 := by rw [abs_le]; constructor <;> linarith [wa'.1, wa'.2]
  have B1 : |B| ≤ 0.02 := by rw [abs_le]; constructor <;> linarith [wb'.1, wb'.2]
  have O1 : |O| ≤ 34 := by rw [abs_le]; constructor <;> linarith [wo'.1, wo'.2]
  have W1 : |W| ≤ 34 := by rw [abs_le]; constructor <;> linarith [ww'.1, ww'.2]
  rw [abs_le] at A1 B1 O1 W1
  have e1 : (smooth t).dem = (35999.0498 + 2 * -0.000150 * t + 3 * -0.0000033 * t ^ 2 + -0.001778 * A) * (π / 180) := by
    simp only [smooth, moonArgs, moonArgD, hwa, hA]; unfold dd2r; ring
  have e2 : (smooth t).demp = (477198.8491 + 2 * 0.009192 * t + 3 * 0.0000144 * t ^ 2 + (0.000817 * A + B + 0.002541 * O)) * (π / 180) := by
    simp only [smooth, moonArgs, moonArgD, hwa, hA, hwb, hB, hwo, hO]; unfold dd2r; ring
  have e3 : (smooth t).dd = (445267.1142 + 2 * -0.001436 * t + 3 * 0.0000019 * t ^ 2 + (0.002011 * A + B + 0.001964 * O)) * (π / 180) := by
    simp only [smooth, moonArgs, moonArgD, hwa, hA, hwb, hB, hwo, hO]; unfold dd2r; ring
  have e4 : (smooth t).df = (483202.0251 + 2 * -0.003211 * t + 3 * -0.0000003 * t ^ 2 + (B + -0.024691 * O + -0.004328 * W)) * (π / 180) := by
    simp only [smooth, moonArgs, moonArgD, hwb, hB, hwo, hO, hww, hW]; unfold dd2r; ring
  have e5 : (smooth t).delp = (481267.8831 + 2 * -0.001133 * t + 3 * 0.0000019 * t ^ 2 + (0.000233 * A + B + 0.001964 * O)) * (π / 180) := by
    simp only [smooth, moonArgs, moonArgD, hwa, hA, hwb, hB, hwo, hO]; unfold dd2r; ring
  refine ⟨?_, ?_, ?_, ?_, ?_, ?_, ?_⟩
  · simp only [smooth, moonArgs]; rw [abs_le]; constructor <;> linarith
  · rw [e1]; apply fac; rw [abs_le]; constructor <;> linarith only [t1, t2, c2, c0, A1.1, A1.2, B1.1, B1.2, O1.1, O1.2, W1.1, W1.2]
  · rw [e2]; apply fac; rw [abs_le]; constructor <;> linarith only [t1, t2, c2, c0, A1.1, A1.2, B1.1, B1.2, O1.1, O1.2, W1.1, W1.2]
  · rw [e3]; apply fac; rw [abs_le]; constructor <;> linarith only [t1, t2, c2, c0, A1.1, A1.2, B1.1, B1.2, O1.1, O1.2, W1.1, W1.2]
  · rw [e4]; apply fac; rw [abs_le]; constructor <;> linarith only [t1, t2, c2, c0, A1.1, A1.2, B1.1, B1.2, O1.1, O1.2, W1.1, W1.2]
  · rw [e5]; apply mul_le_mul_of_nonneg_right _ k0.le; linarith only [t1, t2, c2, c0, A1.1, A1.2, B1.1, B1.2, O1.1, O1.2, W1.1, W1.2]
  · rw [e5]; apply mul_le_mul_of_nonneg_right _ k0.le; linarith only [t1, t2, c2, c0, A1.1, A1.2, B1.1, B1.2, O1.1, O1.2, W1.1, W1.2]

/-- **C88** (eastward motion) For thirty centuries before and after 1900, the ecliptic longitude of the Moon in the position that palDmoon returns (`C87_position`) always increases, by between 10 and 16.5
degrees a day. -/
theorem C88_eastward (d : ℝ) (hd : |d - 15019.5| ≤ 1095750) :
    ∃ D, HasDerivAt (fun x => moonLong ((x - 15019.5) / 36525)) D d ∧ 10 < D ∧ D < 16.5 := by
  have ht : |(d - 15019.5) / 36525| ≤ 30 := by
    rw [abs_div, abs_of_pos (show (0 : ℝ) < 36525 by norm_num), div_le_iff₀ (by norm_num)]
    linarith
  have hT : HasDerivAt (fun d : ℝ => (d - 15019.5) / 36525) (1 / 36525) d := ((hasDerivAt_id d).sub_const _).div_const _
  have el : ∀ t, moonLong t = ((smooth t).elp + dd2r * (moonSin (smooth t) moonTL).1) * (180 / π) := by
    intro t
    rw [longSeries_eq _ _ _ _ _ (smooth t) rfl rfl rfl rfl rfl]
    have := pi_ne_zero
    simp only [smooth, moonLong, dd2r]; field_simp
  have hl : HasDerivAt moonLong (((smooth ((d - 15019.5) / 36525)).delp + dd2r * (moonSin (smooth ((d - 15019.5) / 36525)) moonTL).2) * (180 / π)) ((d - 15019.5) / 36525) := by
    refine HasDerivAt.congr_of_eventuallyEq (((hd_elp _).add ((hd_moonSin moonTL _).const_mul dd2r)).mul_const (180 / π)) (Filter.Eventually.of_forall fun x => ?_)
    exact el x
  obtain ⟨r0, r1, r2, r3, r4, r5, r6⟩ := args_rates ht
  have hr := (moonSin_rate (ecc_le ht) r0 r1 r2 r3 r4 _ pow_TL).trans (mul_le_mul_of_nonneg_right sum_rate (by positivity))
  have hcomp := HasDerivAt.comp (h₂ := moonLong) d hl hT
  refine ⟨_, hcomp, ?_⟩
  generalize (smooth ((d - 15019.5) / 36525)).delp = a at *
  generalize (moonSin (smooth ((d - 15019.5) / 36525)) moonTL).2 = b at *
  have p3 := pi_gt_three
  have p4 := pi_lt_d4
  have k : 0 < π / 180 := by positivity
  have hb : |dd2r * b| ≤ 109200 * (π / 180) := by
    rw [dd2r, abs_mul, abs_of_pos k, mul_comm]
    apply mul_le_mul_of_nonneg_right _ k.le
    refine hr.trans ?_
    linarith
  have hc : (π / 180) * (180 / π) = 1 := by field_simp
  have kp : 0 < 180 / π := by positivity
  rw [abs_le] at hb
  have u1 : 372000 < (a + dd2r * b) * (180 / π) := by
    calc (372000 : ℝ) < 372055 * ((π / 180) * (180 / π)) := by rw [hc]; norm_num
      _ = 372055 * (π / 180) * (180 / π) := by ring
      _ ≤ _ := by apply mul_le_mul_of_nonneg_right _ kp.le; linarith [hb.1]
  have u2 : (a + dd2r * b) * (180 / π) < 591000 := by
    calc (a + dd2r * b) * (180 / π) ≤ 590481 * (π / 180) * (180 / π) := by apply mul_le_mul_of_nonneg_right _ kp.le; linarith [hb.2]
      _ = 590481 * ((π / 180) * (180 / π)) := by ring
      _ < _ := by rw [hc]; norm_num
  constructor <;> linarith

/-- The date 2000 January 1.5 is in the range. -/
example : |(51544.5 : ℝ) - 15019.5| ≤ 1095750 := by rw [abs_le]; constructor <;> norm_num

end Pal.Props
