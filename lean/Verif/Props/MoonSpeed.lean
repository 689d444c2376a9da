import Verif.Props.Rdplan
import Verif.Props.MapMisc

/-!
# C120: speed and parallax of the Moon
-/

namespace Pal.Props
open Real Pal Pal.Spec Pal.Orbit Pal.Moon

theorem sum_rate_TB : rateSum moonTB ≤ 3629000 := by
  norm_num [rateSum, moonTB, abs_of_pos, abs_of_neg]
theorem sum_rate_TP : rateSum moonTP ≤ 52470 := by
  norm_num [rateSum, moonTP, abs_of_pos, abs_of_neg]
theorem pow_TP' : ∀ x ∈ moonTP, x.2.2.2.2.2 ≤ 2 := by simp [moonTP]

theorem moonCos_rate {a : MoonArgs} (h : |a.e| ≤ 1.07) (hde : |a.de| ≤ 0.003) (h1 : |a.dem| ≤ 36001 * (π / 180)) (h2 : |a.demp| ≤ 477211 * (π / 180)) (h3 : |a.dd| ≤ 445281 * (π / 180))
    (h4 : |a.df| ≤ 483211 * (π / 180)) (L : List (ℝ × ℤ × ℤ × ℤ × ℤ × ℕ)) (hL : ∀ x ∈ L, x.2.2.2.2.2 ≤ 2) : |(moonCos a L).2| ≤ rateSum L * (π / 180) := by
  induction L with
  | nil => simp [moonCos, rateSum]
  | cons x L ih =>
    obtain ⟨c, m, m', d, f, i⟩ := x
    have hi : i ≤ 2 := hL _ List.mem_cons_self
    have ih := ih fun x hx => hL x (List.mem_cons_of_mem _ hx)
    simp only [moonCos, rateSum]
    rw [add_mul]
    refine (abs_add_le _ _).trans (add_le_add ih ?_)
    have he := moonE_le (by norm_num) h hi
    have hs := abs_sin_le_one (moonTheta a m m' d f).1
    have hc := abs_cos_le_one (moonTheta a m m' d f).1
    have hth : |(moonTheta a m m' d f).2| ≤ (|(m : ℝ)| * 36001 + |(m' : ℝ)| * 477211 + |(d : ℝ)| * 445281 + |(f : ℝ)| * 483211) * (π / 180) := by
      simp only [moonTheta]
      refine (abs_add_le _ _).trans ?_
      refine (add_le_add_left ((abs_add_le _ _).trans (add_le_add_left (abs_add_le _ _) _)) _).trans ?_
      simp only [abs_mul]
      have g1 := mul_le_mul_of_nonneg_left h1 (abs_nonneg (m : ℝ))
      have g2 := mul_le_mul_of_nonneg_left h2 (abs_nonneg (m' : ℝ))
      have g3 := mul_le_mul_of_nonneg_left h3 (abs_nonneg (d : ℝ))
      have g4 := mul_le_mul_of_nonneg_left h4 (abs_nonneg (f : ℝ))
      linarith
    have hden : |(moonE a i).2| ≤ 1 * (π / 180) := by
      have pp := pi_gt_three
      have : i = 0 ∨ i = 1 ∨ i = 2 := by omega
      rcases this with rfl | rfl | rfl
      · simp [moonE]; positivity
      · simp [moonE]; linarith
      · simp only [moonE, OfNat.ofNat_ne_zero, if_false, OfNat.ofNat_ne_one]
        rw [abs_mul, abs_mul, abs_two]
        have : |a.e| * |a.de| ≤ 1.07 * 0.003 := mul_le_mul h hde (abs_nonneg _) (by norm_num)
        linarith
    rw [abs_mul, mul_assoc |c|]
    refine mul_le_mul_of_nonneg_left ?_ (abs_nonneg c)
    refine (abs_add_le _ _).trans ?_
    rw [abs_mul, abs_mul, abs_mul, abs_neg, add_mul]
    refine add_le_add ?_ ?_
    · calc _ ≤ 1 * ((|(m : ℝ)| * 36001 + |(m' : ℝ)| * 477211 + |(d : ℝ)| * 445281 + |(f : ℝ)| * 483211) * (π / 180)) * 1.07 ^ i := by gcongr
        _ = _ := by ring
    · calc _ ≤ 1 * (1 * (π / 180)) := by gcongr
        _ = _ := by ring

/-- Velocity in spherical coordinates. -/
theorem sph_vel (r b l dr db dl : ℝ) :
    let w := r * db * sin b - cos b * dr
    len ![-(r * cos b * sin l) * dl - w * cos l, r * cos b * cos l * dl - w * sin l, r * db * cos b + sin b * dr] = √(dr ^ 2 + (r * db) ^ 2 + (r * cos b * dl) ^ 2) := by
  intro w
  simp only [len, Fin.sum_univ_three, Matrix.cons_val_zero, Matrix.cons_val_one, Matrix.cons_val]
  congr 1
  have h1 := sin_sq_add_cos_sq b
  have h2 := sin_sq_add_cos_sq l
  simp only [w]
  linear_combination ((r * cos b * dl) ^ 2 + (r * db * sin b - cos b * dr) ^ 2) * h2 + (dr ^ 2 + (r * db) ^ 2) * h1

/-- The rates of longitude, latitude and distance. -/
theorem ecl_speed {t : ℝ} (ht : |t| ≤ 30) : 4.84e-9 ≤ len (moonEcl (smooth t)).v ∧ len (moonEcl (smooth t)).v ≤ 9.29e-9 := by
  obtain ⟨r0, r1, r2, r3, r4, r5, r6⟩ := args_rates ht
  have p3 := pi_gt_d4
  have p4 := pi_lt_d4
  have k : 0 < π / 180 := by positivity
  have sl := (moonSin_rate (ecc_le ht) r0 r1 r2 r3 r4 _ pow_TL).trans (mul_le_mul_of_nonneg_right sum_rate k.le)
  have sb := (moonSin_rate (ecc_le ht) r0 r1 r2 r3 r4 _ pow_TB).trans (mul_le_mul_of_nonneg_right sum_rate_TB k.le)
  have sp := (moonCos_rate (ecc_le ht) r0 r1 r2 r3 r4 _ pow_TP').trans (mul_le_mul_of_nonneg_right sum_rate_TP k.le)
  have pb := (moonSin_le (by norm_num) (ecc_le ht) _ pow_TB).trans sum_TB
  obtain ⟨q1, q2⟩ := par_range ht
  obtain ⟨u1, u2⟩ := sinPar_range q1 q2
  have hp := par_eq t
  have o1 : |(smooth t).dom| ≤ 34 := by
    have e : (smooth t).dom = (-1934.1420 + (2 * 0.002078 + 3 * 0.0000022 * t) * t) * (π / 180) := by simp only [smooth, moonArgs, moonArgD]; unfold dd2r; ring
    have c2 : t ^ 2 ≤ 900 := by rw [← sq_abs]; nlinarith [abs_nonneg t]
    have c0 : 0 ≤ t ^ 2 := sq_nonneg t
    have t1 := abs_le.1 ht
    rw [e, abs_mul, abs_of_pos k]
    have : |(-1934.1420 + (2 * 0.002078 + 3 * 0.0000022 * t) * t)| ≤ 1936 := by
      rw [abs_le]; constructor <;> nlinarith
    calc _ ≤ 1936 * (3.1416 / 180) := mul_le_mul this (by linarith) k.le (by norm_num)
      _ ≤ _ := by norm_num
  have o2 : |(smooth t).dwom| ≤ 34.1 := by
    have e : (smooth t).dwom = (smooth t).dom + dd2r * -2.30 := rfl
    rw [e]
    refine (abs_add_le _ _).trans ?_
    rw [dd2r, abs_mul, abs_of_pos k, abs_neg, abs_of_pos (show (0 : ℝ) < 2.30 by norm_num)]
    linarith
  unfold moonEcl
  dsimp only
  rw [hp]
  change 0.01525 < sin (moonPar t * (π / 180)) at u1
  change sin (moonPar t * (π / 180)) < 0.017935 at u2
  have hc := abs_cos_le_one (moonPar t * (π / 180))
  generalize sin (moonPar t * (π / 180)) = S at *
  generalize cos (moonPar t * (π / 180)) = C at *
  have hlat : |(moonSin (smooth t) moonTB).1 * (1 - 0.0004664 * cos (smooth t).om - 0.0000754 * cos (smooth t).wom)| ≤ 6.09 := by
    have c1 := abs_le.1 (abs_cos_le_one (smooth t).om)
    have c2 := abs_le.1 (abs_cos_le_one (smooth t).wom)
    rw [abs_mul]
    calc _ ≤ 6.084 * 1.0006 := mul_le_mul pb (by rw [abs_le]; constructor <;> linarith) (abs_nonneg _) (by norm_num)
      _ ≤ 6.09 := by norm_num
  have hdb : |(moonSin (smooth t) moonTB).2 * (1 - 0.0004664 * cos (smooth t).om - 0.0000754 * cos (smooth t).wom) +
      (moonSin (smooth t) moonTB).1 * (0.0004664 * (smooth t).dom * sin (smooth t).om + 0.0000754 * (smooth t).dwom * sin (smooth t).wom)| ≤ 63380 := by
    have c1 := abs_le.1 (abs_cos_le_one (smooth t).om)
    have c2 := abs_le.1 (abs_cos_le_one (smooth t).wom)
    refine (abs_add_le _ _).trans ?_
    rw [abs_mul, abs_mul]
    have m1 : |(moonSin (smooth t) moonTB).2| * |1 - 0.0004664 * cos (smooth t).om - 0.0000754 * cos (smooth t).wom| ≤ 3629000 * (3.1416 / 180) * 1.00055 :=
      mul_le_mul (sb.trans (by linarith)) (by rw [abs_le]; constructor <;> linarith) (abs_nonneg _) (by norm_num)
    have m2 : |0.0004664 * (smooth t).dom * sin (smooth t).om + 0.0000754 * (smooth t).dwom * sin (smooth t).wom| ≤ 0.02 := by
      refine (abs_add_le _ _).trans ?_
      rw [abs_mul, abs_mul, abs_mul, abs_mul, abs_of_pos (by norm_num : (0 : ℝ) < 0.0004664), abs_of_pos (by norm_num : (0 : ℝ) < 0.0000754)]
      have n1 := mul_le_mul o1 (abs_sin_le_one (smooth t).om) (abs_nonneg _) (by norm_num)
      have n2 := mul_le_mul o2 (abs_sin_le_one (smooth t).wom) (abs_nonneg _) (by norm_num)
      linarith
    have m3 := mul_le_mul pb m2 (abs_nonneg _) (by norm_num)
    linarith
  have hdl : 371000 * (π / 180) ≤ (smooth t).delp + dd2r * (moonSin (smooth t) moonTL).2 ∧ (smooth t).delp + dd2r * (moonSin (smooth t) moonTL).2 ≤ 591000 * (π / 180) := by
    have hb : |dd2r * (moonSin (smooth t) moonTL).2| ≤ 109200 * (π / 180) := by
      rw [dd2r, abs_mul, abs_of_pos k, mul_comm]
      apply mul_le_mul_of_nonneg_right _ k.le
      refine sl.trans ?_
      linarith
    rw [abs_le] at hb
    constructor <;> linarith [hb.1, hb.2]
  clear r0 r1 r2 r3 r4 r5 r6 sl sb pb o1 o2 hp
  have e := sph_vel (4.2635212653763e-5 / S) (dd2r * (moonSin (smooth t) moonTB).1 * (1 - 0.0004664 * cos (smooth t).om - 0.0000754 * cos (smooth t).wom)) ((smooth t).elp + dd2r * (moonSin (smooth t) moonTL).1)
    (-(4.2635212653763e-5 / S) * (dd2r * (moonCos (smooth t) moonTP).2 / 3155760000) * C / S)
    (dd2r * ((moonSin (smooth t) moonTB).2 * (1 - 0.0004664 * cos (smooth t).om - 0.0000754 * cos (smooth t).wom) +
      (moonSin (smooth t) moonTB).1 * (0.0004664 * (smooth t).dom * sin (smooth t).om + 0.0000754 * (smooth t).dwom * sin (smooth t).wom)) / 3155760000)
    (((smooth t).delp + dd2r * (moonSin (smooth t) moonTL).2) / 3155760000)
  dsimp only at e
  rw [e]
  clear e
  rw [mul_assoc dd2r (moonSin (smooth t) moonTB).1]
  generalize (moonSin (smooth t) moonTB).1 * (1 - 0.0004664 * cos (smooth t).om - 0.0000754 * cos (smooth t).wom) = B at *
  generalize (moonSin (smooth t) moonTB).2 * (1 - 0.0004664 * cos (smooth t).om - 0.0000754 * cos (smooth t).wom) +
      (moonSin (smooth t) moonTB).1 * (0.0004664 * (smooth t).dom * sin (smooth t).om + 0.0000754 * (smooth t).dwom * sin (smooth t).wom) = B' at *
  generalize (smooth t).delp + dd2r * (moonSin (smooth t) moonTL).2 = D at *
  generalize (moonCos (smooth t) moonTP).2 = P' at *
  have S0 : 0 < S := by linarith
  have rr1 : 0.002377 ≤ 4.2635212653763e-5 / S := by rw [le_div_iff₀ S0]; norm_num at *; linarith
  have rr2 : 4.2635212653763e-5 / S ≤ 0.002796 := by rw [div_le_iff₀ S0]; norm_num at *; linarith
  generalize 4.2635212653763e-5 / S = r at *
  have b1 : |dd2r * B| ≤ 0.1064 := by
    rw [dd2r, abs_mul, abs_of_pos k]
    calc _ ≤ 3.1416 / 180 * 6.09 := mul_le_mul (by linarith) hlat (abs_nonneg _) (by norm_num)
      _ ≤ _ := by norm_num
  have cb : 0.994 ≤ cos (dd2r * B) := by
    have := one_sub_sq_div_two_le_cos (x := dd2r * B)
    have s := sq_abs (dd2r * B)
    have : |dd2r * B| ^ 2 ≤ 0.1064 ^ 2 := pow_le_pow_left₀ (abs_nonneg _) b1 2
    norm_num at *
    linarith
  have cb1 := cos_le_one (dd2r * B)
  generalize cos (dd2r * B) = c at *
  have d1 : 2.05e-6 ≤ D / 3155760000 := by rw [le_div_iff₀ (by norm_num)]; norm_num at *; linarith [hdl.1]
  have d2 : D / 3155760000 ≤ 3.27e-6 := by rw [div_le_iff₀ (by norm_num)]; norm_num at *; linarith [hdl.2]
  generalize D / 3155760000 = d at *
  have m1 : 4.84e-9 ≤ r * c * d := by
    calc (4.84e-9 : ℝ) ≤ 0.002377 * 0.994 * 2.05e-6 := by norm_num
      _ ≤ r * c * d := by gcongr
  have m2 : r * c * d ≤ 9.143e-9 := by
    have : r * c ≤ 0.002796 * 1 := mul_le_mul rr2 cb1 (by linarith) (by norm_num)
    calc r * c * d ≤ 0.002796 * 1 * 3.27e-6 := mul_le_mul this d2 (by norm_num at *; linarith) (by norm_num)
      _ ≤ _ := by norm_num
  have m3 : |r * (dd2r * B' / 3155760000)| ≤ 9.83e-10 := by
    rw [dd2r, abs_mul, abs_div, abs_mul, abs_of_pos k, abs_of_pos (show 0 < r by linarith), abs_of_pos (show (0 : ℝ) < 3155760000 by norm_num)]
    have g : π / 180 * |B'| ≤ 3.1416 / 180 * 63380 := mul_le_mul (by linarith) hdb (abs_nonneg _) (by norm_num)
    have g2 : π / 180 * |B'| / 3155760000 ≤ 3.1416 / 180 * 63380 / 3155760000 := div_le_div_of_nonneg_right g (by norm_num)
    exact (mul_le_mul rr2 g2 (by positivity) (by norm_num)).trans (by norm_num)
  have m4 : |-r * (dd2r * P' / 3155760000) * C / S| ≤ 9.4e-10 := by
    rw [dd2r, abs_div, abs_mul, abs_mul, abs_neg, abs_div, abs_mul, abs_of_pos k, abs_of_pos (show 0 < r by linarith), abs_of_pos (show (0 : ℝ) < 3155760000 by norm_num), abs_of_pos S0]
    have sp' : |P'| ≤ 916 := sp.trans (by linarith)
    have g : π / 180 * |P'| ≤ 3.1416 / 180 * 916 := mul_le_mul (by linarith) sp' (abs_nonneg _) (by norm_num)
    have g2 : π / 180 * |P'| / 3155760000 ≤ 3.1416 / 180 * 916 / 3155760000 := div_le_div_of_nonneg_right g (by norm_num)
    have g3 := mul_le_mul (mul_le_mul rr2 g2 (by positivity) (by norm_num)) hc (abs_nonneg _) (by norm_num)
    rw [div_le_iff₀ S0]
    refine g3.trans ?_
    norm_num at *
    linarith
  generalize r * (dd2r * B' / 3155760000) = x at *
  generalize -r * (dd2r * P' / 3155760000) * C / S = y at *
  generalize r * c * d = z at *
  have x2 := sq_le_sq' (abs_le.1 m3).1 (abs_le.1 m3).2
  have y2 := sq_le_sq' (abs_le.1 m4).1 (abs_le.1 m4).2
  have z2 : z ^ 2 ≤ 9.143e-9 ^ 2 := pow_le_pow_left₀ (by norm_num at *; linarith) m2 2
  constructor
  · refine Real.le_sqrt_of_sq_le ?_
    have : (4.84e-9 : ℝ) ^ 2 ≤ z ^ 2 := pow_le_pow_left₀ (by norm_num) m1 2
    nlinarith [sq_nonneg x, sq_nonneg y]
  · refine Real.sqrt_le_iff.2 ⟨by norm_num, ?_⟩
    norm_num at x2 y2 z2 ⊢
    linarith

/-- **C120** (speed) For thirty centuries before and after 1900 the speed of the Moon that palDmoon returns is between 4.8e-9 and 9.3e-9 AU per second (0.72 and 1.4 km/s). -/
theorem C120_speed (d : ℝ) (hd : |d - 15019.5| ≤ 1095750) : 4.8e-9 < len (palDmoon d).v ∧ len (palDmoon d).v < 9.3e-9 := by
  have ht : |(d - 15019.5) / 36525| ≤ 30 := by
    rw [abs_div, abs_of_pos (show (0 : ℝ) < 36525 by norm_num), div_le_iff₀ (by norm_num)]
    linarith
  obtain ⟨h1, h2⟩ := ecl_speed ht
  rw [← moonEcl_turn (turn_smooth _)] at h1 h2
  obtain ⟨l1, l2⟩ := len_frame d (moonEcl (moonArgs ((d - 15019.5) / 36525))).v
  rw [(dmoon_frame d).2]
  have hq := shift_range d hd
  refine ⟨by norm_num at *; linarith, l2.trans_lt ?_⟩
  calc _ ≤ 1.0002 * 9.29e-9 := mul_le_mul (by linarith) h2 (len_nonneg _) (by norm_num)
    _ < _ := by norm_num

/-- The direction of a vector changes by no more than the angle whose sine is the relative change of the vector. -/
theorem dir_shift {M Q u : Vec3} {s : ℝ} (hu : dot u u = 1) (hQ : Q = fun i => len Q * u i) (h : len (fun i => M i - Q i) ≤ s * len M) (hs0 : 0 ≤ s) (hs : s < 1 / 2) (hM : 0 < len M) :
    √(1 - s ^ 2) * len M ≤ dot u M := by
  have hMM := len_sq M
  have he := len_sq (fun i => M i - Q i)
  have lu : len u = 1 := len_one hu
  set e : Vec3 := fun i => M i - Q i with hedef
  have d1 : dot u M = len Q + dot u e := by
    have : dot u e = dot u M - len Q * dot u u := by
      rw [hedef]; simp only [dot_eq]
      rw [congrFun hQ 0, congrFun hQ 1, congrFun hQ 2]; ring
    rw [this, hu]; ring
  have ce := abs_le.1 (dot_le_len u e)
  rw [lu, one_mul] at ce
  have lq : len M - len e ≤ len Q := by
    have := len_add_le Q e
    have e2 : (fun i => Q i + e i) = M := by funext i; simp [hedef]
    rw [e2] at this
    linarith
  have pos : 0 ≤ dot u M := by nlinarith
  -- the part of M across u is that of e
  have key : dot M M - dot u M * dot u M = dot e e - dot u e * dot u e := by
    have q : dot M M = len Q * len Q + 2 * len Q * dot u e + dot e e := by
      have : ∀ i, M i = len Q * u i + e i := fun i => by rw [hedef]; have := congrFun hQ i; simp only at *; linarith
      simp only [dot_eq] at hu ⊢
      rw [this 0, this 1, this 2]
      linear_combination len Q * len Q * hu
    rw [q, d1]; ring
  have hee : dot e e ≤ s ^ 2 * dot M M := by
    rw [← he, ← hMM]
    have := mul_self_le_mul_self (len_nonneg e) h
    linarith
  refine abs_le_of_sq_le_sq' ?_ pos |>.2
  rw [mul_pow, Real.sq_sqrt (by nlinarith), sq (len M), hMM, sq (dot u M)]
  nlinarith [mul_self_nonneg (dot u e)]

/-- **C120** (parallax) For thirty centuries before and after 1900 palRdplan puts the Moon, seen from anywhere on the Earth's surface and whatever the nutation series and sidereal time, within 1.03 degrees of the
geocentric direction of palDmoon (rotated to the true equator): the horizontal parallax at perigee and the light time. -/
theorem C120_parallax (T : Theory) (plan94 : ℝ → ℝ → ℤ → PV × ℤ) (gst : ℝ → ℝ) (date elong phi : ℝ) (hd : |date - 15019.5| ≤ 1095750) :
    ∃ ra dec diam, palRdplan T plan94 palDmoon gst date 3 elong phi = some (ra, dec, diam) ∧
      cos (1.03 * (π / 180)) * len (palDmoon date).p ≤ dot (dir ra dec) ((palNut T date).mulVec (palDmoon date).p) := by
  obtain ⟨m1, m2⟩ := C88_distance date hd
  obtain ⟨v1, v2⟩ := C120_speed date hd
  obtain ⟨-, o2⟩ := pvobs_len phi (gst date + elong)
  obtain ⟨-, -, -, o3⟩ := C48_pvobs phi 0 (gst date + elong)
  have hN : IsRotation (palNut T date) := deuler_rot _ _ _ _
  obtain ⟨-, h⟩ := C68_rdplan T plan94 palDmoon gst date 3 elong phi _ rfl _ _ rfl rfl
  set P := (geoBody (palPrenut T 2000 date) (palNut T date) (fun k => (palPlanet plan94 date k).1) (palDmoon date) 3).p - (observerAt gst date elong phi).p with hP
  set V := (geoBody (palPrenut T 2000 date) (palNut T date) (fun k => (palPlanet plan94 date k).1) (palDmoon date) 3).v - (observerAt gst date elong phi).v with hV
  set M := (palNut T date).mulVec (palDmoon date).p with hM
  have eP : P = M - (palPvobs phi 0 (gst date + elong)).1 := rfl
  have eV : V = (palNut T date).mulVec (palDmoon date).v - (palPvobs phi 0 (gst date + elong)).2 := rfl
  have lM : len M = len (palDmoon date).p := rot_len hN _
  have lv : len (palPvobs phi 0 (gst date + elong)).2 ≤ 3.2e-9 := by
    rw [o3]
    have : √((palPvobs phi 0 (gst date + elong)).1 0 ^ 2 + (palPvobs phi 0 (gst date + elong)).1 1 ^ 2) ≤ len (palPvobs phi 0 (gst date + elong)).1 := by
      unfold len
      refine Real.sqrt_le_sqrt ?_
      rw [Fin.sum_univ_three]
      linarith [sq_nonneg ((palPvobs phi 0 (gst date + elong)).1 2)]
    have : 7.2921150e-5 * √((palPvobs phi 0 (gst date + elong)).1 0 ^ 2 + (palPvobs phi 0 (gst date + elong)).1 1 ^ 2) ≤ 7.2921150e-5 * (6378.137 / 149597870.7) := by
      refine mul_le_mul_of_nonneg_left (this.trans o2) (by norm_num)
    exact this.trans (by norm_num)
  have lV : len V ≤ 1.26e-8 := by
    have := len_sub_le ((palNut T date).mulVec (palDmoon date).v) (palPvobs phi 0 (gst date + elong)).2
    rw [rot_len hN] at this
    rw [eV]
    refine le_trans (le_of_eq rfl) (this.trans ?_)
    norm_num at *
    linarith
  have lP := abs_le.1 (len_shift M (palPvobs phi 0 (gst date + elong)).1)
  rw [← eP, lM] at lP
  have hR : bodyRadius 3 = 1738 := rfl
  rw [hR] at h
  obtain ⟨ra, dec, diam, e, ⟨-, pl, -, -⟩, -⟩ := h (by norm_num at *; linarith [lP.1])
  refine ⟨ra, dec, diam, e, ?_⟩
  have lP2 : len P ≤ 0.00284 := by norm_num at *; linarith [lP.2]
  have sh : len (fun i => M i - (P - (499.004782 * len P) • V) i) ≤ 4.2654e-5 := by
    have a := len_add_le (palPvobs phi 0 (gst date + elong)).1 (fun i => 499.004782 * len P * V i)
    rw [len_smul, abs_of_nonneg (mul_nonneg (by norm_num) (len_nonneg P))] at a
    have e1 : (fun i => M i - (P - (499.004782 * len P) • V) i) = fun i => (palPvobs phi 0 (gst date + elong)).1 i + 499.004782 * len P * V i := by
      funext i; rw [eP]; simp only [Pi.sub_apply, Pi.smul_apply, smul_eq_mul]; ring
    rw [e1]
    have b : 499.004782 * len P * len V ≤ 499.004782 * 0.00284 * 1.26e-8 := mul_le_mul (mul_le_mul_of_nonneg_left lP2 (by norm_num)) lV (len_nonneg V) (by norm_num)
    norm_num at *
    linarith
  have k := dir_shift (M := M) (Q := P - (499.004782 * len P) • V) (u := dir ra dec) (s := 0.01795) (dot_dir ra dec) (by conv_lhs => rw [pl]
                                                                                                                         rfl) (sh.trans (by rw [lM]; norm_num at *; linarith)) (by norm_num) (by norm_num)
      (by rw [lM]; linarith)
  rw [lM] at k
  refine le_trans (mul_le_mul_of_nonneg_right ?_ (len_nonneg _)) k
  refine Real.le_sqrt_of_sq_le ?_
  have sc := sin_sq_add_cos_sq (1.03 * (π / 180))
  have p3 := pi_gt_d4
  have p4 := pi_lt_d4
  have s1 : 0.01795 ≤ sin (1.03 * (π / 180)) := by
    have := sin_gt_sub_cube (show 0 < 1.03 * (π / 180) by positivity)
    have e1 : 0.017976 ≤ 1.03 * (π / 180) := by linarith
    have e2 : 1.03 * (π / 180) ≤ 0.01798 := by linarith
    have e3 : (1.03 * (π / 180)) ^ 3 ≤ 0.01798 ^ 3 := pow_le_pow_left₀ (by positivity) e2 3
    norm_num at *
    linarith
  have := pow_le_pow_left₀ (by norm_num) s1 2
  linarith


/-- The hypothesis holds e.g. for J2000.0. -/
example : |(51544.5 : ℝ) - 15019.5| ≤ 1095750 := by norm_num [abs_le]

end Pal.Props
