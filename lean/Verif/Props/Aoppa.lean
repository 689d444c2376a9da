import Verif.Props.Aop
import Verif.Props.Coord2
import Verif.Props.Refr2

/-!
# Property C57: the parameters for observed places (palAoppa, palAoppat) and the one-shot forms palAop and palOap
-/

namespace Pal.Props
open Pal Pal.Spec Real

/-- Greenwich mean sidereal time (IAU 1982), as a continuously growing angle: one turn per day of UT plus the polynomial in centuries since J2000 (seconds of time). -/
noncomputable def gmst1982 (ut1 : ℝ) : ℝ :=
  let T := (ut1 - 51544.5) / 36525
  2 * π * ut1 + (24110.54841 + 8640184.812866 * T + 0.093104 * T ^ 2 - 6.2e-6 * T ^ 3) * (2 * π / 86400)

/-- **C57** (sidereal time) palAoppat sets the sidereal time to the Greenwich mean sidereal time of the date, in the range 0 to 2π, plus the longitude term in the array. -/
theorem C57_sidereal_time (date : ℝ) (p : Aoprms) :
    ∃ g ∈ Set.Ico 0 (2 * π), SameAngle g (gmst1982 date) ∧ (palAoppat date p).st = g + p.plon := by
  refine ⟨aopGmst date, (eraAnp_spec _).1, ?_, rfl⟩
  unfold aopGmst palDranrm gmst1982 ds2r
  dsimp only
  refine (eraAnp_spec _).2.trans ?_
  obtain ⟨-, -, -, h⟩ := fmod_spec date one_pos
  refine ⟨-(truncR (date / 1)), ?_⟩
  rw [h]
  push_cast
  ring

/-- **C57** (nothing else changes) palAoppat changes only the sidereal time. -/
theorem C57_only_sidereal_time (date : ℝ) (p : Aoprms) :
    let q := palAoppat date p
    q.phi = p.phi ∧ q.sphi = p.sphi ∧ q.cphi = p.cphi ∧ q.diurab = p.diurab ∧ q.hm = p.hm ∧ q.tdk = p.tdk ∧ q.pmb = p.pmb ∧ q.rh = p.rh ∧ q.wl = p.wl ∧ q.tlr = p.tlr ∧
      q.refa = p.refa ∧ q.refb = p.refb ∧ q.plon = p.plon := ⟨rfl, rfl, rfl, rfl, rfl, rfl, rfl, rfl, rfl, rfl, rfl, rfl, rfl⟩

/-- The site vector with the small-angle polar motion correction. -/
noncomputable def displacedSite (elongm phim xp yp : ℝ) : Fin 3 → ℝ :=
  let t := dir elongm phim
  ![t 0 - xp * t 2, t 1 + yp * t 2, t 2 + xp * t 0 - yp * t 1]

theorem displaced_len (elongm phim xp yp : ℝ) : 1 ≤ len (displacedSite elongm phim xp yp) := by
  have hu : dot (dir elongm phim) (dir elongm phim) = 1 := dot_of_len (len_dir _ _)
  have h := dot_le_len (displacedSite elongm phim xp yp) (dir elongm phim)
  have e : dot (displacedSite elongm phim xp yp) (dir elongm phim) = 1 := by
    rw [← hu]
    simp only [displacedSite, dot_eq, Matrix.cons_val_zero, Matrix.cons_val_one, Matrix.cons_val]
    ring
  rw [e, len_dir] at h
  simpa using h

theorem site_spec (elongm phim xp yp : ℝ) : dir (aopSite elongm phim xp yp).1 (aopSite elongm phim xp yp).2 = unit (displacedSite elongm phim xp yp) := by
  set t := displacedSite elongm phim xp yp with ht
  have hl : 0 < len t := lt_of_lt_of_le one_pos (displaced_len elongm phim xp yp)
  have e0 : t 0 = cos elongm * cos phim - xp * sin phim := by simp [ht, displacedSite, dir]; ring
  have e1 : t 1 = sin elongm * cos phim + yp * sin phim := by simp [ht, displacedSite, dir]; ring
  have e2 : t 2 = xp * (cos elongm * cos phim) - yp * (sin elongm * cos phim) + sin phim := by simp [ht, displacedSite, dir]; ring
  have hs : aopSite elongm phim xp yp = (atan2 (t 1) (t 0), atan2 (t 2) (√(t 0 * t 0 + t 1 * t 1))) := by
    unfold aopSite
    dsimp only
    rw [← e0, ← e1, ← e2]
    congr 1
    split_ifs with h
    · rw [h.1, h.2, atan2_zero]
    · rfl
  rw [hs]
  have := sph_of_cart (t 0) (t 1) (t 2) (atan2 (t 1) (t 0)) (fun _ => Or.inl rfl)
  funext i
  unfold unit
  rw [eq_div_iff hl.ne', mul_comm, len_eq, dot_eq]
  refine (congrFun this i).trans ?_
  fin_cases i <;> rfl

/-- **C57** (what palAoppa computes) For every date and site palAoppa delivers parameters: the geodetic latitude phi (with its sine and cosine) and a longitude of the site displaced by the
polar motion, the diurnal aberration (rotational speed in units of the speed of light, from the distance to the axis on the reference spheroid), copies of the meteorological
parameters, the palRefco constants at that latitude, and the local apparent sidereal time. -/
theorem C57_aoppa (eqeqx : ℝ → ℝ) (date dut elongm phim hm xp yp tdk pmb rh wl tlr : ℝ) :
    ∃ p elong, palAoppa eqeqx date dut elongm phim hm xp yp tdk pmb rh wl tlr = some p ∧
      dir elong p.phi = unit (displacedSite elongm phim xp yp) ∧ |p.phi| ≤ π / 2 ∧ p.sphi = sin p.phi ∧ p.cphi = cos p.phi ∧
      p.diurab * 173.14463331 = 1.0027379093 * (2 * π) * ((6378140 / √(cos p.phi ^ 2 + (1 - 1 / 298.257) ^ 2 * sin p.phi ^ 2) + hm) * cos p.phi / 1.49597870e11) ∧
      (p.hm, p.tdk, p.pmb, p.rh, p.wl, p.tlr) = (hm, tdk, pmb, rh, wl, tlr) ∧ palRefco hm tdk pmb rh wl p.phi tlr 1e-10 = some (p.refa, p.refb) ∧
      p.plon = elong + eqeqx date + dut * 1.0027379093 * (2 * π / 86400) ∧ SameAngle p.st (gmst1982 date + p.plon) := by
  obtain ⟨r1, r2, a, b, -, -, hab, -, -⟩ := C50_refco hm tdk pmb rh wl (aopSite elongm phim xp yp).2 tlr 1e-10
  set site := aopSite elongm phim xp yp with hsite
  set q : Aoprms := { phi := site.2, sphi := sin site.2, cphi := cos site.2, diurab := 2 * π * (aopGeoc site.2 hm).1 * 1.0027379093 / 173.14463331, hm := hm, tdk := tdk, pmb := pmb, rh := rh, wl := wl, tlr := tlr, refa := a, refb := b, plon := site.1 + eqeqx date + dut * 1.0027379093 * ds2r, st := 0 } with hq
  obtain ⟨g, -, hg, hst⟩ := C57_sidereal_time date q
  have hout : palAoppa eqeqx date dut elongm phim hm xp yp tdk pmb rh wl tlr = some (palAoppat date q) := by
    unfold palAoppa
    dsimp only
    rw [← hsite, hab]
  refine ⟨palAoppat date q, site.1, hout, site_spec _ _ _ _, ?_, rfl, rfl, ?_, rfl, hab, rfl, ?_⟩
  · show |site.2| ≤ π / 2
    rw [hsite]
    unfold aopSite
    exact abs_atan2_le (sqrt_nonneg _)
  · show 2 * π * (aopGeoc site.2 hm).1 * 1.0027379093 / 173.14463331 * 173.14463331 = _
    rw [div_mul_cancel₀ _ (by norm_num)]
    show 2 * π * (aopGeoc site.2 hm).1 * 1.0027379093 = 1.0027379093 * (2 * π) * ((6378140 / √(cos site.2 ^ 2 + (1 - 1 / 298.257) ^ 2 * sin site.2 ^ 2) + hm) * cos site.2 / 1.49597870e11)
    unfold aopGeoc
    dsimp only
    rw [show cos site.2 * cos site.2 + (1 - 1 / 298.257) ^ 2 * sin site.2 * sin site.2 = cos site.2 ^ 2 + (1 - 1 / 298.257) ^ 2 * sin site.2 ^ 2 by ring]
    ring
  · obtain ⟨k, hk⟩ := hg
    refine ⟨k, ?_⟩
    rw [hst, hk]
    show gmst1982 date + k * (2 * π) + q.plon = gmst1982 date + q.plon + k * (2 * π)
    ring

/-- **C57** (size of the diurnal aberration) Between 1000 m below and 80 km above sea level the diurnal aberration is between 0 and 1.6e-6, so that C56 applies to the parameters palAoppa returns. -/
theorem C57_diurab_range {eqeqx : ℝ → ℝ} {date dut elongm phim hm xp yp tdk pmb rh wl tlr : ℝ} {p : Aoprms} (h1 : -1000 ≤ hm) (h2 : hm ≤ 80000)
    (h : palAoppa eqeqx date dut elongm phim hm xp yp tdk pmb rh wl tlr = some p) : 0 ≤ p.diurab ∧ p.diurab ≤ 1.6e-6 ∧ ParamsOk p := by
  obtain ⟨p', elong, hp, -, hphi, hs, hc, hd, -⟩ := C57_aoppa eqeqx date dut elongm phim hm xp yp tdk pmb rh wl tlr
  rw [h] at hp
  cases hp
  have hcos : 0 ≤ cos p.phi := cos_nonneg_of_neg_pi_div_two_le_of_le (abs_le.1 hphi).1 (abs_le.1 hphi).2
  have hcos1 := cos_le_one p.phi
  have hsc := sin_sq_add_cos_sq p.phi
  set D := cos p.phi ^ 2 + (1 - 1 / 298.257) ^ 2 * sin p.phi ^ 2 with hD
  have hD1 : 0.99 ≤ D := by
    rw [hD]
    have e : (0.99 : ℝ) ≤ (1 - 1 / 298.257) ^ 2 := by norm_num
    have h3 := mul_le_mul_of_nonneg_right e (sq_nonneg (sin p.phi))
    have h4 : (0.99 : ℝ) * cos p.phi ^ 2 ≤ 1 * cos p.phi ^ 2 := mul_le_mul_of_nonneg_right (by norm_num) (sq_nonneg _)
    have h5 : (0.99 : ℝ) * (sin p.phi ^ 2 + cos p.phi ^ 2) = 0.99 := by rw [hsc, mul_one]
    linarith
  have hDc : cos p.phi ^ 2 ≤ D := by rw [hD]; nlinarith [mul_nonneg (sq_nonneg (1 - 1 / 298.257 : ℝ)) (sq_nonneg (sin p.phi))]
  have hDle : D ≤ 1 := by
    rw [hD]
    have e : (1 - 1 / 298.257 : ℝ) ^ 2 ≤ 1 := by norm_num
    have h3 := mul_le_mul_of_nonneg_right e (sq_nonneg (sin p.phi))
    linarith
  have hsq : 0 < √D := sqrt_pos.2 (lt_of_lt_of_le (by norm_num) hD1)
  have hsq1 : √D ≤ 1 := sqrt_le_one.2 hDle
  have hcs : cos p.phi ≤ √D := Real.le_sqrt_of_sq_le hDc
  set u := (6378140 / √D + hm) * cos p.phi with hu
  have hu0 : 0 ≤ u := by
    apply mul_nonneg _ hcos
    have : (6378140 : ℝ) ≤ 6378140 / √D := by rw [le_div_iff₀ hsq]; linarith
    linarith
  have hu1 : u ≤ 6458140 := by
    have e : u = 6378140 * (cos p.phi / √D) + hm * cos p.phi := by rw [hu]; ring
    have h3 : cos p.phi / √D ≤ 1 := by rw [div_le_one hsq]; exact hcs
    have h4 : hm * cos p.phi ≤ 80000 := by nlinarith
    rw [e]; linarith
  have hpi := pi_pos
  have hpi2 := pi_lt_d4
  have r0 : 0 ≤ p.diurab := by
    have : 0 ≤ p.diurab * 173.14463331 := by rw [hd]; positivity
    by_contra hcon
    push Not at hcon
    have : p.diurab * 173.14463331 < 0 := mul_neg_of_neg_of_pos hcon (by norm_num)
    linarith
  have r1 : p.diurab ≤ 1.6e-6 := by
    have h3 : p.diurab * 173.14463331 ≤ 1.6e-6 * 173.14463331 := by
      rw [hd]
      calc 1.0027379093 * (2 * π) * (u / 1.49597870e11) ≤ 1.0027379093 * (2 * 3.1416) * (6458140 / 1.49597870e11) := by
            apply mul_le_mul _ (div_le_div_of_nonneg_right hu1 (by norm_num)) (by positivity) (by norm_num)
            nlinarith
        _ ≤ _ := by norm_num
    exact le_of_mul_le_mul_right h3 (by norm_num)
  exact ⟨r0, r1, hs, hc, by rw [abs_of_nonneg r0]; exact lt_of_le_of_lt r1 (by norm_num)⟩

/-- **C57** (no polar motion) Without polar motion the site keeps its latitude (given in the range ±π/2). -/
theorem C57_no_polar_motion {eqeqx : ℝ → ℝ} {date dut elongm phim hm tdk pmb rh wl tlr : ℝ} {p : Aoprms} (hphi : |phim| ≤ π / 2)
    (h : palAoppa eqeqx date dut elongm phim hm 0 0 tdk pmb rh wl tlr = some p) :
    p.phi = phim ∧ (cos phim ≠ 0 → SameAngle p.plon (elongm + eqeqx date + dut * 1.0027379093 * (2 * π / 86400))) := by
  obtain ⟨p', elong, hp, hdir, hphi', -, -, -, -, -, hplon, -⟩ := C57_aoppa eqeqx date dut elongm phim hm 0 0 tdk pmb rh wl tlr
  rw [h] at hp
  cases hp
  have e : displacedSite elongm phim 0 0 = dir elongm phim := by
    funext i; fin_cases i <;> simp [displacedSite]
  have e2 : unit (dir elongm phim) = dir elongm phim := by
    funext i; unfold unit; rw [len_dir, div_one]
  rw [e, e2] at hdir
  obtain ⟨h1, h2⟩ := dir_inj hdir hphi' hphi
  refine ⟨h1, fun hc => ?_⟩
  obtain ⟨k, hk⟩ := h2 (by rw [h1]; exact hc)
  exact ⟨k, by rw [hplon, hk]; ring⟩

theorem small_sin {x : ℝ} (h : |x| ≤ 1) : |sin x - x| ≤ 0.22 * |x| ^ 2 ∧ |cos x - 1| ≤ |x| ^ 2 / 2 ∧ |sin x| ≤ |x| := by
  refine ⟨?_, ?_, abs_sin_le_abs⟩
  · have h1 := Real.sin_bound h
    have h0 := abs_nonneg x
    have h2 : |sin x - x| ≤ |sin x - (x - x ^ 3 / 6)| + |x ^ 3 / 6| := by
      have := abs_add_le (sin x - (x - x ^ 3 / 6)) (-(x ^ 3 / 6))
      rw [abs_neg] at this
      refine le_trans (le_of_eq ?_) this
      congr 1; ring
    rw [abs_div, abs_pow, abs_of_pos (by norm_num : (0 : ℝ) < 6)] at h2
    have h3 : |x| ^ 3 ≤ |x| ^ 2 := by nlinarith [sq_nonneg |x|]
    have h4 : |x| ^ 5 ≤ |x| ^ 2 := pow_le_pow_of_le_one h0 h (by norm_num)
    have h5 : (0 : ℝ) ≤ |x| ^ 2 := sq_nonneg _
    calc |sin x - x| ≤ |x| ^ 5 / 100 + |x| ^ 3 / 6 := h2.trans (by linarith)
      _ ≤ 0.22 * |x| ^ 2 := by rw [show (0.22 : ℝ) = 22 / 100 by norm_num]; linarith
  · have := one_sub_sq_div_two_le_cos (x := x)
    have h2 := cos_le_one x
    rw [sq_abs, abs_le]
    constructor <;> linarith

theorem poly_bounds {a b : ℝ} (ha : 0 ≤ a) (hb : 0 ≤ b) :
    a ^ 2 / 2 + a * b + (0.22 * a ^ 2 + b ^ 2 / 2) ≤ (a + b) ^ 2 ∧ b ^ 2 / 2 + 0.22 * b ^ 2 ≤ (a + b) ^ 2 ∧
    0.22 * a ^ 2 + (0.22 * b ^ 2 + a ^ 2 / 2) + (a ^ 2 / 2 + b ^ 2 / 2) ≤ 1.22 * (a + b) ^ 2 := by
  have h := mul_nonneg ha hb
  refine ⟨?_, ?_, ?_⟩ <;> norm_num <;> nlinarith [sq_nonneg a, sq_nonneg b]

theorem polmo_vec (xp yp : ℝ) (t : Fin 3 → ℝ) : (axisY xp * axisX yp).mulVec t =
    ![t 0 * cos xp - (-t 1 * sin yp + t 2 * cos yp) * sin xp, t 1 * cos yp + t 2 * sin yp, t 0 * sin xp + (-t 1 * sin yp + t 2 * cos yp) * cos xp] := by
  rw [← Matrix.mulVec_mulVec]
  funext i
  fin_cases i <;> simp [axisX, axisY, Matrix.mulVec, dotProduct, Fin.sum_univ_three] <;> ring

/-- **C57** (agreement with palPolmo) The position of the site used by palAoppa agrees with the one palPolmo computes (C38) to the second order of the polar motion. -/
theorem C57_site_agrees_polmo {elongm phim xp yp : ℝ} {o : PolmoOut} (hx : |xp| ≤ 1) (hy : |yp| ≤ 1) (h : palPolmo elongm phim xp yp = some o) :
    len (fun i => unit (displacedSite elongm phim xp yp) i - dir o.elong o.phi i) ≤ 2 * (|xp| + |yp|) ^ 2 := by
  obtain ⟨hd, -⟩ := C38_polmo elongm phim xp yp o h
  set c := displacedSite elongm phim xp yp with hc
  have hcl := displaced_len elongm phim xp yp
  rw [← hc] at hcl
  have hu : dot (dir o.elong o.phi) (dir o.elong o.phi) = 1 := dot_of_len (len_dir _ _)
  have key := dir_near (s := 1) one_pos (lt_of_lt_of_le one_pos hcl) hu
  simp only [mul_one, one_mul] at key
  set X := len (fun i => unit c i - dir o.elong o.phi i) with hX
  have key' : len c * X ^ 2 ≤ len (fun i => c i - dir o.elong o.phi i) ^ 2 := key
  set t := dir elongm phim with ht
  have htu : dot t t = 1 := dot_of_len (len_dir _ _)
  rw [dot_eq] at htu
  have b0 : |t 0| ≤ 1 := by rw [abs_le]; constructor <;> nlinarith [mul_self_nonneg (t 1), mul_self_nonneg (t 2)]
  have b1 : |t 1| ≤ 1 := by rw [abs_le]; constructor <;> nlinarith [mul_self_nonneg (t 0), mul_self_nonneg (t 2)]
  have b2 : |t 2| ≤ 1 := by rw [abs_le]; constructor <;> nlinarith [mul_self_nonneg (t 1), mul_self_nonneg (t 0)]
  obtain ⟨sx, cx, sx'⟩ := small_sin hx
  obtain ⟨sy, cy, sy'⟩ := small_sin hy
  have hm : ∀ u v B : ℝ, |u| ≤ 1 → |v| ≤ B → |u * v| ≤ B := by
    intro u v B h1 h2
    rw [abs_mul]
    calc |u| * |v| ≤ 1 * |v| := mul_le_mul_of_nonneg_right h1 (abs_nonneg _)
      _ ≤ B := by linarith
  have hS0 : 0 ≤ |xp| := abs_nonneg _
  have hS1 : 0 ≤ |yp| := abs_nonneg _
  set a := |xp| with ha
  set b := |yp| with hb
  have m1 : |sin yp * sin xp| ≤ a * b := by
    rw [abs_mul, mul_comm]; exact mul_le_mul sx' sy' (abs_nonneg _) hS0
  have m2 : |sin xp * (cos yp - 1)| ≤ b ^ 2 / 2 := by
    rw [abs_mul]
    calc |sin xp| * |cos yp - 1| ≤ 1 * |cos yp - 1| := mul_le_mul_of_nonneg_right (abs_sin_le_one _) (abs_nonneg _)
      _ ≤ _ := by rw [one_mul]; exact cy
  have m3 : |sin yp * (cos xp - 1)| ≤ a ^ 2 / 2 := by
    rw [abs_mul]
    calc |sin yp| * |cos xp - 1| ≤ 1 * |cos xp - 1| := mul_le_mul_of_nonneg_right (abs_sin_le_one _) (abs_nonneg _)
      _ ≤ _ := by rw [one_mul]; exact cx
  have m4 : |cos xp * (cos yp - 1)| ≤ b ^ 2 / 2 := hm _ _ _ (abs_cos_le_one _) cy
  have d0 : |c 0 - dir o.elong o.phi 0| ≤ (a + b) ^ 2 := by
    have e : c 0 - dir o.elong o.phi 0 = -(t 0 * (cos xp - 1)) + -(t 1 * (sin yp * sin xp)) + (t 2 * (sin xp - xp) + t 2 * (sin xp * (cos yp - 1))) := by
      rw [hd, polmo_vec]
      simp only [hc, displacedSite, Matrix.cons_val_zero, ← ht]
      ring
    rw [e]
    refine (abs_add_le _ _).trans ?_
    have f1 := abs_add_le (-(t 0 * (cos xp - 1))) (-(t 1 * (sin yp * sin xp)))
    have f2 := abs_add_le (t 2 * (sin xp - xp)) (t 2 * (sin xp * (cos yp - 1)))
    rw [abs_neg, abs_neg] at f1
    have g1 := hm _ _ _ b0 cx
    have g2 := hm _ _ _ b1 m1
    have g3 := hm _ _ _ b2 sx
    have g4 := hm _ _ _ b2 m2
    have := (poly_bounds hS0 hS1).1
    linarith
  have d1 : |c 1 - dir o.elong o.phi 1| ≤ (a + b) ^ 2 := by
    have e : c 1 - dir o.elong o.phi 1 = -(t 1 * (cos yp - 1)) + -(t 2 * (sin yp - yp)) := by
      rw [hd, polmo_vec]
      simp only [hc, displacedSite, Matrix.cons_val_zero, Matrix.cons_val_one, ← ht]
      ring
    rw [e]
    have f1 := abs_add_le (-(t 1 * (cos yp - 1))) (-(t 2 * (sin yp - yp)))
    rw [abs_neg, abs_neg] at f1
    have g1 := hm _ _ _ b1 cy
    have g2 := hm _ _ _ b2 sy
    have := (poly_bounds hS0 hS1).2.1
    linarith
  have d2 : |c 2 - dir o.elong o.phi 2| ≤ 1.22 * (a + b) ^ 2 := by
    have e : c 2 - dir o.elong o.phi 2 = (-(t 0 * (sin xp - xp)) + (t 1 * (sin yp - yp) + t 1 * (sin yp * (cos xp - 1)))) + (-(t 2 * (cos xp - 1)) + -(t 2 * (cos xp * (cos yp - 1)))) := by
      rw [hd, polmo_vec]
      simp only [hc, displacedSite, Matrix.cons_val, ← ht]
      ring
    rw [e]
    have f0 := abs_add_le (-(t 0 * (sin xp - xp)) + (t 1 * (sin yp - yp) + t 1 * (sin yp * (cos xp - 1)))) (-(t 2 * (cos xp - 1)) + -(t 2 * (cos xp * (cos yp - 1))))
    have f1 := abs_add_le (-(t 0 * (sin xp - xp))) (t 1 * (sin yp - yp) + t 1 * (sin yp * (cos xp - 1)))
    have f2 := abs_add_le (t 1 * (sin yp - yp)) (t 1 * (sin yp * (cos xp - 1)))
    have f3 := abs_add_le (-(t 2 * (cos xp - 1))) (-(t 2 * (cos xp * (cos yp - 1))))
    rw [abs_neg] at f1
    rw [abs_neg, abs_neg] at f3
    have g1 := hm _ _ _ b0 sx
    have g2 := hm _ _ _ b1 sy
    have g3 := hm _ _ _ b1 m3
    have g4 := hm _ _ _ b2 cx
    have g5 := hm _ _ _ b2 m4
    have := (poly_bounds hS0 hS1).2.2
    linarith
  have hlen : len (fun i => c i - dir o.elong o.phi i) ≤ 2 * (a + b) ^ 2 := by
    apply len_le (by positivity)
    have q0 := pow_le_pow_left₀ (abs_nonneg _) d0 2
    have q1 := pow_le_pow_left₀ (abs_nonneg _) d1 2
    have q2 := pow_le_pow_left₀ (abs_nonneg _) d2 2
    rw [sq_abs] at q0 q1 q2
    have q3 := sq_nonneg ((a + b) ^ 2)
    calc (c 0 - dir o.elong o.phi 0) ^ 2 + (c 1 - dir o.elong o.phi 1) ^ 2 + (c 2 - dir o.elong o.phi 2) ^ 2 ≤
        ((a + b) ^ 2) ^ 2 + ((a + b) ^ 2) ^ 2 + (1.22 * (a + b) ^ 2) ^ 2 := add_le_add (add_le_add q0 q1) q2
      _ = 3.4884 * ((a + b) ^ 2) ^ 2 := by ring
      _ ≤ 4 * ((a + b) ^ 2) ^ 2 := mul_le_mul_of_nonneg_right (by norm_num) q3
      _ = (2 * (a + b) ^ 2) ^ 2 := by ring
  have hX0 : 0 ≤ X := len_nonneg _
  apply abs_le_of_sq_le_sq' _ (by positivity) |>.2
  calc X ^ 2 ≤ len c * X ^ 2 := by nlinarith [sq_nonneg X]
    _ ≤ _ := key'
    _ ≤ _ := pow_le_pow_left₀ (len_nonneg _) hlen 2

/-- A site at the equator with polar motion of 0.01 rad meets the hypotheses. -/
example : ∃ o, palPolmo 0 0 0.01 0 = some o := by
  unfold palPolmo
  dsimp only
  rw [if_neg ?_]
  · exact ⟨_, rfl⟩
  · simp only [sin_zero, cos_zero]
    apply ne_of_gt
    apply sqrt_pos.2
    have : 0 < cos 0.01 := cos_pos_of_mem_Ioo ⟨by have := pi_gt_three; norm_num at *; linarith, by have := pi_gt_three; norm_num at *; linarith⟩
    norm_num at *
    positivity

/-- **C57** (updating) Calling palAoppa for one date and then palAoppat for another differs from calling palAoppa for the second date only by the change of the equation of the equinoxes
between the dates, in the longitude term and in the sidereal time. -/
theorem C57_update (eqeqx : ℝ → ℝ) (date1 date2 dut elongm phim hm xp yp tdk pmb rh wl tlr : ℝ) :
    ∃ p1 p2, palAoppa eqeqx date1 dut elongm phim hm xp yp tdk pmb rh wl tlr = some p1 ∧ palAoppa eqeqx date2 dut elongm phim hm xp yp tdk pmb rh wl tlr = some p2 ∧
      palAoppat date2 p1 = { p2 with plon := p2.plon + (eqeqx date1 - eqeqx date2), st := p2.st + (eqeqx date1 - eqeqx date2) } := by
  obtain ⟨r1, r2, a, b, -, -, hab, -, -⟩ := C50_refco hm tdk pmb rh wl (aopSite elongm phim xp yp).2 tlr 1e-10
  have hout : ∀ date, palAoppa eqeqx date dut elongm phim hm xp yp tdk pmb rh wl tlr = some (palAoppat date
      { phi := (aopSite elongm phim xp yp).2, sphi := sin (aopSite elongm phim xp yp).2, cphi := cos (aopSite elongm phim xp yp).2,
        diurab := 2 * π * (aopGeoc (aopSite elongm phim xp yp).2 hm).1 * 1.0027379093 / 173.14463331, hm := hm, tdk := tdk, pmb := pmb, rh := rh, wl := wl, tlr := tlr,
        refa := a, refb := b, plon := (aopSite elongm phim xp yp).1 + eqeqx date + dut * 1.0027379093 * ds2r, st := 0 }) := by
    intro date
    unfold palAoppa
    dsimp only
    rw [hab]
  refine ⟨_, _, hout date1, hout date2, ?_⟩
  unfold palAoppat
  dsimp only
  congr 1 <;> ring

/-- **C57** (one-shot forms) palAop is palAoppa followed by palAopqk and palOap is palAoppa followed by palOapqk; both always deliver a result. -/
theorem C57_one_shot (eqeqx : ℝ → ℝ) (type : List Char) (ob1 ob2 rap dap date dut elongm phim hm xp yp tdk pmb rh wl tlr : ℝ) (h1 : -1000 ≤ hm) (h2 : hm ≤ 80000) :
    ∃ p o ra dec, palAoppa eqeqx date dut elongm phim hm xp yp tdk pmb rh wl tlr = some p ∧
      palAop eqeqx rap dap date dut elongm phim hm xp yp tdk pmb rh wl tlr = some o ∧ palAopqk rap dap p = some o ∧
      palOap eqeqx type ob1 ob2 date dut elongm phim hm xp yp tdk pmb rh wl tlr = some (ra, dec) ∧ palOapqk type ob1 ob2 p = some (ra, dec) := by
  obtain ⟨p, elong, hp, -⟩ := C57_aoppa eqeqx date dut elongm phim hm xp yp tdk pmb rh wl tlr
  obtain ⟨-, -, hok⟩ := C57_diurab_range h1 h2 hp
  obtain ⟨o, z, ho, -⟩ := C56_aopqk rap dap p hok
  have hoap : ∃ r, palOapqk type ob1 ob2 p = some r := by
    unfold palOapqk
    dsimp only
    have : ∀ s c z, ∃ D, oapRefr p s c z = some D := by
      intro s c z
      unfold oapRefr
      split_ifs
      · exact ⟨_, rfl⟩
      · exact ⟨_, observerRefr_spec p z⟩
    obtain ⟨D, hD⟩ := this (√(oapVector (obType type.head?) ob1 ob2 p 0 * oapVector (obType type.head?) ob1 ob2 p 0 + oapVector (obType type.head?) ob1 ob2 p 1 * oapVector (obType type.head?) ob1 ob2 p 1))
      (oapVector (obType type.head?) ob1 ob2 p 2) (atan2 (√(oapVector (obType type.head?) ob1 ob2 p 0 * oapVector (obType type.head?) ob1 ob2 p 0 + oapVector (obType type.head?) ob1 ob2 p 1 * oapVector (obType type.head?) ob1 ob2 p 1)) (oapVector (obType type.head?) ob1 ob2 p 2))
    rw [hD]
    exact ⟨_, rfl⟩
  obtain ⟨⟨ra, dec⟩, hr⟩ := hoap
  refine ⟨p, o, ra, dec, hp, ?_, ho, ?_, hr⟩
  · unfold palAop; rw [hp]; exact ho
  · unfold palOap; rw [hp]; exact hr

/-- **C81** (palOap undoes palAop) For a site between -1000 m and 80 km, with realistic refraction constants at the site, palOap with the same parameters undoes palAop to better than a
microarcsecond for a source whose topocentric zenith distance is at most 75 degrees. -/
theorem C81_round_trip_partial {eqeqx : ℝ → ℝ} {rap dap date dut elongm phim hm xp yp tdk pmb rh wl tlr : ℝ} {p : Aoprms} (h1 : -1000 ≤ hm) (h2 : hm ≤ 80000)
    (hp : palAoppa eqeqx date dut elongm phim hm xp yp tdk pmb rh wl tlr = some p) (hA : RealisticConstants p.refa p.refb)
    (hz : cos (75 * (π / 180)) ≤ dot (unit (moving p.diurab (p.st - rap) dap)) (zenithAxis p.phi)) :
    ∃ o ra dec, palAop eqeqx rap dap date dut elongm phim hm xp yp tdk pmb rh wl tlr = some o ∧
      palOap eqeqx "Azimuth".toList o.aob o.zob date dut elongm phim hm xp yp tdk pmb rh wl tlr = some (ra, dec) ∧
      palOap eqeqx "Hour angle".toList o.hob o.dob date dut elongm phim hm xp yp tdk pmb rh wl tlr = some (ra, dec) ∧
      palOap eqeqx "RA".toList o.rob o.dob date dut elongm phim hm xp yp tdk pmb rh wl tlr = some (ra, dec) ∧
      len (fun i => dir ra dec i - dir rap dap i) < 1e-6 * arcsec := by
  obtain ⟨d0, d1, hok⟩ := C57_diurab_range h1 h2 hp
  obtain ⟨o, ra, dec, k1, k2, k3, k4, k5⟩ := C81_quick_round_trip_partial hok hA (by rwa [abs_of_nonneg d0]) hz
  refine ⟨o, ra, dec, ?_, ?_, ?_, ?_, k5⟩
  · unfold palAop; rw [hp]; exact k1
  · unfold palOap; rw [hp]
    exact k2
  · unfold palOap; rw [hp]
    exact k3
  · unfold palOap; rw [hp]
    exact k4

/-- **C57** (zero pressure) With zero air pressure palAoppa returns zero refraction constants, and palAop gives the direction corrected for diurnal aberration only, at every zenith distance. -/
theorem C57_zero_pressure {eqeqx : ℝ → ℝ} {date dut elongm phim hm xp yp tdk pmb rh wl tlr : ℝ} {p : Aoprms} (h1 : -1000 ≤ hm) (h2 : hm ≤ 80000) (hpm : pmb ≤ 0)
    (hp : palAoppa eqeqx date dut elongm phim hm xp yp tdk pmb rh wl tlr = some p) :
    p.refa = 0 ∧ p.refb = 0 ∧ ∀ rap dap, ∃ o, palAop eqeqx rap dap date dut elongm phim hm xp yp tdk pmb rh wl tlr = some o ∧
      Horizon p.phi (unit (moving p.diurab (p.st - rap) dap)) o.aob o.zob := by
  obtain ⟨p', elong, hp', -, -, -, -, -, hcopy, hab, -⟩ := C57_aoppa eqeqx date dut elongm phim hm xp yp tdk pmb rh wl tlr
  rw [hp] at hp'
  cases hp'
  obtain ⟨-, -, hok⟩ := C57_diurab_range h1 h2 hp
  unfold palRefco at hab
  rw [C51_vacuum _ _ _ _ _ _ _ _ _ hpm, C51_vacuum _ _ _ _ _ _ _ _ _ hpm] at hab
  simp only [mul_zero, sub_zero, zero_div, Option.some.injEq, Prod.mk.injEq] at hab
  refine ⟨hab.1.symm, hab.2.symm, fun rap dap => ?_⟩
  obtain ⟨o, z, ho, -⟩ := C56_aopqk rap dap p hok
  have hpp : p.pmb = pmb := by
    simp only [Prod.mk.injEq] at hcopy
    exact hcopy.2.2.1
  refine ⟨o, ?_, (C56_no_atmosphere hok hab.1.symm hab.2.symm (by rw [hpp]; exact hpm) ho).1⟩
  unfold palAop
  rw [hp]
  exact ho

/-- The hypotheses of C81_round_trip_partial are met by a source at the zenith of a site at the pole, in a vacuum. -/
example : ∃ p, palAoppa (fun _ => 0) 51544 0 0 (π / 2) 0 0 0 280 0 0.5 0.5 0.0065 = some p ∧ RealisticConstants p.refa p.refb ∧
    cos (75 * (π / 180)) ≤ dot (unit (moving p.diurab (p.st - 0) (π / 2))) (zenithAxis p.phi) := by
  have hpi := pi_pos
  obtain ⟨p, elong, hp, -, -, -, -, hd, -⟩ := C57_aoppa (fun _ => 0) 51544 0 0 (π / 2) 0 0 0 280 0 0.5 0.5 0.0065
  obtain ⟨ha, hb, -⟩ := C57_zero_pressure (by norm_num) (by norm_num) le_rfl hp
  have hphi := (C57_no_polar_motion (by rw [abs_of_pos (by positivity)]) hp).1
  refine ⟨p, hp, ⟨by rw [ha], by rw [ha]; norm_num, by rw [hb]; norm_num⟩, ?_⟩
  rw [hphi, cos_pi_div_two, mul_zero, zero_div, mul_zero] at hd
  have hd0 : p.diurab = 0 := by
    rcases mul_eq_zero.1 hd with h | h
    · exact h
    · norm_num at h
  have e : moving p.diurab (p.st - 0) (π / 2) = ![0, 0, 1] := by
    funext i; fin_cases i <;> simp [moving, dir, hd0]
  have l : len (![0, 0, 1] : Fin 3 → ℝ) = 1 := len_one (by simp [dot_eq])
  rw [e, hphi]
  simp [unit, l, dot_eq, zenithAxis, cos_le_one]

end Pal.Props
