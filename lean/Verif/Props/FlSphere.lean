import Verif.Lemmas.FlSphere
import Verif.Props.Coord

/-!
# Spherical coordinates in double precision

Exact directions are those of the models over the real numbers (whose properties are C28, C30, C31 and C36); here they are compared with the values computed in double precision. `nz` is arbitrary: the results
hold whether a zero is the positive or the negative zero.
-/

namespace Pal.Props
open Real Pal.Spec

/-- A library with correctly rounded functions. -/
noncomputable def roundedLibm : Libm := ⟨fun x => ieee (Real.sin x), fun x => ieee (Real.cos x), fun y x => ieee (Pal.atan2 y x), fun x => if x < 0 then ieee (-π) else 0⟩

theorem roundedLibm_ok : LibmOK roundedLibm := by
  have h1 : ∀ x : ℝ, |x| ≤ 1 → |ieee x - x| ≤ 2.3e-16 := fun x hx =>
    ieee_rounding.add_err _ (X := x) (δ := 0) (by rw [sub_self, abs_zero]) hx le_rfl (by norm_num) (by norm_num)
  have h4 : ∀ x : ℝ, |x| ≤ 4 → |ieee x - x| ≤ 4.5e-16 := fun x hx =>
    ieee_rounding.add_err _ (X := x) (δ := 0) (by rw [sub_self, abs_zero]) hx (by norm_num) (by norm_num) (by norm_num)
  have hp := pi_lt_d4
  have hp0 := pi_pos
  refine ⟨fun x => h1 _ (abs_sin_le_one x), fun x => h1 _ (abs_cos_le_one x), fun y x => h4 _ ?_, fun x hx => ?_, fun x hx => ?_⟩
  · have := atan2_mem y x
    rw [abs_le]; constructor <;> norm_num at * <;> linarith
  · have := h4 (-π) (by rw [abs_neg, abs_of_pos hp0]; norm_num at *; linarith)
    rw [sub_neg_eq_add] at this
    show |(if x < 0 then ieee (-π) else 0) + π| ≤ _
    rw [if_pos hx]; exact this
  · show |if x < 0 then ieee (-π) else 0| ≤ _
    rw [if_neg (not_lt.2 hx.le)]; norm_num

theorem gal_mat_eq : galeqMat = eqgalMat := rfl
theorem sup_mat_eq : supgalMat = galsupMat := rfl

theorem gal_le : ∀ i j, |eqgalMat i j| ≤ 1 := by
  intro i j
  fin_cases i <;> fin_cases j <;> simp [eqgalMat] <;> rw [abs_le] <;> constructor <;> norm_num

theorem sup_le : ∀ i j, |galsupMat i j| ≤ 1 := by
  intro i j
  fin_cases i <;> fin_cases j <;> simp [galsupMat] <;> rw [abs_le] <;> constructor <;> norm_num

/-- C101: galactic and supergalactic coordinates computed in double precision give the direction that exact arithmetic gives, to 1.5e-14 (3 nanoarcseconds), everywhere on the sphere; the longitude is
between 0 and the stored 2π and the latitude is within ±90° (to a rounding error). -/
theorem C101_frames {fl : ℝ → ℝ} (R : Rounding fl) {L : Libm} (hL : LibmOK L) (nz : Bool) (x y : ℝ) :
    (∀ c ∈ [(flEqgal fl L nz x y, palEqgal x y), (flGaleq fl L nz x y, palGaleq x y), (flGalsup fl L nz x y, palGalsup x y), (flSupgal fl L nz x y, palSupgal x y)],
      0 ≤ c.1.1 ∧ c.1.1 ≤ flD2PI fl ∧ |c.1.2| ≤ π / 2 + 4.5e-16 ∧ len (fun i => dir c.1.1 c.1.2 i - dir c.2.1 c.2.2 i) ≤ 1.5e-14) := by
  intro c hc
  simp only [List.mem_cons, List.not_mem_nil, or_false] at hc
  rcases hc with rfl | rfl | rfl | rfl
  · refine fl_frame R hL nz eqgalMat gal_le (fun i j => (gal_orth i j).trans (by norm_num)) x y (palEqgal x y) ?_
    unfold palEqgal; dsimp only; rw [anpm_lat, eraRxp_eq, eraS2c_eq]; exact c2s_dir _
  · refine fl_frame R hL nz eqgalMat.transpose (fun i j => gal_le j i) (fun i j => (gal_orth' i j).trans (by norm_num)) x y (palGaleq x y) ?_
    unfold palGaleq; dsimp only; rw [anpm_lat, eraTrxp_eq, eraS2c_eq]; exact c2s_dir _
  · refine fl_frame R hL nz galsupMat sup_le (fun i j => (sup_orth i j).trans (by norm_num)) x y (palGalsup x y) ?_
    unfold palGalsup; dsimp only; rw [anpm_lat, eraRxp_eq, eraS2c_eq]; exact c2s_dir _
  · refine fl_frame R hL nz galsupMat.transpose (fun i j => sup_le j i) (fun i j => (sup_orth' i j).trans (by norm_num)) x y (palSupgal x y) ?_
    unfold palSupgal; dsimp only; rw [anpm_lat, eraTrxp_eq, eraS2c_eq]; exact c2s_dir _

/-- C101 applies to the correctly rounded library and IEEE arithmetic. -/
example : len (fun i => dir (flEqgal ieee roundedLibm false 3 (-1)).1 (flEqgal ieee roundedLibm false 3 (-1)).2 i - dir (palEqgal 3 (-1)).1 (palEqgal 3 (-1)).2 i) ≤ 1.5e-14 :=
  (C101_frames ieee_rounding roundedLibm_ok false 3 (-1) _ (List.mem_cons_self ..)).2.2.2

/-- C101, round trips: to the other frame and back in double precision returns the original direction as well as exact arithmetic does (C36; the printed matrices limit it), to 1.2e-13. -/
theorem C101_round_trip {fl : ℝ → ℝ} (R : Rounding fl) {L : Libm} (hL : LibmOK L) (nz nz' : Bool) (x y : ℝ) :
    (let g := flEqgal fl L nz x y; let e := flGaleq fl L nz' g.1 g.2; len (fun i => dir e.1 e.2 i - dir x y i) ≤ 6.002e-10) ∧
    (let e := flGaleq fl L nz x y; let g := flEqgal fl L nz' e.1 e.2; len (fun i => dir g.1 g.2 i - dir x y i) ≤ 6.002e-10) ∧
    (let s := flGalsup fl L nz x y; let g := flSupgal fl L nz' s.1 s.2; len (fun i => dir g.1 g.2 i - dir x y i) ≤ 6.2e-12) ∧
    (let g := flSupgal fl L nz x y; let s := flGalsup fl L nz' g.1 g.2; len (fun i => dir s.1 s.2 i - dir x y i) ≤ 6.2e-12) := by
  have step : ∀ (B : Mat3) (F : ℝ → ℝ → ℝ × ℝ) (_ : ∀ a b, (fun i => √(dot (B.mulVec (dir a b)) (B.mulVec (dir a b))) * dir (F a b).1 (F a b).2 i) = B.mulVec (dir a b)) (_ : ∀ i j, |B i j| ≤ 1)
      (_ : ∀ i j, |(B.transpose * B) i j - (1 : Mat3) i j| ≤ 1e-10) (f p e : ℝ × ℝ) (_ : len (fun i => dir f.1 f.2 i - dir p.1 p.2 i) ≤ 1.5e-14)
      (_ : len (fun i => dir e.1 e.2 i - dir (F f.1 f.2).1 (F f.1 f.2).2 i) ≤ 1.5e-14) (K : ℝ) (_ : len (fun i => dir (F p.1 p.2).1 (F p.1 p.2).2 i - dir x y i) ≤ K),
      len (fun i => dir e.1 e.2 i - dir x y i) ≤ K + 1.2e-13 := by
    intro B F hF hB ho f p e h1 h2 K hK
    have n := near_len ho (dot_dir f.1 f.2)
    have c := norm_close (Real.sqrt_nonneg _) (Real.sqrt_nonneg _) (len_one (dot_dir _ _)) (len_one (dot_dir _ _)) (hF f.1 f.2) (hF p.1 p.2)
    have d : (fun i => B.mulVec (dir f.1 f.2) i - B.mulVec (dir p.1 p.2) i) = B.mulVec (fun i => dir f.1 f.2 i - dir p.1 p.2 i) := by
      have := Matrix.mulVec_sub B (dir f.1 f.2) (dir p.1 p.2)
      funext i
      exact (congrFun this i).symm
    have d2 := len_mulVec_le hB (fun i => dir f.1 f.2 i - dir p.1 p.2 i)
    rw [d, ← len_eq] at c
    have t1 := len_tri (dir e.1 e.2) (dir (F f.1 f.2).1 (F f.1 f.2).2) (dir (F p.1 p.2).1 (F p.1 p.2).2)
    have t2 := len_tri (dir e.1 e.2) (dir (F p.1 p.2).1 (F p.1 p.2).2) (dir x y)
    have z := len_nonneg (fun i => dir (F f.1 f.2).1 (F f.1 f.2).2 i - dir (F p.1 p.2).1 (F p.1 p.2).2 i)
    have c2 : 0.99 * len (fun i => dir (F f.1 f.2).1 (F f.1 f.2).2 i - dir (F p.1 p.2).1 (F p.1 p.2).2 i) ≤ 2 * (3 * 1 * 1.5e-14) := by
      have := mul_le_mul_of_nonneg_right n.1 z
      linarith
    norm_num at *
    linarith
  have hx := C36_galactic x y
  obtain ⟨x1, x2, x3, x4, -⟩ := hx
  have k1 : ∀ a b, (fun i => √(dot (eqgalMat.mulVec (dir a b)) (eqgalMat.mulVec (dir a b))) * dir (palEqgal a b).1 (palEqgal a b).2 i) = eqgalMat.mulVec (dir a b) := by
    intro a b; unfold palEqgal; dsimp only; rw [anpm_lat, eraRxp_eq, eraS2c_eq]; exact c2s_dir _
  have k2 : ∀ a b, (fun i => √(dot (galeqMat.transpose.mulVec (dir a b)) (galeqMat.transpose.mulVec (dir a b))) * dir (palGaleq a b).1 (palGaleq a b).2 i) =
      galeqMat.transpose.mulVec (dir a b) := by
    intro a b; unfold palGaleq; dsimp only; rw [anpm_lat, eraTrxp_eq, eraS2c_eq]; exact c2s_dir _
  have k3 : ∀ a b, (fun i => √(dot (galsupMat.mulVec (dir a b)) (galsupMat.mulVec (dir a b))) * dir (palGalsup a b).1 (palGalsup a b).2 i) = galsupMat.mulVec (dir a b) := by
    intro a b; unfold palGalsup; dsimp only; rw [anpm_lat, eraRxp_eq, eraS2c_eq]; exact c2s_dir _
  have k4 : ∀ a b, (fun i => √(dot (supgalMat.transpose.mulVec (dir a b)) (supgalMat.transpose.mulVec (dir a b))) * dir (palSupgal a b).1 (palSupgal a b).2 i) =
      supgalMat.transpose.mulVec (dir a b) := by
    intro a b; unfold palSupgal; dsimp only; rw [anpm_lat, eraTrxp_eq, eraS2c_eq]; exact c2s_dir _
  have fr : ∀ a b n, len (fun i => dir (flEqgal fl L n a b).1 (flEqgal fl L n a b).2 i - dir (palEqgal a b).1 (palEqgal a b).2 i) ≤ 1.5e-14 ∧
      len (fun i => dir (flGaleq fl L n a b).1 (flGaleq fl L n a b).2 i - dir (palGaleq a b).1 (palGaleq a b).2 i) ≤ 1.5e-14 ∧
      len (fun i => dir (flGalsup fl L n a b).1 (flGalsup fl L n a b).2 i - dir (palGalsup a b).1 (palGalsup a b).2 i) ≤ 1.5e-14 ∧
      len (fun i => dir (flSupgal fl L n a b).1 (flSupgal fl L n a b).2 i - dir (palSupgal a b).1 (palSupgal a b).2 i) ≤ 1.5e-14 := by
    intro a b n
    have h := C101_frames R hL n a b
    exact ⟨(h (flEqgal fl L n a b, palEqgal a b) (by simp)).2.2.2, (h (flGaleq fl L n a b, palGaleq a b) (by simp)).2.2.2, (h (flGalsup fl L n a b, palGalsup a b) (by simp)).2.2.2, (h (flSupgal fl L n a b, palSupgal a b) (by simp)).2.2.2⟩
  refine ⟨?_, ?_, ?_, ?_⟩
  · refine (step _ palGaleq k2 (fun i j => gal_le j i) (fun i j => (gal_orth' i j).trans (by norm_num)) _ _ _ (fr x y nz).1 (fr _ _ nz').2.1 _ x1).trans (by norm_num)
  · refine (step _ palEqgal k1 gal_le (fun i j => (gal_orth i j).trans (by norm_num)) _ _ _ (fr x y nz).2.1 (fr _ _ nz').1 _ x2).trans (by norm_num)
  · refine (step _ palSupgal k4 (fun i j => sup_le j i) (fun i j => (sup_orth' i j).trans (by norm_num)) _ _ _ (fr x y nz).2.2.1 (fr _ _ nz').2.2.2 _ x3).trans (by norm_num)
  · refine (step _ palGalsup k3 sup_le (fun i j => (sup_orth i j).trans (by norm_num)) _ _ _ (fr x y nz).2.2.2 (fr _ _ nz').2.2.1 _ x4).trans (by norm_num)

/-- C102: palDe2h and palDh2e in double precision give the direction that exact arithmetic gives, to 9e-15 (2 nanoarcseconds), at every latitude, the zenith and the poles included; azimuth is between 0 and
the stored 2π. -/
theorem C102_horizon {fl : ℝ → ℝ} (R : Rounding fl) {L : Libm} (hL : LibmOK L) (nz : Bool) (a b phi : ℝ) :
    (let r := flDe2h fl L nz a b phi
     0 ≤ r.1 ∧ r.1 ≤ flPal2PI fl ∧ |r.2| ≤ π / 2 + 4.5e-16 ∧ len (fun i => dir r.1 r.2 i - dir (palDe2h a b phi).1 (palDe2h a b phi).2 i) ≤ 9e-15) ∧
    (let r := flDh2e fl L nz a b phi
     |r.1| ≤ π + 4.5e-16 ∧ |r.2| ≤ π / 2 + 4.5e-16 ∧ len (fun i => dir r.1 r.2 i - dir (palDh2e a b phi).1 (palDh2e a b phi).2 i) ≤ 8e-15) := by
  obtain ⟨h1, h2, h3⟩ := horizon_angles R hL nz a b phi
  have e1 : dir (palDe2h a b phi).1 (palDe2h a b phi).2 = horizonVec a b phi := de2h_dir a b phi
  have e2 : dir (palDh2e a b phi).1 (palDh2e a b phi).2 = horizonVec a b phi := dh2e_dir a b phi
  have p1 := pi_lt_d4
  obtain ⟨a1, a2, k, a3⟩ := flAnp_small R (flDh2e fl L nz a b phi).1 (h1.trans (by norm_num at *; linarith))
  refine ⟨?_, ?_⟩
  · rw [flDe2h_eq R hL, e1]
    refine ⟨a1, ?_, h2, (h3 _ _ k a3).trans (by norm_num)⟩
    rw [flPal2PI_eq R, ← flD2PI_eq R]; exact a2
  · rw [e2]
    exact ⟨h1, h2, (h3 _ 0 0 (by simp)).trans (by norm_num)⟩

example : len (fun i => dir (flDe2h ieee roundedLibm true 0 1 1).1 (flDe2h ieee roundedLibm true 0 1 1).2 i - dir (palDe2h 0 1 1).1 (palDe2h 0 1 1).2 i) ≤ 9e-15 :=
  (C102_horizon ieee_rounding roundedLibm_ok true 0 1 1).1.2.2.2

/-- C102, round trips: hour angle and declination to azimuth and elevation and back, or the other way round, returns the original direction to 1.7e-14 in double precision. -/
theorem C102_round_trip {fl : ℝ → ℝ} (R : Rounding fl) {L : Libm} (hL : LibmOK L) (nz nz' : Bool) (a b phi : ℝ) :
    (let r := flDe2h fl L nz a b phi; let s := flDh2e fl L nz' r.1 r.2 phi; len (fun i => dir s.1 s.2 i - dir a b i) ≤ 1.7e-14) ∧
    (let r := flDh2e fl L nz a b phi; let s := flDe2h fl L nz' r.1 r.2 phi; len (fun i => dir s.1 s.2 i - dir a b i) ≤ 1.7e-14) := by
  obtain ⟨x1, x2, -⟩ := C28_de2h_dh2e a b phi
  constructor
  · have h1 := (C102_horizon R hL nz a b phi).1.2.2.2
    intro r s
    have h2 := (C102_horizon R hL nz' r.1 r.2 phi).2.2.2
    have e : ∀ u v, dir (palDh2e u v phi).1 (palDh2e u v phi).2 = horizonVec u v phi := fun u v => dh2e_dir u v phi
    have i := horizon_iso r.1 r.2 (palDe2h a b phi).1 (palDe2h a b phi).2 phi
    rw [← e, ← e] at i
    have t := len_tri (dir s.1 s.2) (dir (palDh2e r.1 r.2 phi).1 (palDh2e r.1 r.2 phi).2) (dir a b)
    have x1' : dir (palDh2e (palDe2h a b phi).1 (palDe2h a b phi).2 phi).1 (palDh2e (palDe2h a b phi).1 (palDe2h a b phi).2 phi).2 = dir a b := x1
    rw [x1'] at i
    rw [i] at t
    have h1' : len (fun i => dir r.1 r.2 i - dir (palDe2h a b phi).1 (palDe2h a b phi).2 i) ≤ 9e-15 := h1
    have h2' : len (fun i => dir s.1 s.2 i - dir (palDh2e r.1 r.2 phi).1 (palDh2e r.1 r.2 phi).2 i) ≤ 8e-15 := h2
    norm_num at *
    linarith
  · have h1 := (C102_horizon R hL nz a b phi).2.2.2
    intro r s
    have h2 := (C102_horizon R hL nz' r.1 r.2 phi).1.2.2.2
    have e : ∀ u v, dir (palDe2h u v phi).1 (palDe2h u v phi).2 = horizonVec u v phi := fun u v => de2h_dir u v phi
    have i := horizon_iso r.1 r.2 (palDh2e a b phi).1 (palDh2e a b phi).2 phi
    rw [← e, ← e] at i
    have t := len_tri (dir s.1 s.2) (dir (palDe2h r.1 r.2 phi).1 (palDe2h r.1 r.2 phi).2) (dir a b)
    have x1' : dir (palDe2h (palDh2e a b phi).1 (palDh2e a b phi).2 phi).1 (palDe2h (palDh2e a b phi).1 (palDh2e a b phi).2 phi).2 = dir a b := x2
    rw [x1'] at i
    rw [i] at t
    have h1' : len (fun i => dir r.1 r.2 i - dir (palDh2e a b phi).1 (palDh2e a b phi).2 i) ≤ 8e-15 := h1
    have h2' : len (fun i => dir s.1 s.2 i - dir (palDe2h r.1 r.2 phi).1 (palDe2h r.1 r.2 phi).2 i) ≤ 9e-15 := h2
    norm_num at *
    linarith

/-- C103: palDsep in double precision is within 1.4e-14 (3 nanoarcseconds) of the separation by exact arithmetic, for every pair of directions, from coincident to opposite. -/
theorem C103_dsep {fl : ℝ → ℝ} (R : Rounding fl) {L : Libm} (hL : LibmOK L) (a b c d : ℝ) : |flSeps fl L a b c d - palDsep a b c d| ≤ 1.4e-14 := flSeps_err R hL a b c d

/-- C103: the separation computed in double precision is exactly the same with the two points (or vectors) exchanged. -/
theorem C103_symmetric {fl : ℝ → ℝ} (R : Rounding fl) (L : Libm) (a b c d : ℝ) (u v : Vec3) : flSeps fl L a b c d = flSeps fl L c d a b ∧ flSepp fl L u v = flSepp fl L v u := by
  have key : ∀ u v : Vec3, flSepp fl L u v = flSepp fl L v u := by
    intro u v
    have hx : flPxp fl u v = fun i => -flPxp fl v u i := by
      funext i
      fin_cases i
      · show fl (fl (u 1 * v 2) - fl (u 2 * v 1)) = -fl (fl (v 1 * u 2) - fl (v 2 * u 1))
        rw [← R.odd, mul_comm (v 1), mul_comm (v 2)]; congr 1; ring
      · show fl (fl (u 2 * v 0) - fl (u 0 * v 2)) = -fl (fl (v 2 * u 0) - fl (v 0 * u 2))
        rw [← R.odd, mul_comm (v 2), mul_comm (v 0)]; congr 1; ring
      · show fl (fl (u 0 * v 1) - fl (u 1 * v 0)) = -fl (fl (v 0 * u 1) - fl (v 1 * u 0))
        rw [← R.odd, mul_comm (v 0), mul_comm (v 1)]; congr 1; ring
    have hm : flPm fl (flPxp fl u v) = flPm fl (flPxp fl v u) := by
      unfold flPm; rw [hx]; simp only [neg_mul_neg]
    have hd : flPdp fl u v = flPdp fl v u := by
      unfold flPdp; rw [mul_comm (u 0), mul_comm (u 1), mul_comm (u 2)]
    unfold flSepp
    rw [hm, hd]
  exact ⟨key _ _, key u v⟩

/-- C103: the separation of a point from itself is exactly zero in double precision, if the library's arc tangent of zero is zero. -/
theorem C103_coincident {fl : ℝ → ℝ} (R : Rounding fl) {L : Libm} (hL : LibmOK L) (h0 : ∀ x, 0 < x → L.atan2 0 x = 0) (a b : ℝ) : flSeps fl L a b a b = 0 := by
  have e := flS2c_err R hL a b
  have hd := dir_le a b
  have u := dot_dir a b
  unfold flSeps flSepp
  dsimp only
  generalize flS2c fl L a b = p at *
  generalize dir a b = A at *
  have hx : flPxp fl p p = fun _ => 0 := by
    funext i
    fin_cases i
    · show fl (fl (p 1 * p 2) - fl (p 2 * p 1)) = 0
      rw [mul_comm (p 2), sub_self, R.zero]
    · show fl (fl (p 2 * p 0) - fl (p 0 * p 2)) = 0
      rw [mul_comm (p 2), sub_self, R.zero]
    · show fl (fl (p 0 * p 1) - fl (p 1 * p 0)) = 0
      rw [mul_comm (p 0), sub_self, R.zero]
  have hm : flPm fl (flPxp fl p p) = 0 := by
    unfold flPm; rw [hx]; simp only [mul_zero, R.zero, add_zero, Real.sqrt_zero]
  have pr : ∀ i, |fl (p i * p i) - A i * A i| ≤ 1.28e-15 := fun i => R.mul _ (e i) (e i) (hd i) (hd i) (by norm_num) (by norm_num) (by norm_num)
  have pb : ∀ i, |A i * A i| ≤ 1 := fun i => by rw [abs_mul]; exact mul_le_one₀ (hd i) (abs_nonneg _) (hd i)
  have s1 := R.add 2 2.79e-15 (pr 0) (pr 1) ((abs_add_le _ _).trans (by linarith [pb 0, pb 1])) (by norm_num) (by norm_num) (by norm_num) (by norm_num) (by norm_num)
  rw [dot_eq] at u
  have s2 := R.add 1 4.2e-15 s1 (pr 2) (by rw [u, abs_one]) (by norm_num) (by norm_num) le_rfl (by norm_num) (by norm_num)
  rw [u] at s2
  have hc : 0 < flPdp fl p p := by
    unfold flPdp
    have := (abs_le.1 s2).1
    norm_num at *
    linarith
  rw [hm, if_pos (Or.inr hc.ne'), h0 _ hc]

example : flSeps ieee roundedLibm 1 (-1) 1 (-1) = 0 ∧ |flSeps ieee roundedLibm 0 0 0 (π / 2) - palDsep 0 0 0 (π / 2)| ≤ 1.4e-14 :=
  ⟨C103_coincident ieee_rounding roundedLibm_ok (fun x hx => by show ieee (atan2 0 x) = 0; rw [atan2_zero_pos hx.le, ieee_zero]) _ _, C103_dsep ieee_rounding roundedLibm_ok _ _ _ _⟩

/-- C104: palDcc2s in double precision gives the direction of any vector of length between 1e-70 and 1e14 to 2e-15. -/
theorem C104_dcc2s {fl : ℝ → ℝ} (R : Rounding fl) {L : Libm} (hL : LibmOK L) (nz : Bool) (v : Vec3) (h1 : 1 / 10 ^ 70 ≤ len v) (h2 : len v ≤ 10 ^ 14) :
    let s := flC2s fl L nz v
    |s.1| ≤ π + 4.5e-16 ∧ |s.2| ≤ π / 2 + 4.5e-16 ∧ len (fun i => len v * dir s.1 s.2 i - v i) ≤ 2e-15 * len v := by
  intro s
  obtain ⟨T, P, t1, t2, t3, t4, t5⟩ := flC2s_spec R hL nz v h1 h2
  refine ⟨close_range t1 t3, close_range t2 t4, ?_⟩
  have c := chord s.1 s.2 T P
  have t1' : |s.1 - T| ≤ 4.5e-16 := t1
  have t2' : |s.2 - P| ≤ 4.5e-16 := t2
  have n := len_nonneg v
  have e : len (fun i => len v * dir s.1 s.2 i - len v * dir T P i) = len v * len (fun i => dir s.1 s.2 i - dir T P i) := by
    have := len_smul (len v) (fun i => dir s.1 s.2 i - dir T P i)
    rw [abs_of_nonneg n] at this
    rw [← this]; congr 1; funext i; ring
  have t := len_tri (fun i => len v * dir s.1 s.2 i) (fun i => len v * dir T P i) v
  rw [e] at t
  have : len v * len (fun i => dir s.1 s.2 i - dir T P i) ≤ len v * 9e-16 := mul_le_mul_of_nonneg_left (by norm_num at *; linarith) n
  norm_num at *
  linarith

/-- C104: palDvn in double precision, for a vector of length between 1e-29 and 1e14: the modulus is right to 6e-16 (relative) and every component of the unit vector to 8e-16. -/
theorem C104_dvn {fl : ℝ → ℝ} (R : Rounding fl) (v : Vec3) (h1 : 1 / 10 ^ 29 ≤ len v) (h2 : len v ≤ 10 ^ 14) :
    |(flPn fl v).1 - len v| ≤ 6e-16 * len v ∧ ∀ i, |(flPn fl v).2 i - v i / len v| ≤ 8e-16 := by
  obtain ⟨m0, m1⟩ := flPm_err R v h2
  have n0 : 0 < len v := lt_of_lt_of_le (by positivity) h1
  have hm : |flPm fl v - len v| ≤ 5.3e-16 * len v := by
    have z : (1 : ℝ) / 10 ^ 96 ≤ 1e-18 * (1 / 10 ^ 29) := by norm_num
    generalize (1 : ℝ) / 10 ^ 96 = t at *
    generalize (1 : ℝ) / 10 ^ 29 = t' at *
    norm_num at *
    linarith
  have hb := abs_le.1 hm
  have w0 : 0 < flPm fl v := by norm_num at *; linarith
  have e1 : (flPn fl v).1 = flPm fl v := by unfold flPn; dsimp only; rw [if_neg w0.ne']
  have e2 : ∀ i, (flPn fl v).2 i = fl (fl (1 / flPm fl v) * v i) := by intro i; unfold flPn; dsimp only; rw [if_neg w0.ne']
  refine ⟨by rw [e1]; exact hm.trans (by norm_num; linarith), fun i => ?_⟩
  rw [e2]
  have ci := comp_le_len v i
  generalize v i = x at *
  generalize flPm fl v = w at *
  generalize len v = n at *
  have hw1 : w ≤ 2 * n := by norm_num at *; linarith
  have hw2 : n / 2 ≤ w := by norm_num at *; linarith
  have b1 : 1 / 10 ^ 100 ≤ |1 / w| := by
    rw [abs_of_pos (by positivity), div_le_div_iff₀ (by positivity) w0]
    have : (2 * 10 ^ 14 : ℝ) ≤ 1 * 10 ^ 100 := by norm_num
    linarith
  have b2 : |1 / w| ≤ 10 ^ 30 := by
    rw [abs_of_pos (by positivity), div_le_iff₀ w0]
    have : (1 : ℝ) ≤ 10 ^ 30 * (1 / 10 ^ 29 / 2) := by norm_num
    have : (10 : ℝ) ^ 30 * (1 / 10 ^ 29 / 2) ≤ 10 ^ 30 * w := mul_le_mul_of_nonneg_left (by linarith) (by positivity)
    linarith
  have r := R.rel b1 b2
  rw [abs_of_pos (by positivity : 0 < 1 / w)] at r
  have X1 : |x / n| ≤ 1 := by rw [abs_div, abs_of_pos n0, div_le_one n0]; exact ci
  have k1 : |fl (1 / w) * n - 1| ≤ 6.5e-16 := by
    have q1 : |fl (1 / w) * n - n / w| ≤ 1.1104e-16 * (n / w) := by
      rw [show fl (1 / w) * n - n / w = (fl (1 / w) - 1 / w) * n by ring, abs_mul, abs_of_pos n0, show 1.1104e-16 * (n / w) = 1.1104e-16 * (1 / w) * n by ring]
      exact mul_le_mul_of_nonneg_right r n0.le
    have q2 : |n / w - 1| ≤ 5.31e-16 := by
      rw [show n / w - 1 = (n - w) / w by field_simp, abs_div, abs_of_pos w0, div_le_iff₀ w0, abs_sub_comm]
      refine hm.trans ?_
      norm_num at *
      linarith
    have q3 := abs_sub_le (fl (1 / w) * n) (n / w) 1
    have := (abs_le.1 q2).2
    norm_num at *
    linarith
  refine R.add_err _ (δ := 6.5e-16) (B := 1) ?_ X1 le_rfl (by norm_num) (by norm_num)
  rw [show fl (1 / w) * x - x / n = (fl (1 / w) * n - 1) * (x / n) by field_simp, abs_mul]
  have := mul_le_mul k1 X1 (abs_nonneg _) (by norm_num)
  linarith

/-- C104: the range matters: the square of a component of 2^-540 underflows, so that palDvn gives the modulus zero and the null vector for a vector that is not null. -/
theorem C104_dvn_underflow {fl : ℝ → ℝ} (R : Rounding fl) : flPn fl ![1 / 2 ^ 540, 0, 0] = (0, fun _ => 0) := by
  have tiny : fl (1 / 2 ^ 540 * (1 / 2 ^ 540)) = 0 := by
    have eb : (1 : ℝ) / 2 ^ 540 * (1 / 2 ^ 540) = 1 / 2 ^ 1080 := by rw [div_mul_div_comm, one_mul, ← pow_add]
    rw [eb]
    have small : |(1 : ℝ) / 2 ^ 1080| ≤ 2 ^ 1000 := by
      rw [abs_of_pos (by positivity), div_le_iff₀ (by positivity), ← pow_add]; exact one_le_pow₀ (by norm_num)
    obtain ⟨m, e, -, he, hf⟩ := R.rep _ small
    have hn := R.best _ small 0 0 (by norm_num) (by norm_num)
    by_contra hc
    have hm : m ≠ 0 := by rintro rfl; apply hc; rw [hf]; simp
    have h1 : (1 : ℝ) ≤ |(m : ℝ)| := by exact_mod_cast Int.one_le_abs hm
    have h2 : (2 : ℝ) ^ (-1074 : ℤ) ≤ 2 ^ e := zpow_le_zpow_right₀ (by norm_num) he
    have h3 : (2 : ℝ) ^ (-1074 : ℤ) ≤ |fl (1 / 2 ^ 1080)| := by
      rw [hf, abs_mul, abs_of_pos (by positivity : (0 : ℝ) < 2 ^ e)]
      nlinarith [show (0 : ℝ) < 2 ^ e by positivity]
    have h4 : (2 : ℝ) ^ (-1074 : ℤ) = 64 * (1 / 2 ^ 1080) := by
      rw [zpow_neg, show (1080 : ℕ) = 1074 + 6 by norm_num, pow_add, show ((1074 : ℤ)) = ((1074 : ℕ) : ℤ) by norm_num, zpow_natCast]
      field_simp
      norm_num
    have p : (0 : ℝ) < 1 / 2 ^ 1080 := by positivity
    rw [h4] at h3
    generalize (1 : ℝ) / 2 ^ 1080 = y at *
    have h5 := abs_sub_abs_le_abs_sub (fl y) y
    rw [abs_of_pos p] at h5
    have h6 : |((0 : ℤ) : ℝ) * 2 ^ (0 : ℤ) - y| = y := by simp [abs_of_pos p]
    rw [h6] at hn
    linarith
  have hp : flPm fl ![1 / 2 ^ 540, 0, 0] = 0 := by
    unfold flPm
    simp only [Matrix.cons_val_zero, Matrix.cons_val_one, Matrix.cons_val]
    simp only [tiny, mul_zero, R.zero, add_zero, Real.sqrt_zero]
  unfold flPn
  dsimp only
  rw [hp, if_pos rfl]

example : |(flPn ieee ![3, 0, 4]).1 - 5| ≤ 6e-16 * 5 := by
  have h : len ![3, 0, 4] = 5 := by
    unfold len; rw [Fin.sum_univ_three, show (![3, 0, 4] : Vec3) 0 ^ 2 + (![3, 0, 4] : Vec3) 1 ^ 2 + (![3, 0, 4] : Vec3) 2 ^ 2 = 5 ^ 2 by simp; norm_num]
    exact Real.sqrt_sq (by norm_num)
  have := (C104_dvn ieee_rounding ![3, 0, 4] (by rw [h]; norm_num) (by rw [h]; norm_num)).1
  rwa [h] at this

end Pal.Props
