import Verif.Lemmas.FlMoon3
import Verif.Props.FlSphere
import Verif.Props.Moon

/-!
# C146: the Moon in double precision
-/

namespace Pal.Props
open Real Pal Pal.Spec Pal.Moon

variable {fl : ℝ → ℝ} {L : Libm}

local macro "nn" : tactic => `(tactic| norm_num [abs_of_pos])

set_option maxHeartbeats 2000000 in
/-- **C146** For thirty centuries before and after 1900, palDmoon in double precision gives the Moon's position of exact arithmetic to 1e-12 AU (15 cm) and its velocity to 5e-18 AU per second, in every component; although its
arguments run to millions of degrees and are reduced by `fmod`, which may wrap in one arithmetic and not in the other. -/
theorem C146_accuracy (R : Rounding fl) (hL : LibmOK L) (d : ℝ) (hd : |d - 15019.5| ≤ 1095750) :
    (∀ i, |(flDmoon fl L d).p i - (palDmoon d).p i| ≤ 1e-12) ∧ (∀ i, |(flDmoon fl L d).v i - (palDmoon d).v i| ≤ 5e-18) := by
  have cen := Rr.exact (X := 36525) (M := 36525) (by nn) (by nn) (by nn)
  have t1 := Rr.div R 2.001 30 36525 ((Rr.exact hd (by nn) (by nn)).round R 1 (by nn) (by nn)) cen (by nn) (by nn) (by nn) (by nn) (by nn) (by nn) (by nn) (by nn) (by nn)
  have hd2 : |d - 51544.5| ≤ 1132275 := by rw [abs_le] at *; constructor <;> linarith
  have t := Rr.div R 2.001 31 36525 ((Rr.exact hd2 (by nn) (by nn)).round R 1 (by nn) (by nn)) cen (by nn) (by nn) (by nn) (by nn) (by nn) (by nn) (by nn) (by nn) (by nn)
  obtain ⟨b, tb, ab⟩ := flMoonArgs_rr R hL t1
  have ht : |(d - 15019.5) / 36525| ≤ 30 := t1.bd
  have eb : ∀ l, moonCos b l = moonCos (smooth ((d - 15019.5) / 36525)) l := fun l => (moonCos_turn tb l).trans (moonCos_turn (turn_smooth _) l)
  have hp : 0.01525 ≤ |sin (dd2r * (moonCos b moonTP).1)| := by
    rw [eb, par_eq]
    obtain ⟨q1, q2⟩ := par_range ht
    have := (sinPar_range q1 q2).1
    unfold sinDeg at this
    exact this.le.trans (le_abs_self _)
  obtain ⟨x, y, z, xd, yd, zd⟩ := flMoonEcl_rr R hL ab hp
  rw [moonEcl_turn tb] at x y z xd yd zd
  unfold flDmoon palDmoon
  dsimp only
  generalize flMoonEcl fl L (flMoonArgs fl L (fl (fl (d - 15019.5) / 36525))) = q at *
  generalize moonEcl (moonArgs ((d - 15019.5) / 36525)) = Q at *
  have ds : Rr 1 7.2723e-5 (flDS2R fl) ds2r := by
    refine ⟨by nn, by nn, by nn, by nn, ?_, (flDS2R_err R).trans (by nn)⟩
    have := pi_lt_d6
    unfold ds2r; rw [abs_of_pos (by positivity)]; linarith
  have das : Rr 1.05 4.8482e-6 (fl 4.8481368110953599358991410235794797595635330237270e-6) das2r := by
    have p1 := pi_gt_d20
    have p2 := pi_lt_d20
    refine ⟨by nn, by nn, by nn, by nn, ?_, ?_⟩
    · unfold das2r; rw [abs_of_pos (by positivity)]; linarith
    · unfold das2r
      have e := R.err (x := 4.8481368110953599358991410235794797595635330237270e-6) (by norm_num)
      have := abs_sub_le (fl 4.8481368110953599358991410235794797595635330237270e-6) 4.8481368110953599358991410235794797595635330237270e-6 (π / 648000)
      have q : |(4.8481368110953599358991410235794797595635330237270e-6 : ℝ) - π / 648000| ≤ 1e-24 := by rw [abs_le]; constructor <;> linarith
      have t : (1 : ℝ) / 10 ^ 200 ≤ 1e-30 := by norm_num
      rw [abs_of_pos (by norm_num : (0 : ℝ) < 4.8481368110953599358991410235794797595635330237270e-6)] at e
      generalize (1 : ℝ) / 10 ^ 200 = z at *
      linarith
  have epj := Rr.add R 3 5100 (Rr.exact (X := 2000) (M := 2000) (by nn) (by nn) (by nn)) (Rr.mul R 3.01 3100 t (Rr.exact (X := 100) (M := 100) (by nn) (by nn) (by nn)) (by nn) (by nn) (by nn) (by nn) (by nn)) (by nn) (by nn) (by nn) (by nn) (by nn)
  have eq := Rr.mul R 8.7 4.389e-4 ds (Rr.add R 6.65 6.035 (Rr.cst R 0.035 (M := 0.035) (by nn) (by nn) (by nn)) (Rr.mul R 5.6 6 (Rr.cst R 0.00085 (M := 0.00085) (by nn) (by nn) (by nn)) (Rr.sub R 3.5 7050 epj (Rr.cst R 1949.9997904423 (M := 1950) (by nn) (by nn) (by nn)) (by nn) (by nn) (by nn) (by nn) (by nn)) (by nn) (by nn) (by nn) (by nn) (by nn)) (by nn) (by nn) (by nn) (by nn) (by nn)) (by nn) (by nn) (by nn) (by nn) (by nn)
  have e3 := Rr.mul R 4.01 0.05621 (Rr.cst R 0.001813 (M := 0.001813) (by nn) (by nn) (by nn)) t (by nn) (by nn) (by nn) (by nn) (by nn)
  have e2 := Rr.mul R 8.2 1.762 (Rr.add R 5.1 0.0568 (Rr.cst R 0.00059 (M := 0.00059) (by nn) (by nn) (by nn)).neg e3 (by nn) (by nn) (by nn) (by nn) (by nn)) t (by nn) (by nn) (by nn) (by nn) (by nn)
  have e1 := Rr.mul R 5.4 1506 (Rr.add R 2.3 48.58 (Rr.cst R 46.8150 (M := 46.815) (by nn) (by nn) (by nn)).neg e2 (by nn) (by nn) (by nn) (by nn) (by nn)) t (by nn) (by nn) (by nn) (by nn) (by nn)
  have eps := Rr.mul R 4.2 0.4165 das (Rr.add R 2.1 85888 (Rr.cst R 84381.448 (M := 84381.448) (by nn) (by nn) (by nn)) e1 (by nn) (by nn) (by nn) (by nn) (by nn)) (by nn) (by nn) (by nn) (by nn) (by nn)
  have se := Rr.sin hL 4 eps (by nn) (by nn)
  have ce := Rr.cos hL 4 eps (by nn) (by nn)
  have es := Rr.mul R 14 4.389e-4 eq se (by nn) (by nn) (by nn) (by nn) (by nn)
  have ec := Rr.mul R 14 4.389e-4 eq ce (by nn) (by nn) (by nn) (by nn) (by nn)
  have x1 := Rr.add R 2.3087e6 0.0027984 (Rr.sub R 2.308e6 0.0027971 x (Rr.mul R 2.3077e6 1.2271e-6 ec y (by nn) (by nn) (by nn) (by nn) (by nn)) (by nn) (by nn) (by nn) (by nn) (by nn)) (Rr.mul R 4.073e5 1.2271e-6 es z (by nn) (by nn) (by nn) (by nn) (by nn)) (by nn) (by nn) (by nn) (by nn) (by nn)
  have y1 := Rr.sub R 1.359e6 0.005593 (Rr.add R 2.308e6 0.0027971 (Rr.mul R 2.3077e6 1.2271e-6 eq x (by nn) (by nn) (by nn) (by nn) (by nn)) (Rr.mul R 2.3077e6 0.0027958 y ce (by nn) (by nn) (by nn) (by nn) (by nn)) (by nn) (by nn) (by nn) (by nn) (by nn)) (Rr.mul R 4.073e5 0.0027958 z se (by nn) (by nn) (by nn) (by nn) (by nn)) (by nn) (by nn) (by nn) (by nn) (by nn)
  have z1 := Rr.add R 1.359e6 0.005593 (Rr.mul R 2.3077e6 0.0027958 y se (by nn) (by nn) (by nn) (by nn) (by nn)) (Rr.mul R 4.073e5 0.0027958 z ce (by nn) (by nn) (by nn) (by nn) (by nn)) (by nn) (by nn) (by nn) (by nn) (by nn)
  have xd1 := Rr.add R 3.303e6 1.126e-8 (Rr.sub R 3.302e6 1.125e-8 xd (Rr.mul R 3.3012e6 4.936e-12 ec yd (by nn) (by nn) (by nn) (by nn) (by nn)) (by nn) (by nn) (by nn) (by nn) (by nn)) (Rr.mul R 3.2632e6 8.7e-13 es zd (by nn) (by nn) (by nn) (by nn) (by nn)) (by nn) (by nn) (by nn) (by nn) (by nn)
  have yd1 := Rr.sub R 3.3e6 1.324e-8 (Rr.add R 3.3022e6 1.125e-8 (Rr.mul R 3.3012e6 4.936e-12 eq xd (by nn) (by nn) (by nn) (by nn) (by nn)) (Rr.mul R 3.3012e6 1.1245e-8 yd ce (by nn) (by nn) (by nn) (by nn) (by nn)) (by nn) (by nn) (by nn) (by nn) (by nn)) (Rr.mul R 3.2632e6 1.982e-9 zd se (by nn) (by nn) (by nn) (by nn) (by nn)) (by nn) (by nn) (by nn) (by nn) (by nn)
  have zd1 := Rr.add R 3.3e6 1.324e-8 (Rr.mul R 3.3012e6 1.1245e-8 yd se (by nn) (by nn) (by nn) (by nn) (by nn)) (Rr.mul R 3.2632e6 1.982e-9 zd ce (by nn) (by nn) (by nn) (by nn) (by nn)) (by nn) (by nn) (by nn) (by nn) (by nn)
  constructor
  · intro i
    fin_cases i
    · exact x1.err.trans (by nn)
    · exact y1.err.trans (by nn)
    · exact z1.err.trans (by nn)
  · intro i
    fin_cases i
    · exact xd1.err.trans (by nn)
    · exact yd1.err.trans (by nn)
    · exact zd1.err.trans (by nn)

/-- **C146** So the computed Moon is always between 0.002376 and 0.002798 AU away. -/
theorem C146_distance (R : Rounding fl) (hL : LibmOK L) (d : ℝ) (hd : |d - 15019.5| ≤ 1095750) : 0.002376 < len (flDmoon fl L d).p ∧ len (flDmoon fl L d).p < 0.002798 := by
  obtain ⟨h, -⟩ := C146_accuracy R hL d hd
  obtain ⟨l, u⟩ := C88_distance d hd
  have c := (len_rev_tri _ _).trans (len_le_of_comp h)
  have := abs_le.1 c
  constructor <;> linarith

example : (∀ i, |(flDmoon ieee roundedLibm 60000.25).p i - (palDmoon 60000.25).p i| ≤ 1e-12) :=
  (C146_accuracy ieee_rounding roundedLibm_ok 60000.25 (by rw [abs_le]; constructor <;> norm_num)).1

example : 0.002376 < len (flDmoon ieee roundedLibm (-100000)).p :=
  (C146_distance ieee_rounding roundedLibm_ok (-100000) (by rw [abs_le]; constructor <;> norm_num)).1

end Pal.Props
