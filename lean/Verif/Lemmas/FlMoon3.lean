import Verif.Lemmas.FlMoon2

/-!
# palDmoon in double precision: the place in the ecliptic and in the equatorial system
-/

namespace Pal.Moon
open Pal Pal.Spec Pal.Props Real

variable {fl : ℝ → ℝ} {L : Libm}

local macro "nn" : tactic => `(tactic| norm_num [abs_of_pos])

theorem SumOK.rr {l : List (ℝ × ℤ × ℤ × ℤ × ℤ × ℕ)} {Wt : ℝ} {s' s : ℝ × ℝ} (h : SumOK l Wt s' s) {w0 w1 w2 n : ℝ} (h0 : termW 0 l ≤ w0) (h1 : termW 1 l ≤ w1) (h2 : termW 2 l ≤ w2) (hn : (l.length : ℝ) = n) (k1 k2 M2 : ℝ)
    (p1 : 1.5328e6 * w1 + 18 * w0 + n * Wt ≤ k1 * w0) (p2 : k1 ≤ 1e10) (p0 : 0 ≤ k1) (q0 : 0 ≤ k2) (p3 : 1e-60 ≤ w0) (p4 : w0 ≤ 1e28) (q1 : 8450 * (1.5328e6 * w2 + 43 * w1 + 1e-3 * w0) + n * 1e6 ≤ k2 * M2) (q2 : k2 ≤ 1e10)
    (q3 : 8450 * (w1 + 5e-6 * w0) ≤ M2) (q4 : 1e-60 ≤ M2) (q5 : M2 ≤ 1e28) : Rr k1 w0 s'.1 s.1 ∧ Rr k2 M2 s'.2 s.2 := by
  obtain ⟨e1, b1, e2, b2⟩ := h
  rw [hn] at e1 e2
  exact ⟨⟨p0, p2, p3, p4, b1.trans h0, e1.trans (by linarith)⟩, ⟨q0, q2, q4, q5, b2.trans (by linarith), e2.trans (by linarith)⟩⟩

/-- The place in the ecliptic. -/
structure EclRr (q Q : PV) : Prop where
  x : Rr 2.3075e6 0.0027958 (q.p 0) (Q.p 0)
  y : Rr 2.3075e6 0.0027958 (q.p 1) (Q.p 1)
  z : Rr 4.072e5 0.0027958 (q.p 2) (Q.p 2)
  xd : Rr 3.301e6 1.1245e-8 (q.v 0) (Q.v 0)
  yd : Rr 3.301e6 1.1245e-8 (q.v 1) (Q.v 1)
  zd : Rr 3.263e6 1.982e-9 (q.v 2) (Q.v 2)

set_option maxHeartbeats 4000000 in
theorem flMoonEcl_rr (R : Rounding fl) (hL : LibmOK L) {a b : MoonArgs} (h : ArgsRr a b) (hp : 0.01525 ≤ |sin (dd2r * (moonCos b moonTP).1)|) : EclRr (flMoonEcl fl L a) (moonEcl b) := by
  obtain ⟨a0, a1, a2⟩ := W_TL
  obtain ⟨l1, l2⟩ := (flMoonSin_ok R hL h (Wt := 9.234) (by nn) (by nn) moonTL (by simp [moonTL]; norm_num) ok_TL a0 (by linarith) (by linarith)).rr a0 a1 a2 (n := 50) (by simp [moonTL]) 2.3e6 3.04e6 116870
    (by nn) (by nn) (by nn) (by nn) (by nn) (by nn) (by nn) (by nn) (by nn) (by nn) (by nn)
  obtain ⟨a0, a1, a2⟩ := W_TB
  obtain ⟨b1, b2⟩ := (flMoonSin_ok R hL h (Wt := 6.085) (by nn) (by nn) moonTB (by simp [moonTB]; norm_num) ok_TB a0 (by linarith) (by linarith)).rr a0 a1 a2 (n := 45) (by simp [moonTB]) 1.918e6 2.46e6 64306
    (by nn) (by nn) (by nn) (by nn) (by nn) (by nn) (by nn) (by nn) (by nn) (by nn) (by nn)
  obtain ⟨a0, a1, a2⟩ := W_TP
  obtain ⟨p1, p2⟩ := (flMoonCos_ok R hL h (Wt := 1.0271) (by nn) (by nn) moonTP (by simp [moonTP]; norm_num) ok_TP a0 (by linarith) (by linarith)).rr a0 a1 a2 (n := 31) (by simp [moonTP]) 1.718e5 3.045e6 971.9
    (by nn) (by nn) (by nn) (by nn) (by nn) (by nn) (by nn) (by nn) (by nn) (by nn) (by nn)
  clear a0 a1 a2
  have D := rr_dd2r R
  have cj := Rr.exact (X := 3155760000) (M := 3155760000) (by nn) (by nn) (by nn)
  have one := Rr.exact (X := 1) (M := 1) (by nn) (by nn) (by nn)
  have el := Rr.add R 2.935e5 6.473 h.elp (Rr.mul R 2.3001e6 0.16123 D l1 (by nn) (by nn) (by nn) (by nn) (by nn)) (by nn) (by nn) (by nn) (by nn) (by nn)
  have del := Rr.div R 5.94e5 3.3126e-6 3155760000 (Rr.add R 5.937e5 10453.6 h.delp (Rr.mul R 3.0401e6 2040.6 D l2 (by nn) (by nn) (by nn) (by nn) (by nn)) (by nn) (by nn) (by nn) (by nn) (by nn)) cj (by nn) (by nn) (by nn) (by nn) (by nn) (by nn) (by nn) (by nn) (by nn)
  have so := Rr.sin hL 6307 h.om (by nn) (by nn)
  have co := Rr.cos hL 6307 h.om (by nn) (by nn)
  have sw := Rr.sin hL 6451 h.wom (by nn) (by nn)
  have cw := Rr.cos hL 6451 h.wom (by nn) (by nn)
  have c1 := Rr.cst R 0.0004664 (M := 0.0004664) (by nn) (by nn) (by nn)
  have c2 := Rr.cst R 0.0000754 (M := 0.0000754) (by nn) (by nn) (by nn)
  have bf := Rr.sub R 5.6 1.00055 (Rr.sub R 4 1.0004665 one (Rr.mul R 6310 0.0004664 c1 co (by nn) (by nn) (by nn) (by nn) (by nn)) (by nn) (by nn) (by nn) (by nn) (by nn)) (Rr.mul R 6454 0.0000754 c2 cw (by nn) (by nn) (by nn) (by nn) (by nn)) (by nn) (by nn) (by nn) (by nn) (by nn)
  have dbf := Rr.add R 6350 0.01835 (Rr.mul R 6320 0.01579 (Rr.mul R 6.2 0.01579 c1 h.dom (by nn) (by nn) (by nn) (by nn) (by nn)) so (by nn) (by nn) (by nn) (by nn) (by nn)) (Rr.mul R 6465 0.00256 (Rr.mul R 7.3 0.00256 c2 h.dwom (by nn) (by nn) (by nn) (by nn) (by nn)) sw (by nn) (by nn) (by nn) (by nn) (by nn)) (by nn) (by nn) (by nn) (by nn) (by nn)
  have b := Rr.mul R 1.9182e6 0.10631 (Rr.mul R 1.9181e6 0.10625 D b1 (by nn) (by nn) (by nn) (by nn) (by nn)) bf (by nn) (by nn) (by nn) (by nn) (by nn)
  have db := Rr.div R 2.4615e6 3.561e-7 3155760000 (Rr.mul R 2.4604e6 1123.5 D (Rr.add R 2.4602e6 64342 (Rr.mul R 2.4601e6 64341.8 b2 bf (by nn) (by nn) (by nn) (by nn) (by nn)) (Rr.mul R 1.925e6 0.112 b1 dbf (by nn) (by nn) (by nn) (by nn) (by nn)) (by nn) (by nn) (by nn) (by nn) (by nn)) (by nn) (by nn) (by nn) (by nn) (by nn)) cj (by nn) (by nn) (by nn) (by nn) (by nn) (by nn) (by nn) (by nn) (by nn)
  have p := Rr.mul R 1.7181e5 0.017934 D p1 (by nn) (by nn) (by nn) (by nn) (by nn)
  have dp := Rr.div R 3.0453e6 5.378e-9 3155760000 (Rr.mul R 3.0451e6 16.97 D p2 (by nn) (by nn) (by nn) (by nn) (by nn)) cj (by nn) (by nn) (by nn) (by nn) (by nn) (by nn) (by nn) (by nn) (by nn)
  have sp := Rr.sin hL 3084 p (by nn) (by nn)
  have cp := Rr.cos hL 3084 p (by nn) (by nn)
  have r := Rr.div R 2.023e5 0.0027958 0.01525 (Rr.cst R 4.2635212653763e-5 (M := 4.26353e-5) (by nn) (by nn) (by nn)) sp (by nn) hp (by nn) (by nn) (by nn) (by nn) (by nn) (by nn) (by nn)
  have dr := Rr.div R 3.456e6 9.86e-10 0.01525 (Rr.mul R 3.2516e6 1.5036e-11 (Rr.mul R 3.2483e6 1.5036e-11 r.neg dp (by nn) (by nn) (by nn) (by nn) (by nn)) cp (by nn) (by nn) (by nn) (by nn) (by nn)) sp (by nn) hp (by nn) (by nn) (by nn) (by nn) (by nn) (by nn) (by nn)
  have sel := Rr.sin hL 1.9e6 el (by nn) (by nn)
  have cel := Rr.cos hL 1.9e6 el (by nn) (by nn)
  have sb := Rr.sin hL 2.04e5 b (by nn) (by nn)
  have cb := Rr.cos hL 2.04e5 b (by nn) (by nn)
  have rcb := Rr.mul R 4.072e5 0.0027958 r cb (by nn) (by nn) (by nn) (by nn) (by nn)
  have rbd := Rr.mul R 2.665e6 9.957e-10 r db (by nn) (by nn) (by nn) (by nn) (by nn)
  have w := Rr.sub R 3.263e6 1.982e-9 (Rr.mul R 2.8691e6 9.957e-10 rbd sb (by nn) (by nn) (by nn) (by nn) (by nn)) (Rr.mul R 3.6601e6 9.86e-10 cb dr (by nn) (by nn) (by nn) (by nn) (by nn)) (by nn) (by nn) (by nn) (by nn) (by nn)
  have x := Rr.mul R 2.3075e6 0.0027958 rcb cel (by nn) (by nn) (by nn) (by nn) (by nn)
  have y := Rr.mul R 2.3075e6 0.0027958 rcb sel (by nn) (by nn) (by nn) (by nn) (by nn)
  have z := Rr.mul R 4.072e5 0.0027958 r sb (by nn) (by nn) (by nn) (by nn) (by nn)
  have xd := Rr.sub R 3.301e6 1.1245e-8 (Rr.mul R 2.9016e6 9.262e-9 y.neg del (by nn) (by nn) (by nn) (by nn) (by nn)) (Rr.mul R 5.1631e6 1.982e-9 w cel (by nn) (by nn) (by nn) (by nn) (by nn)) (by nn) (by nn) (by nn) (by nn) (by nn)
  have yd := Rr.sub R 3.301e6 1.1245e-8 (Rr.mul R 2.9016e6 9.262e-9 x del (by nn) (by nn) (by nn) (by nn) (by nn)) (Rr.mul R 5.1631e6 1.982e-9 w sel (by nn) (by nn) (by nn) (by nn) (by nn)) (by nn) (by nn) (by nn) (by nn) (by nn)
  have zd := Rr.add R 3.263e6 1.982e-9 (Rr.mul R 2.8691e6 9.957e-10 rbd cb (by nn) (by nn) (by nn) (by nn) (by nn)) (Rr.mul R 3.6601e6 9.86e-10 sb dr (by nn) (by nn) (by nn) (by nn) (by nn)) (by nn) (by nn) (by nn) (by nn) (by nn)
  exact ⟨x, y, z, xd, yd, zd⟩

end Pal.Moon
