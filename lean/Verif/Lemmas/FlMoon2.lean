import Verif.Lemmas.FlMoon
import Verif.Props.Moon

/-!
# palDmoon in double precision: the series
-/

namespace Pal.Moon
open Pal Pal.Spec Real

variable {fl : ℝ → ℝ} {L : Libm}

local macro "nn" : tactic => `(tactic| norm_num [abs_of_pos])

/-- One more term in a sum. -/
theorem acc (R : Rounding fl) {s' s E M k N y Y Mt : ℝ} (h : |s' - s| ≤ 1.12e-16 * E) (hs : |s| ≤ M) (hy : Rr k N y Y) (hM : M + N ≤ Mt) (hMt : Mt ≤ 1e20) (hMt0 : 1e-3 ≤ Mt) (hE : E + k * N ≤ 1e12 * Mt) :
    |fl (s' + y) - (s + Y)| ≤ 1.12e-16 * (E + k * N + Mt) ∧ |s + Y| ≤ M + N := by
  have e : |s' + y - (s + Y)| ≤ 1.12e-16 * (E + k * N) := by
    rw [show s' + y - (s + Y) = (s' - s) + (y - Y) by ring]
    refine (abs_add_le _ _).trans ?_
    have := hy.err
    linarith
  have b : |s + Y| ≤ M + N := (abs_add_le _ _).trans (by linarith [hy.bd])
  refine ⟨?_, b⟩
  have c : |s' + y| ≤ 1.0002 * Mt := by
    have := abs_add_le (s' + y - (s + Y)) (s + Y)
    rw [sub_add_cancel] at this
    linarith
  have r := R.err (x := s' + y) (c.trans (le_trans (b := 1e21) (by linarith) (by norm_num)))
  have := abs_sub_le (fl (s' + y)) (s' + y) (s + Y)
  have t : (1 : ℝ) / 10 ^ 200 ≤ 1e-20 * 1e-3 := by norm_num
  generalize (1 : ℝ) / 10 ^ 200 = z at *
  linarith

theorem termW_nonneg (j : ℕ) (l : List (ℝ × ℤ × ℤ × ℤ × ℤ × ℕ)) : 0 ≤ termW j l := by
  induction l with
  | nil => exact le_rfl
  | cons x l ih => unfold termW termS; positivity

/-- What the error analysis of a series gives. -/
structure SumOK (l : List (ℝ × ℤ × ℤ × ℤ × ℤ × ℕ)) (Wt : ℝ) (s' s : ℝ × ℝ) : Prop where
  e1 : |s'.1 - s.1| ≤ 1.12e-16 * (1.5328e6 * termW 1 l + 18 * termW 0 l + l.length * Wt)
  b1 : |s.1| ≤ termW 0 l
  e2 : |s'.2 - s.2| ≤ 1.12e-16 * (8450 * (1.5328e6 * termW 2 l + 43 * termW 1 l + 1e-3 * termW 0 l) + l.length * 1e6)
  b2 : |s.2| ≤ 8450 * (termW 1 l + 5e-6 * termW 0 l)

theorem sum_step (R : Rounding fl) {Wt : ℝ} (w0 : 0.5 ≤ Wt) (w1 : Wt ≤ 100) {x : ℝ × ℤ × ℤ × ℤ × ℤ × ℕ} {l : List (ℝ × ℤ × ℤ × ℤ × ℤ × ℕ)} {s' s : ℝ × ℝ} (h : SumOK l Wt s' s) (hl : ((x :: l).length : ℝ) ≤ 60) (h0 : termW 0 (x :: l) ≤ Wt)
    (h1 : termW 1 (x :: l) ≤ 100) (h2 : termW 2 (x :: l) ≤ 1000) {y Y z Z : ℝ} (hy : Rr (1.5328e6 * termS x + 18) (|x.1| * 1.09 ^ x.2.2.2.2.2) y Y)
    (hz : Rr (1.5328e6 * termS x + 35) (8450 * (|x.1| * 1.09 ^ x.2.2.2.2.2 * (termS x + 5e-6))) z Z) : SumOK (x :: l) Wt (fl (s'.1 + y), fl (s'.2 + z)) (s.1 + Y, s.2 + Z) := by
  have S0 : 0 ≤ termS x := by unfold termS; positivity
  have n0 := termW_nonneg 0 l
  have n1 := termW_nonneg 1 l
  have n2 := termW_nonneg 2 l
  have c0 : 0 ≤ |x.1| * 1.09 ^ x.2.2.2.2.2 := by positivity
  have e0 : termW 0 (x :: l) = termW 0 l + |x.1| * 1.09 ^ x.2.2.2.2.2 := by rw [termW, pow_zero, mul_one]
  have e1 : termW 1 (x :: l) = termW 1 l + |x.1| * 1.09 ^ x.2.2.2.2.2 * termS x := by rw [termW, pow_one]
  have e2 : termW 2 (x :: l) = termW 2 l + |x.1| * 1.09 ^ x.2.2.2.2.2 * termS x ^ 2 := by rw [termW]
  have el : ((x :: l).length : ℝ) = l.length + 1 := by rw [List.length_cons]; push_cast; ring
  rw [el] at hl
  have ll : (0 : ℝ) ≤ l.length := by positivity
  obtain ⟨a1, b1, a2, b2⟩ := h
  rw [e0] at h0
  rw [e1] at h1
  rw [e2] at h2
  have cS : 0 ≤ |x.1| * 1.09 ^ x.2.2.2.2.2 * termS x := mul_nonneg c0 S0
  have cS2 : 0 ≤ |x.1| * 1.09 ^ x.2.2.2.2.2 * termS x ^ 2 := by positivity
  have lW : (l.length : ℝ) * Wt ≤ 60 * Wt := mul_le_mul_of_nonneg_right (by linarith) (by linarith)
  obtain ⟨p1, q1⟩ := acc R a1 b1 hy h0 (by linarith) (by linarith) (by
    have : (1.5328e6 * termS x + 18) * (|x.1| * 1.09 ^ x.2.2.2.2.2) = 1.5328e6 * (|x.1| * 1.09 ^ x.2.2.2.2.2 * termS x) + 18 * (|x.1| * 1.09 ^ x.2.2.2.2.2) := by ring
    rw [this]
    linarith)
  have ez : (1.5328e6 * termS x + 35) * (8450 * (|x.1| * 1.09 ^ x.2.2.2.2.2 * (termS x + 5e-6))) =
      8450 * (1.5328e6 * (|x.1| * 1.09 ^ x.2.2.2.2.2 * termS x ^ 2) + 42.664 * (|x.1| * 1.09 ^ x.2.2.2.2.2 * termS x) + 1.75e-4 * (|x.1| * 1.09 ^ x.2.2.2.2.2)) := by ring
  obtain ⟨p2, q2⟩ := acc R (Mt := 1e6) a2 b2 hz (by linarith) (by linarith) (by linarith) (by rw [ez]; linarith)
  refine ⟨?_, ?_, ?_, ?_⟩
  · rw [e0, e1, el]; refine p1.trans (mul_le_mul_of_nonneg_left (le_of_eq ?_) (by norm_num)); ring
  · rw [e0]; exact q1
  · rw [e0, e1, e2, el]; refine p2.trans (mul_le_mul_of_nonneg_left ?_ (by norm_num)); rw [ez]; linarith
  · rw [e0, e1]; exact q2.trans (by linarith)

theorem tail_le (j : ℕ) (x : ℝ × ℤ × ℤ × ℤ × ℤ × ℕ) (l : List (ℝ × ℤ × ℤ × ℤ × ℤ × ℕ)) : termW j l ≤ termW j (x :: l) := by
  rw [termW]; have : 0 ≤ |x.1| * 1.09 ^ x.2.2.2.2.2 * termS x ^ j := by unfold termS; positivity
  linarith

theorem rr_theta (R : Rounding fl) {a b : MoonArgs} (h : ArgsRr a b) (x : ℝ × ℤ × ℤ × ℤ × ℤ × ℕ) (hx : TermOK x) :
    Rr 2.4212e5 (6.33 * (termS x + 4e-6)) (flMoonTheta fl a x.2.1 x.2.2.1 x.2.2.2.1 x.2.2.2.2.1).1 (moonTheta b x.2.1 x.2.2.1 x.2.2.2.1 x.2.2.2.2.1).1 :=
  rr_comb R 2.4212e5 (by nn) (by nn) (by nn) (by nn) h.em h.emp h.d h.f _ _ _ _ hx.2.2.1

theorem flMoonSin_ok (R : Rounding fl) (hL : LibmOK L) {a b : MoonArgs} (h : ArgsRr a b) {Wt : ℝ} (w0 : 0.5 ≤ Wt) (w1 : Wt ≤ 100) (l : List (ℝ × ℤ × ℤ × ℤ × ℤ × ℕ)) (hl : (l.length : ℝ) ≤ 60) (hx : ∀ x ∈ l, TermOK x)
    (h0 : termW 0 l ≤ Wt) (h1 : termW 1 l ≤ 100) (h2 : termW 2 l ≤ 1000) : SumOK l Wt (flMoonSin fl L a l) (moonSin b l) := by
  induction l with
  | nil => exact ⟨by simp [flMoonSin, moonSin, termW], by simp [moonSin, termW], by simp [flMoonSin, moonSin, termW], by simp [moonSin, termW]⟩
  | cons x l ih =>
    have ok := hx x (by simp)
    have S0 : 0 ≤ termS x := by unfold termS; positivity
    have S6 : termS x ≤ 7 := ok.2.2.1
    have t := rr_theta R h x ok
    obtain ⟨y, z⟩ := rr_term R h x ok (Rr.sin hL _ t (by linarith) (by linarith)) (Rr.cos hL _ t (by linarith) (by linarith))
    exact sum_step R w0 w1 (ih (by rw [List.length_cons] at hl; push_cast at hl; linarith) (fun x' m => hx x' (by simp [m])) ((tail_le _ _ _).trans h0) ((tail_le _ _ _).trans h1) ((tail_le _ _ _).trans h2)) hl h0 h1 h2 y z

theorem flMoonCos_ok (R : Rounding fl) (hL : LibmOK L) {a b : MoonArgs} (h : ArgsRr a b) {Wt : ℝ} (w0 : 0.5 ≤ Wt) (w1 : Wt ≤ 100) (l : List (ℝ × ℤ × ℤ × ℤ × ℤ × ℕ)) (hl : (l.length : ℝ) ≤ 60) (hx : ∀ x ∈ l, TermOK x)
    (h0 : termW 0 l ≤ Wt) (h1 : termW 1 l ≤ 100) (h2 : termW 2 l ≤ 1000) : SumOK l Wt (flMoonCos fl L a l) (moonCos b l) := by
  induction l with
  | nil => exact ⟨by simp [flMoonCos, moonCos, termW], by simp [moonCos, termW], by simp [flMoonCos, moonCos, termW], by simp [moonCos, termW]⟩
  | cons x l ih =>
    have ok := hx x (by simp)
    have S0 : 0 ≤ termS x := by unfold termS; positivity
    have S6 : termS x ≤ 7 := ok.2.2.1
    have t := rr_theta R h x ok
    obtain ⟨y, z⟩ := rr_term R h x ok (Rr.cos hL _ t (by linarith) (by linarith)) (Rr.sin hL _ t (by linarith) (by linarith)).neg
    exact sum_step R w0 w1 (ih (by rw [List.length_cons] at hl; push_cast at hl; linarith) (fun x' m => hx x' (by simp [m])) ((tail_le _ _ _).trans h0) ((tail_le _ _ _).trans h1) ((tail_le _ _ _).trans h2)) hl h0 h1 h2 y z

theorem ok_TL : ∀ x ∈ moonTL, TermOK x := by unfold moonTL; norm_num [TermOK, abs_of_pos, abs_of_neg]
theorem ok_TB : ∀ x ∈ moonTB, TermOK x := by unfold moonTB; norm_num [TermOK, abs_of_pos, abs_of_neg]
theorem ok_TP : ∀ x ∈ moonTP, TermOK x := by unfold moonTP; norm_num [TermOK, abs_of_pos, abs_of_neg]
theorem W_TL : termW 0 moonTL ≤ 9.234 ∧ termW 1 moonTL ≤ 13.83 ∧ termW 2 moonTL ≤ 27.4 := by refine ⟨?_, ?_, ?_⟩ <;> norm_num [termW, termS, moonTL, abs_of_pos, abs_of_neg]
theorem W_TB : termW 0 moonTB ≤ 6.085 ∧ termW 1 moonTB ≤ 7.61 ∧ termW 2 moonTB ≤ 12.2 := by refine ⟨?_, ?_, ?_⟩ <;> norm_num [termW, termS, moonTB, abs_of_pos, abs_of_neg]
theorem W_TP : termW 0 moonTP ≤ 1.0271 ∧ termW 1 moonTP ≤ 0.115 ∧ termW 2 moonTP ≤ 0.226 := by refine ⟨?_, ?_, ?_⟩ <;> norm_num [termW, termS, moonTP, abs_of_pos, abs_of_neg]

end Pal.Moon
