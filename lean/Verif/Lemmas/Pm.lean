import Verif.Model.Pm
import Verif.Lemmas.Map
import Mathlib.Tactic.Positivity

/-!
# Lemmas about the loop of eraStarpv
-/

namespace Pal.PmL
open Real Pal

/-- The correction for the second-order Doppler effect. -/
noncomputable def h (w : ℝ) : ℝ := w / (√(1 - w) + 1)

theorem h_eq {w : ℝ} (hw : w ≤ 1) : h w = 1 - √(1 - w) := by
  unfold h
  have h1 := Real.sqrt_nonneg (1 - w)
  have h2 := Real.mul_self_sqrt (sub_nonneg.2 hw)
  rw [div_eq_iff (by linarith)]
  nlinarith

theorem h_nonneg {w : ℝ} (h0 : 0 ≤ w) : 0 ≤ h w := div_nonneg h0 (by positivity)

theorem sqrt_ge {x y : ℝ} (_ : 0 ≤ y) (h : y ^ 2 ≤ x) : y ≤ √x := Real.le_sqrt_of_sq_le h

theorem h_le {w W H : ℝ} (hw : w ≤ W) (hW : W ≤ 1) (hH : H ≤ 1) (hk : (1 - H) ^ 2 ≤ 1 - W) : h w ≤ H := by
  rw [h_eq (hw.trans hW)]
  have := sqrt_ge (x := 1 - w) (y := 1 - H) (by linarith) (by linarith)
  linarith

theorem h_lin {w : ℝ} (h0 : 0 ≤ w) (h1 : w ≤ 0.5) : h w ≤ 0.586 * w := by
  rw [h_eq (by linarith)]
  have := sqrt_ge (x := 1 - w) (y := 1 - 0.586 * w) (by linarith) (by nlinarith)
  linarith

/-- One pass: (radial, transverse) to (radial, transverse). -/
noncomputable def step (a b : ℝ) (s : ℝ × ℝ) : ℝ × ℝ := ((1 + s.1) * a - h (s.1 * s.1 + s.2 * s.2), (1 + s.1) * b)

/-- Invariant for an approaching star. -/
theorem inv_neg {a b : ℝ} (ha : a ≤ 0) (hb : 0 ≤ b) (hab : a * a + b * b ≤ 1 / 4) {s : ℝ × ℝ} (h1 : -(1/2) ≤ s.1) (h2 : s.1 ≤ 0) (h3 : 0 ≤ s.2) (h4 : s.2 ≤ b) :
    -(1/2) ≤ (step a b s).1 ∧ (step a b s).1 ≤ 0 ∧ 0 ≤ (step a b s).2 ∧ (step a b s).2 ≤ b ∧ s.1 * s.1 + s.2 * s.2 ≤ 1 / 2 := by
  obtain ⟨r, t⟩ := s
  dsimp only at *
  have hb2 : b ≤ 1 / 2 := by nlinarith
  have hw : r * r + t * t ≤ 1 / 2 := by nlinarith
  have hw0 : 0 ≤ r * r + t * t := by nlinarith
  have hl := h_lin hw0 (by norm_num; linarith)
  have hn := h_nonneg hw0
  unfold step
  dsimp only
  have ha2 : -a ≤ 1 / 2 - b * b := by
    by_contra hc; push Not at hc
    have h5 : 0 ≤ 1 / 2 - b * b := by nlinarith
    have := mul_self_lt_mul_self h5 hc
    nlinarith [mul_self_nonneg (b * b)]
  refine ⟨?_, ?_, ?_, ?_, hw⟩
  · have htb : t * t ≤ b * b := mul_le_mul h4 h4 h3 hb
    have hr := mul_nonneg (neg_nonneg.2 h2) (by linarith : 0 ≤ r + 1/2)
    nlinarith [mul_nonneg (by linarith : (0:ℝ) ≤ 1 + r) (by linarith : 0 ≤ 1 / 2 - b * b + a), mul_nonneg (neg_nonneg.2 h2) (mul_nonneg hb hb)]
  · nlinarith
  · exact mul_nonneg (by linarith) hb
  · nlinarith

/-- Invariant for a receding star. -/
def Pos (s : ℝ × ℝ) : Prop := 0 ≤ s.2 ∧ s.1 ≤ 0.62 ∧ ((0 ≤ s.1 ∧ s.1 * s.1 + s.2 * s.2 ≤ 0.657) ∨ (s.1 < 0 ∧ -0.59 ≤ s.1 ∧ s.1 * s.1 + s.2 * s.2 ≤ 0.83))

theorem inv_pos {a b : ℝ} (ha : 0 ≤ a) (hb : 0 ≤ b) (hab : a * a + b * b ≤ 1 / 4) {s : ℝ × ℝ} (hs : Pos s) : Pos (step a b s) := by
  obtain ⟨r, t⟩ := s
  obtain ⟨h3, hD, hs⟩ := hs
  dsimp only at *
  have hw0 : 0 ≤ r * r + t * t := add_nonneg (mul_self_nonneg _) (mul_self_nonneg _)
  have hn := h_nonneg hw0
  have ha1 : a ≤ 1 / 2 := by nlinarith
  have hb1 : b ≤ 1 / 2 := by nlinarith
  unfold Pos step
  dsimp only
  have key : ∀ D : ℝ, 0 ≤ D → (D * a) * (D * a) + (D * b) * (D * b) ≤ D * D / 4 := by
    intro D hD
    nlinarith [mul_le_mul_of_nonneg_left hab (mul_nonneg hD hD)]
  rcases hs with ⟨hr0, hw⟩ | ⟨hr0, hr1, hw⟩
  · have hh : h (r * r + t * t) ≤ 0.4144 := h_le hw (by norm_num) (by norm_num) (by norm_num)
    have hk := key (1 + r) (by linarith)
    have hD2 : (1 + r) * (1 + r) / 4 ≤ 0.6561 := by nlinarith
    refine ⟨mul_nonneg (by linarith) hb, ?_, ?_⟩
    · rw [h_eq (by linarith)]
      have hsq : √(1 - (r * r + t * t)) ≤ 181 / 180 - 5 / 9 * (r * r) := by
        have hrr : r * r ≤ 1 := by nlinarith [mul_self_nonneg t]
        rw [Real.sqrt_le_left (by linarith)]
        nlinarith [sq_nonneg (19 / 100 - r * r), mul_self_nonneg t]
      have := mul_le_mul_of_nonneg_left ha1 (by linarith : 0 ≤ 1 + r)
      nlinarith [sq_nonneg (r - 0.45)]
    · rcases le_total 0 ((1 + r) * a - h (r * r + t * t)) with hp | hp
      · left
        refine ⟨hp, ?_⟩
        have : (1 + r) * a - h (r * r + t * t) ≤ (1 + r) * a := by linarith
        nlinarith [mul_le_mul this this hp (by linarith)]
      · rcases hp.eq_or_lt with hz | hlt
        · left
          refine ⟨hz.ge, ?_⟩
          rw [hz]
          nlinarith [mul_self_nonneg ((1 + r) * a)]
        · right
          have hA : 0 ≤ (1 + r) * a := mul_nonneg (by linarith) ha
          refine ⟨hlt, by linarith, ?_⟩
          nlinarith [mul_self_nonneg ((1 + r) * a)]
  · have hh : h (r * r + t * t) ≤ 0.588 := h_le hw (by norm_num) (by norm_num) (by norm_num)
    have hD0 : 0 ≤ 1 + r := by linarith
    have hk := key (1 + r) hD0
    have hD2 : (1 + r) * (1 + r) / 4 ≤ 1 / 4 := by nlinarith
    have hA : 0 ≤ (1 + r) * a := mul_nonneg hD0 ha
    have hA1 : (1 + r) * a ≤ 1 / 2 := by nlinarith
    refine ⟨mul_nonneg (by linarith) hb, by linarith, ?_⟩
    rcases le_or_gt 0 ((1 + r) * a - h (r * r + t * t)) with hp | hp
    · left
      refine ⟨hp, ?_⟩
      have : (1 + r) * a - h (r * r + t * t) ≤ (1 + r) * a := by linarith
      nlinarith [mul_le_mul this this hp (by linarith)]
    · right
      refine ⟨hp, by linarith, ?_⟩
      nlinarith [mul_self_nonneg ((1 + r) * a)]

/-- The velocities after each pass, from the observed ones. -/
noncomputable def vels (a b : ℝ) : ℕ → ℝ × ℝ
  | 0 => (a, b)
  | n + 1 => step a b (vels a b n)

/-- Throughout the loop the speed stays below that of light. -/
theorem vels_ok {a b : ℝ} (hb : 0 ≤ b) (hab : a * a + b * b ≤ 1 / 4) (n : ℕ) :
    -0.59 ≤ (vels a b n).1 ∧ (vels a b n).1 ≤ 0.62 ∧ 0 ≤ (vels a b n).2 ∧ (vels a b n).1 * (vels a b n).1 + (vels a b n).2 * (vels a b n).2 ≤ 0.83 := by
  rcases le_total a 0 with ha | ha
  · have : -(1/2) ≤ (vels a b n).1 ∧ (vels a b n).1 ≤ 0 ∧ 0 ≤ (vels a b n).2 ∧ (vels a b n).2 ≤ b := by
      induction n with
      | zero => exact ⟨by simp only [vels]; nlinarith, ha, hb, le_rfl⟩
      | succ n ih =>
        have := inv_neg ha hb hab ih.1 ih.2.1 ih.2.2.1 ih.2.2.2
        exact ⟨this.1, this.2.1, this.2.2.1, this.2.2.2.1⟩
    have hw := (inv_neg ha hb hab this.1 this.2.1 this.2.2.1 this.2.2.2).2.2.2.2
    exact ⟨by norm_num; linarith [this.1], by norm_num; linarith [this.2.1], this.2.2.1, by norm_num; linarith⟩
  · have : Pos (vels a b n) := by
      induction n with
      | zero => exact ⟨hb, by simp only [vels]; norm_num; nlinarith, Or.inl ⟨ha, by simp only [vels]; norm_num; linarith⟩⟩
      | succ n ih => exact inv_pos ha hb hab ih
    obtain ⟨p1, p2, ⟨q1, q2⟩ | ⟨q1, q2, q3⟩⟩ := this
    · exact ⟨by norm_num; linarith, p2, p1, by norm_num at q2 ⊢; linarith⟩
    · exact ⟨q2, p2, p1, q3⟩

noncomputable def dn (a b : ℝ) (n : ℕ) : ℝ := 1 + (vels a b n).1
noncomputable def deln (a b : ℝ) (n : ℕ) : ℝ := -h ((vels a b n).1 * (vels a b n).1 + (vels a b n).2 * (vels a b n).2)

theorem vels_succ (a b : ℝ) (n : ℕ) : vels a b (n + 1) = (dn a b n * a + deln a b n, dn a b n * b) := by
  simp only [vels, step, dn, deln]; rw [sub_eq_add_neg]

/-- The loop ended early. -/
def Broke (a b : ℝ) (m : ℕ) : Prop :=
  2 ≤ m ∧ |dn a b (m - 1) - dn a b (m - 2)| ≤ |dn a b m - dn a b (m - 1)| ∧ |deln a b (m - 1) - deln a b (m - 2)| ≤ |deln a b m - deln a b (m - 1)|

theorem loop_step {a b : ℝ} (hb : 0 ≤ b) (hab : a * a + b * b ≤ 1 / 4) (n i : ℕ) (d del od odel odd oddel : ℝ) :
    starpvLoop a b (n + 1) i (vels a b i).1 (vels a b i).2 d del od odel odd oddel =
      if i > 0 then
        if i > 1 ∧ |dn a b i - od| ≥ odd ∧ |deln a b i - odel| ≥ oddel then some (dn a b i, deln a b i)
        else starpvLoop a b n (i + 1) (vels a b (i + 1)).1 (vels a b (i + 1)).2 (dn a b i) (deln a b i) (dn a b i) (deln a b i) |dn a b i - od| |deln a b i - odel|
      else starpvLoop a b n (i + 1) (vels a b (i + 1)).1 (vels a b (i + 1)).2 (dn a b i) (deln a b i) (dn a b i) (deln a b i) odd oddel := by
  have hv := (vels_ok hb hab i).2.2.2
  have hd : -((vels a b i).1 * (vels a b i).1 + (vels a b i).2 * (vels a b i).2) / (√(1 - ((vels a b i).1 * (vels a b i).1 + (vels a b i).2 * (vels a b i).2)) + 1) = deln a b i := by
    unfold deln h; rw [neg_div]
  rw [vels_succ]
  conv_lhs => unfold starpvLoop
  dsimp only
  rw [if_neg (by norm_num at hv; linarith), hd]
  rfl

theorem loop_spec {a b : ℝ} (hb : 0 ≤ b) (hab : a * a + b * b ≤ 1 / 4) (n j : ℕ) :
    ∃ m, starpvLoop a b n (j + 2) (vels a b (j + 2)).1 (vels a b (j + 2)).2 (dn a b (j + 1)) (deln a b (j + 1)) (dn a b (j + 1)) (deln a b (j + 1))
        |dn a b (j + 1) - dn a b j| |deln a b (j + 1) - deln a b j| = some (dn a b m, deln a b m) ∧ (m = j + 1 + n ∨ Broke a b m) := by
  induction n generalizing j with
  | zero => exact ⟨j + 1, by unfold starpvLoop; rfl, Or.inl rfl⟩
  | succ n ih =>
    rw [loop_step hb hab, if_pos (by omega)]
    split_ifs with hc
    · exact ⟨j + 2, rfl, Or.inr ⟨by omega, by simpa using hc.2.1, by simpa using hc.2.2⟩⟩
    · obtain ⟨m, h1, h2⟩ := ih (j + 1)
      exact ⟨m, h1, h2.imp (fun h => by omega) id⟩

theorem loop_all {a b : ℝ} (hb : 0 ≤ b) (hab : a * a + b * b ≤ 1 / 4) :
    ∃ m, starpvLoop a b 100 0 a b 0 0 0 0 0 0 = some (dn a b m, deln a b m) ∧ (m = 99 ∨ Broke a b m) := by
  have h0 := loop_step hb hab 99 0 0 0 0 0 0 0
  have e : (vels a b 0).1 = a ∧ (vels a b 0).2 = b := ⟨rfl, rfl⟩
  rw [e.1, e.2, if_neg (lt_irrefl _), loop_step hb hab, if_pos (by norm_num), if_neg (by norm_num)] at h0
  obtain ⟨m, h1, h2⟩ := loop_spec hb hab 98 0
  exact ⟨m, h0.trans h1, h2⟩

/-- Velocities up to a tenth of that of light: bounds during the loop. -/
theorem vels_small {a b : ℝ} (hb : 0 ≤ b) (hab : a * a + b * b ≤ 1 / 100) (n : ℕ) :
    |(vels a b n).1| ≤ 0.13 ∧ 0 ≤ (vels a b n).2 ∧ (vels a b n).2 ≤ 0.115 := by
  have ha : |a| ≤ 0.1 := by rw [abs_le]; constructor <;> norm_num <;> nlinarith
  have hb1 : b ≤ 0.1 := by norm_num; nlinarith [mul_self_nonneg a]
  induction n with
  | zero => simp only [vels]; exact ⟨by linarith, hb, by linarith⟩
  | succ n ih =>
    obtain ⟨i1, i2, i3⟩ := ih
    rw [abs_le] at i1
    simp only [vels, step]
    have hw : (vels a b n).1 * (vels a b n).1 + (vels a b n).2 * (vels a b n).2 ≤ 0.0302 := by
      norm_num at i1 i3 ⊢; nlinarith
    have hw0 : 0 ≤ (vels a b n).1 * (vels a b n).1 + (vels a b n).2 * (vels a b n).2 := add_nonneg (mul_self_nonneg _) (mul_self_nonneg _)
    have hh := h_le hw (by norm_num) (by norm_num : (0.0156 : ℝ) ≤ 1) (by norm_num)
    have hn := h_nonneg hw0
    have h1 : |(1 + (vels a b n).1) * a| ≤ 1.13 * 0.1 := by
      rw [abs_mul]
      exact mul_le_mul (by rw [abs_le]; constructor <;> linarith [i1.1, i1.2]) ha (abs_nonneg _) (by norm_num)
    rw [abs_le] at h1
    refine ⟨?_, mul_nonneg (by linarith [i1.1]) hb, ?_⟩
    · rw [abs_le]; constructor <;> linarith [h1.1, h1.2]
    · have := mul_le_mul (by linarith [i1.2] : 1 + (vels a b n).1 ≤ 1.13) hb1 hb (by norm_num)
      linarith

theorem h_lip {w w' : ℝ} (hw : w ≤ 0.0302) (hw' : w' ≤ 0.0302) : |h w - h w'| ≤ 0.512 * |w - w'| := by
  rw [h_eq (by linarith), h_eq (by linarith)]
  have s1 := sqrt_ge (x := 1 - w) (y := 0.98) (by norm_num) (by norm_num; linarith)
  have s2 := sqrt_ge (x := 1 - w') (y := 0.98) (by norm_num) (by norm_num; linarith)
  have q1 := Real.mul_self_sqrt (by linarith : 0 ≤ 1 - w)
  have q2 := Real.mul_self_sqrt (by linarith : 0 ≤ 1 - w')
  generalize √(1 - w) = x at *
  generalize √(1 - w') = y at *
  have e : w - w' = (y - x) * (y + x) := by nlinarith
  rw [e, show 1 - x - (1 - y) = y - x by ring, abs_mul, abs_of_pos (by linarith : 0 < y + x)]
  nlinarith [abs_nonneg (y - x)]

/-- Size of a change from pass to pass. -/
noncomputable def N (a b : ℝ) (n : ℕ) : ℝ := |dn a b (n + 1) - dn a b n| + 4 * |deln a b (n + 1) - deln a b n|

theorem N_nonneg (a b : ℝ) (n : ℕ) : 0 ≤ N a b n := by unfold N; positivity

theorem contraction {a b : ℝ} (hb : 0 ≤ b) (hab : a * a + b * b ≤ 1 / 100) (n : ℕ) : N a b (n + 1) ≤ 0.4 * N a b n := by
  have ha : |a| ≤ 0.1 := by rw [abs_le]; constructor <;> norm_num <;> nlinarith
  have hb1 : b ≤ 0.1 := by norm_num; nlinarith [mul_self_nonneg a]
  have v1 := vels_small hb hab (n + 1)
  have v2 := vels_small hb hab (n + 2)
  have e1 := vels_succ a b n
  have e2 := vels_succ a b (n + 1)
  have hw : ∀ k, (vels a b k).1 * (vels a b k).1 + (vels a b k).2 * (vels a b k).2 ≤ 0.0302 := by
    intro k
    obtain ⟨i1, i2, i3⟩ := vels_small hb hab k
    rw [abs_le] at i1
    norm_num at i1 i3 ⊢; nlinarith
  have hl := h_lip (hw (n + 2)) (hw (n + 1))
  unfold N
  have ed : dn a b (n + 1 + 1) - dn a b (n + 1) = (vels a b (n + 2)).1 - (vels a b (n + 1)).1 := by unfold dn; ring
  have edel : |deln a b (n + 1 + 1) - deln a b (n + 1)| = |h ((vels a b (n + 2)).1 * (vels a b (n + 2)).1 + (vels a b (n + 2)).2 * (vels a b (n + 2)).2) -
      h ((vels a b (n + 1)).1 * (vels a b (n + 1)).1 + (vels a b (n + 1)).2 * (vels a b (n + 1)).2)| := by
    unfold deln; rw [← abs_neg]; congr 1; ring
  rw [ed, edel]
  have er : (vels a b (n + 2)).1 - (vels a b (n + 1)).1 = (dn a b (n + 1) - dn a b n) * a + (deln a b (n + 1) - deln a b n) := by
    rw [e2, e1]; ring
  have et : (vels a b (n + 2)).2 - (vels a b (n + 1)).2 = (dn a b (n + 1) - dn a b n) * b := by
    rw [e2, e1]; ring
  obtain ⟨x, hx⟩ : ∃ x, x = |dn a b (n + 1) - dn a b n| := ⟨_, rfl⟩
  obtain ⟨y, hy⟩ : ∃ y, y = |deln a b (n + 1) - deln a b n| := ⟨_, rfl⟩
  have hx0 : 0 ≤ x := by rw [hx]; exact abs_nonneg _
  have hy0 : 0 ≤ y := by rw [hy]; exact abs_nonneg _
  have r1 : |(vels a b (n + 2)).1 - (vels a b (n + 1)).1| ≤ 0.1 * x + y := by
    rw [er]
    refine (abs_add_le _ _).trans ?_
    rw [abs_mul, ← hx, ← hy]
    nlinarith
  have t1 : |(vels a b (n + 2)).2 - (vels a b (n + 1)).2| ≤ 0.1 * x := by
    rw [et, abs_mul, ← hx, abs_of_nonneg hb]
    nlinarith
  have w1 : |(vels a b (n + 2)).1 * (vels a b (n + 2)).1 + (vels a b (n + 2)).2 * (vels a b (n + 2)).2 - ((vels a b (n + 1)).1 * (vels a b (n + 1)).1 + (vels a b (n + 1)).2 * (vels a b (n + 1)).2)| ≤
      0.26 * (0.1 * x + y) + 0.23 * (0.1 * x) := by
    have e : (vels a b (n + 2)).1 * (vels a b (n + 2)).1 + (vels a b (n + 2)).2 * (vels a b (n + 2)).2 - ((vels a b (n + 1)).1 * (vels a b (n + 1)).1 + (vels a b (n + 1)).2 * (vels a b (n + 1)).2) =
      ((vels a b (n + 2)).1 + (vels a b (n + 1)).1) * ((vels a b (n + 2)).1 - (vels a b (n + 1)).1) + ((vels a b (n + 2)).2 + (vels a b (n + 1)).2) * ((vels a b (n + 2)).2 - (vels a b (n + 1)).2) := by ring
    rw [e]
    refine (abs_add_le _ _).trans ?_
    rw [abs_mul, abs_mul]
    refine add_le_add (mul_le_mul ?_ r1 (abs_nonneg _) (by norm_num)) (mul_le_mul ?_ t1 (abs_nonneg _) (by norm_num))
    · refine (abs_add_le _ _).trans ?_; linarith [v1.1, v2.1]
    · rw [abs_of_nonneg (add_nonneg v2.2.1 v1.2.1)]; linarith [v1.2.2, v2.2.2]
  rw [← hx, ← hy]
  linarith

theorem N_zero {a b : ℝ} (hb : 0 ≤ b) (hab : a * a + b * b ≤ 1 / 100) (n : ℕ) : N a b n ≤ 0.4 ^ n := by
  induction n with
  | zero =>
    have v0 := vels_small hb hab 0
    have v1 := vels_small hb hab 1
    unfold N dn deln
    simp only [zero_add]
    have hw : ∀ k, h ((vels a b k).1 * (vels a b k).1 + (vels a b k).2 * (vels a b k).2) ≤ 0.0156 ∧ 0 ≤ h ((vels a b k).1 * (vels a b k).1 + (vels a b k).2 * (vels a b k).2) := by
      intro k
      obtain ⟨i1, i2, i3⟩ := vels_small hb hab k
      rw [abs_le] at i1
      refine ⟨h_le (W := 0.0302) (by norm_num at i1 i3 ⊢; nlinarith) (by norm_num) (by norm_num) (by norm_num), h_nonneg (add_nonneg (mul_self_nonneg _) (mul_self_nonneg _))⟩
    have x : |1 + (vels a b 1).1 - (1 + (vels a b 0).1)| ≤ 0.26 := by
      have := abs_le.1 v0.1; have := abs_le.1 v1.1
      rw [abs_le]; constructor <;> linarith
    have y : |-h ((vels a b 1).1 * (vels a b 1).1 + (vels a b 1).2 * (vels a b 1).2) - -h ((vels a b 0).1 * (vels a b 0).1 + (vels a b 0).2 * (vels a b 0).2)| ≤ 0.0156 := by
      rw [abs_le]; constructor <;> linarith [(hw 0).1, (hw 0).2, (hw 1).1, (hw 1).2]
    norm_num at x y ⊢
    linarith
  | succ n ih =>
    have := contraction hb hab n
    rw [pow_succ]; linarith

theorem settled {a b : ℝ} (hb : 0 ≤ b) (hab : a * a + b * b ≤ 1 / 100) {m : ℕ} (hm : m = 99 ∨ Broke a b m) : N a b m ≤ 1e-39 := by
  rcases hm with rfl | ⟨h2, h3, h4⟩
  · have := N_zero hb hab 99
    have e : (0.4 : ℝ) ^ 99 ≤ 1e-39 := by norm_num
    linarith
  · obtain ⟨k, rfl⟩ : ∃ k, m = k + 2 := ⟨m - 2, by omega⟩
    have e1 : k + 2 - 1 = k + 1 := by omega
    have e2 : k + 2 - 2 = k := by omega
    rw [e1, e2] at h3 h4
    have c1 := contraction hb hab k
    have c2 := contraction hb hab (k + 1)
    have n0 := N_nonneg a b k
    have n1 := N_nonneg a b (k + 1)
    have : N a b k ≤ N a b (k + 1) := by unfold N; linarith
    have z : N a b (k + 1) = 0 := by linarith
    have : N a b (k + 2) ≤ 0 := by rw [show k + 2 = k + 1 + 1 by ring]; linarith
    linarith [show (0:ℝ) ≤ 1e-39 by norm_num]

/-- After the loop another pass, and the one after it, would change d by less than 1e-39. -/
theorem converged {a b : ℝ} (hb : 0 ≤ b) (hab : a * a + b * b ≤ 1 / 100) {m : ℕ} (hm : m = 99 ∨ Broke a b m) :
    |dn a b (m + 1) - dn a b m| ≤ 1e-39 ∧ |dn a b (m + 2) - dn a b (m + 1)| ≤ 1e-39 := by
  have hs := settled hb hab hm
  have hc := contraction hb hab m
  have hn := N_nonneg a b m
  have h1 : |dn a b (m + 1) - dn a b m| ≤ N a b m := by unfold N; linarith [abs_nonneg (deln a b (m + 1) - deln a b m)]
  have h2 : |dn a b (m + 2) - dn a b (m + 1)| ≤ N a b (m + 1) := by unfold N; linarith [abs_nonneg (deln a b (m + 1 + 1) - deln a b (m + 1))]
  exact ⟨by linarith, by linarith⟩

theorem vels_zero (n : ℕ) : vels 0 0 n = (0, 0) := by
  induction n with
  | zero => rfl
  | succ n ih => simp [vels, ih, step, h]

end Pal.PmL
