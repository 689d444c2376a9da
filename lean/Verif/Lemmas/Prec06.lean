import Verif.Model.Prec06
import Verif.Props.Prec
import Verif.Lemmas.Fk

/-! # Helper lemmas: operator size of small rotations, the IAU 2006 angles between 1900 and 2100 -/

namespace Pal
open Real Spec Matrix Props

/-- The matrix stretches no vector by more than the factor. -/
def Small (m : Mat3) (e : ℝ) : Prop := ∀ x : Vec3, len (m *ᵥ x) ≤ e * len x

theorem Small.mono {m : Mat3} {e f : ℝ} (h : Small m e) (hf : e ≤ f) : Small m f := fun x =>
  (h x).trans (mul_le_mul_of_nonneg_right hf (len_nonneg x))

theorem Small.nonneg {m : Mat3} {e : ℝ} (h : Small m e) : 0 ≤ e := by
  have := h ![1, 0, 0]
  have h1 : len ![1, 0, 0] = 1 := len_one (by rw [dot_eq]; simp)
  rw [h1, mul_one] at this
  exact (len_nonneg _).trans this

theorem Small.add {m n : Mat3} {e f : ℝ} (h : Small m e) (h' : Small n f) : Small (m + n) (e + f) := fun x => by
  rw [Matrix.add_mulVec]
  exact (len_add_le _ _).trans (by rw [add_mul]; exact add_le_add (h x) (h' x))

theorem Small.neg {m : Mat3} {e : ℝ} (h : Small m e) : Small (-m) e := fun x => by
  have : len ((-m) *ᵥ x) = len (m *ᵥ x) := by
    rw [Matrix.neg_mulVec]
    have := len_smul (-1) (m *ᵥ x)
    simp only [neg_one_mul, abs_neg, abs_one, one_mul] at this
    exact this
  rw [this]; exact h x

theorem Small.sub {m n : Mat3} {e f : ℝ} (h : Small m e) (h' : Small n f) : Small (m - n) (e + f) := by
  rw [sub_eq_add_neg]; exact h.add h'.neg

theorem Small.mul {m n : Mat3} {e f : ℝ} (h : Small m e) (h' : Small n f) : Small (m * n) (e * f) := fun x => by
  rw [← Matrix.mulVec_mulVec]
  refine (h _).trans ?_
  rw [mul_assoc]
  exact mul_le_mul_of_nonneg_left (h' x) h.nonneg

theorem rot_len {m : Mat3} (h : IsRotation m) (x : Vec3) : len (m *ᵥ x) = len x := by rw [len_eq, len_eq, rot_dot h]

theorem rot_small {m : Mat3} (h : IsRotation m) : Small m 1 := fun x => by rw [rot_len h, one_mul]

theorem Small.rmul {m r : Mat3} {e : ℝ} (h : Small m e) (hr : IsRotation r) : Small (m * r) e := by
  simpa using h.mul (rot_small hr)

theorem Small.lmul {m r : Mat3} {e : ℝ} (h : Small m e) (hr : IsRotation r) : Small (r * m) e := by
  simpa using (rot_small hr).mul h

theorem Small.rmul_iff {m r : Mat3} {e : ℝ} (hr : IsRotation r) (h : Small (m * r) e) : Small m e := by
  have := h.rmul (rot_transpose hr)
  rwa [Matrix.mul_assoc, hr.1, Matrix.mul_one] at this

/-- A rotation by a small angle is close to the identity. -/
theorem small_axisX (a : ℝ) : Small (axisX a - 1) |a| := by
  intro x
  have hl := len_sq x
  rw [dot_eq] at hl
  have hc := Real.one_sub_sq_div_two_le_cos (x := a)
  have hs := sin_sq_add_cos_sq a
  refine (Real.sqrt_le_iff.2 ⟨mul_nonneg (abs_nonneg a) (len_nonneg x), ?_⟩)
  rw [mul_pow, sq_abs, pow_two (len x), hl]
  have e : (∑ i, ((axisX a - 1) *ᵥ x) i ^ 2) = (2 - 2 * cos a) * (x 1 ^ 2 + x 2 ^ 2) := by
    simp [Fin.sum_univ_three, axisX, Matrix.mulVec, dotProduct]
    linear_combination (x 1 ^ 2 + x 2 ^ 2) * hs
  rw [e]
  nlinarith [sq_nonneg (x 0), sq_nonneg (x 1), sq_nonneg (x 2), sq_nonneg a, mul_nonneg (sq_nonneg a) (sq_nonneg (x 0)),
    mul_nonneg (sub_nonneg.2 hc) (add_nonneg (sq_nonneg (x 1)) (sq_nonneg (x 2)))]

theorem small_axisZ (a : ℝ) : Small (axisZ a - 1) |a| := by
  intro x
  have hl := len_sq x
  rw [dot_eq] at hl
  have hc := Real.one_sub_sq_div_two_le_cos (x := a)
  have hs := sin_sq_add_cos_sq a
  refine (Real.sqrt_le_iff.2 ⟨mul_nonneg (abs_nonneg a) (len_nonneg x), ?_⟩)
  rw [mul_pow, sq_abs, pow_two (len x), hl]
  have e : (∑ i, ((axisZ a - 1) *ᵥ x) i ^ 2) = (2 - 2 * cos a) * (x 0 ^ 2 + x 1 ^ 2) := by
    simp [Fin.sum_univ_three, axisZ, Matrix.mulVec, dotProduct]
    linear_combination (x 0 ^ 2 + x 1 ^ 2) * hs
  rw [e]
  nlinarith [sq_nonneg (x 0), sq_nonneg (x 1), sq_nonneg (x 2), sq_nonneg a, mul_nonneg (sq_nonneg a) (sq_nonneg (x 2)),
    mul_nonneg (sub_nonneg.2 hc) (add_nonneg (sq_nonneg (x 0)) (sq_nonneg (x 1)))]

/-- Two factors close to the identity nearly commute. -/
theorem small_comm {m n : Mat3} {e f : ℝ} (h : Small (m - 1) e) (h' : Small (n - 1) f) : Small (m * n - n * m) (2 * (e * f)) := by
  have : m * n - n * m = (m - 1) * (n - 1) - (n - 1) * (m - 1) := by noncomm_ring
  rw [this]
  exact ((h.mul h').sub (h'.mul h)).mono (by linarith [mul_comm e f])

theorem fw2m_eq (g f p e : ℝ) : eraFw2m g f p e = axisX (-e) * axisZ (-p) * axisX f * axisZ g := by
  unfold eraFw2m
  rw [eraRx_eq, eraRz_eq, eraRx_eq, eraRz_eq, eraIr_eq, mul_one]
  simp only [Matrix.mul_assoc]

theorem fw2m_rot (g f p e : ℝ) : IsRotation (eraFw2m g f p e) := by
  rw [fw2m_eq]
  exact rot_mul (rot_mul (rot_mul (rot_axisX _) (rot_axisZ _)) (rot_axisX _)) (rot_axisZ _)

theorem pmat06_rot (a b : ℝ) : IsRotation (eraPmat06 a b) := fw2m_rot _ _ _ _
theorem pnm06a_rot (nut : ℝ → ℝ → ℝ × ℝ) (a b : ℝ) : IsRotation (eraPnm06a nut a b) := fw2m_rot _ _ _ _

/-- Rotation of the axes by `p` about the pole of the ecliptic of obliquity `e`. -/
noncomputable def eclTurn (e p : ℝ) : Mat3 := axisX (-e) * axisZ (-p) * axisX e

theorem eclTurn_rot (e p : ℝ) : IsRotation (eclTurn e p) := rot_mul (rot_mul (rot_axisX _) (rot_axisZ _)) (rot_axisX _)

theorem axisX_inv (e : ℝ) : axisX e * axisX (-e) = 1 := by rw [axisX_add]; simp [axisX_zero]
theorem axisX_inv' (e : ℝ) : axisX (-e) * axisX e = 1 := by rw [axisX_add]; simp [axisX_zero]

theorem eclTurn_mul (e p q : ℝ) : eclTurn e p * eclTurn e q = eclTurn e (p + q) := by
  unfold eclTurn
  calc _ = axisX (-e) * (axisZ (-p) * (axisX e * axisX (-e)) * axisZ (-q)) * axisX e := by simp only [Matrix.mul_assoc]
    _ = _ := by rw [axisX_inv, mul_one, axisZ_add]; congr 3; ring

theorem eclTurn_zero (e : ℝ) : eclTurn e 0 = 1 := by unfold eclTurn; simp [axisZ_zero, axisX_inv']

theorem eclTurn_comm (e p q : ℝ) : eclTurn e p * eclTurn e q = eclTurn e q * eclTurn e p := by rw [eclTurn_mul, eclTurn_mul, add_comm]

theorem eclTurn_trans (e p : ℝ) : (eclTurn e p).transpose = eclTurn e (-p) := by
  have h := (eclTurn_rot e p)
  have h2 : eclTurn e p * eclTurn e (-p) = 1 := by rw [eclTurn_mul]; simp [eclTurn_zero]
  calc _ = (eclTurn e p).transpose * (eclTurn e p * eclTurn e (-p)) := by rw [h2, mul_one]
    _ = _ := by rw [← Matrix.mul_assoc, rot_trans_mul h, one_mul]

theorem eclTurn_small (e p : ℝ) : Small (eclTurn e p - 1) |p| := by
  have : eclTurn e p - 1 = axisX (-e) * (axisZ (-p) - 1) * axisX e := by
    unfold eclTurn
    rw [Matrix.mul_sub, Matrix.sub_mul, mul_one, axisX_inv']
  rw [this]
  have h := ((small_axisZ (-p)).lmul (rot_axisX (-e))).rmul (rot_axisX e)
  rwa [abs_neg] at h

/-- How far a Fukushima-Williams matrix is from the turn about a fixed ecliptic pole. -/
theorem fw_near (e0 g f p e : ℝ) : Small (eraFw2m g f p e - eclTurn e0 p) (|g| + |f - e| + 2 * (|e - e0| * |p|)) := by
  have hA : IsRotation (axisX (-(e - e0))) := rot_axisX _
  have hN := eclTurn_rot e0 p
  have e1 : eraFw2m g f p e = axisX (-(e - e0)) * eclTurn e0 p * axisX (f - e0) * axisZ g := by
    rw [fw2m_eq]
    unfold eclTurn
    calc _ = axisX (-(e - e0) + -e0) * axisZ (-p) * axisX (e0 + (f - e0)) * axisZ g := by congr 4 <;> [congr 2; congr 1] <;> ring
      _ = _ := by rw [← axisX_add, ← axisX_add]; simp only [Matrix.mul_assoc]
  have e2 : axisX (f - e0) = axisX (e - e0) * axisX (f - e) := by rw [axisX_add]; congr 1; ring
  have key : eraFw2m g f p e - eclTurn e0 p =
      axisX (-(e - e0)) * eclTurn e0 p * axisX (f - e0) * (axisZ g - 1) +
      (axisX (-(e - e0)) * eclTurn e0 p * axisX (e - e0) * (axisX (f - e) - 1) +
      (axisX (-(e - e0)) * eclTurn e0 p - eclTurn e0 p * axisX (-(e - e0))) * axisX (e - e0)) := by
    have i1 := axisX_inv' (e - e0)
    rw [e1, e2]
    calc _ = axisX (-(e - e0)) * eclTurn e0 p * (axisX (e - e0) * axisX (f - e)) * axisZ g - eclTurn e0 p * (axisX (-(e - e0)) * axisX (e - e0)) := by rw [i1, mul_one]
      _ = _ := by noncomm_ring
  rw [key, add_assoc]
  have c := small_comm (show Small (axisX (-(e - e0)) - 1) |e - e0| by have := small_axisX (-(e - e0)); rwa [abs_neg] at this) (eclTurn_small e0 p)
  exact ((small_axisZ g).lmul (rot_mul (rot_mul hA hN) (rot_axisX _))).add
    (((small_axisX (f - e)).lmul (rot_mul (rot_mul hA hN) (rot_axisX _))).add (c.rmul (rot_axisX _)))

end Pal

namespace Pal
open Real Spec Matrix Props

theorem poly_abs {a b c d e f t : ℝ} (ht : |t| ≤ 1) : |a + (b + (c + (d + (e + f * t) * t) * t) * t) * t| ≤ |a| + |b| + |c| + |d| + |e| + |f| := by
  have st : ∀ u v : ℝ, |u + v * t| ≤ |u| + |v| := fun u v => by
    refine (abs_add_le _ _).trans ?_
    rw [abs_mul]
    have := mul_le_mul_of_nonneg_left ht (abs_nonneg v)
    linarith
  have h1 := st a (b + (c + (d + (e + f * t) * t) * t) * t)
  have h2 := st b (c + (d + (e + f * t) * t) * t)
  have h3 := st c (d + (e + f * t) * t)
  have h4 := st d (e + f * t)
  have h5 := st e f
  linarith

theorem das2r_gt0 : 0 < das2r := by unfold das2r; positivity

theorem das2r_ub : das2r < 4.8481369e-6 := by
  unfold das2r
  have := Real.pi_lt_d20
  rw [div_lt_iff₀ (by norm_num)]
  linarith

/-- Size of the Fukushima-Williams angles within a century of J2000. -/
theorem fw_sizes (d1 d2 : ℝ) (ht : |cent06 d1 d2| ≤ 1) :
    |(eraPfw06 d1 d2).gamb| ≤ 11.1029 * das2r ∧ |(eraPfw06 d1 d2).psib| ≤ 5040.0819 * das2r ∧
    |(eraPfw06 d1 d2).phib - (eraPfw06 d1 d2).epsa| ≤ 0.0854 * das2r ∧ |(eraPfw06 d1 d2).epsa - 84381.406 * das2r| ≤ 46.8390 * das2r := by
  have hp := das2r_gt0
  unfold eraPfw06 eraObl06
  dsimp only
  generalize cent06 d1 d2 = t at *
  have key : ∀ (p q k : ℝ), q = p * das2r → |p| ≤ k → |q| ≤ k * das2r := by
    intro p q k hq hk
    rw [hq, abs_mul, abs_of_pos hp]
    exact mul_le_mul_of_nonneg_right hk hp.le
  refine ⟨key _ _ _ rfl ((poly_abs ht).trans ?_), key _ _ _ rfl ((poly_abs ht).trans ?_),
    key (0.006819 + (0.025753 + (0.0513099 + (-0.00147051 + (0.000000136 + 0.0000000258 * t) * t) * t) * t) * t) _ _ (by ring) ((poly_abs ht).trans ?_),
    key (0 + (-46.836769 + (-0.0001831 + (0.00200340 + (-0.000000576 + (-0.0000000434) * t) * t) * t) * t) * t) _ _ (by ring) ((poly_abs ht).trans ?_)⟩ <;>
  · simp only [abs_neg]
    norm_num [abs_of_pos, abs_neg, abs_of_nonneg]

/-- The IAU 2006 matrix within a century of J2000, compared with the turn about the ecliptic pole of J2000. -/
theorem pmat_near (d1 d2 : ℝ) (ht : |cent06 d1 d2| ≤ 1) :
    Small (eraPmat06 d1 d2 - eclTurn (84381.406 * das2r) (eraPfw06 d1 d2).psib) 6.54e-5 := by
  obtain ⟨h1, h2, h3, h4⟩ := fw_sizes d1 d2 ht
  refine (fw_near _ _ _ _ _).mono ?_
  have hp := das2r_gt0
  have hq := das2r_ub
  have h5 : |(eraPfw06 d1 d2).epsa - 84381.406 * das2r| * |(eraPfw06 d1 d2).psib| ≤ (46.8390 * das2r) * (5040.0819 * das2r) :=
    mul_le_mul h4 h2 (abs_nonneg _) (by positivity)
  have h6 : das2r * das2r ≤ 4.8481369e-6 * 4.8481369e-6 := mul_le_mul hq.le hq.le hp.le (by norm_num)
  nlinarith

/-- Two rotations that are nearly turns about one and the same axis nearly commute. -/
theorem near_comm {P0 P1 : Mat3} {e p0 p1 dl nu : ℝ} (h0 : IsRotation P0) (n0 : Small (P0 - eclTurn e p0) dl) (n1 : Small (P1 - eclTurn e p1) dl)
    (b0 : |p0| ≤ nu) (b1 : |p1| ≤ nu) : Small (P0.transpose * P1 - P1 * P0.transpose) (4 * (dl * nu) + 2 * dl ^ 2) := by
  have hdl := n0.nonneg
  have hV := eclTurn_rot e (-p0)
  have hU := eclTurn_rot e p1
  have v1 : Small (eclTurn e (-p0) - 1) nu := (eclTurn_small _ _).mono (by rwa [abs_neg])
  have u1 : Small (eclTurn e p1 - 1) nu := (eclTurn_small _ _).mono b1
  have comm := eclTurn_comm e p1 (-p0)
  have hVt : (eclTurn e p0).transpose = eclTurn e (-p0) := eclTurn_trans e p0
  -- P0ᵀ = V * (1 + d0), P1 = (1 + d1) * U
  obtain ⟨V, eV⟩ : ∃ V, V = eclTurn e (-p0) := ⟨_, rfl⟩
  obtain ⟨U, eU⟩ : ∃ U, U = eclTurn e p1 := ⟨_, rfl⟩
  rw [← eV] at hV v1 comm hVt
  rw [← eU] at hU u1 comm n1
  obtain ⟨d0, e0⟩ : ∃ d0, d0 = V.transpose * P0.transpose - 1 := ⟨_, rfl⟩
  obtain ⟨d1, e1⟩ : ∃ d1, d1 = P1 * U.transpose - 1 := ⟨_, rfl⟩
  have P0e : P0.transpose = V * (1 + d0) := by
    rw [e0, add_sub_cancel, ← Matrix.mul_assoc, hV.1, one_mul]
  have P1e : P1 = (1 + d1) * U := by
    rw [e1, add_sub_cancel, Matrix.mul_assoc, rot_trans_mul hU, mul_one]
  have s1 : Small d1 dl := by
    have : d1 = (P1 - U) * U.transpose := by rw [e1, Matrix.sub_mul, hU.1]
    rw [this]; exact n1.rmul (rot_transpose hU)
  have hN0 := eclTurn_rot e p0
  have s0 : Small d0 dl := by
    have w : Small (P0 * V - 1) dl := by
      have : P0 * V - 1 = (P0 - eclTurn e p0) * V := by rw [Matrix.sub_mul, ← hVt, hN0.1]
      rw [this]; exact n0.rmul hV
    have hD : IsRotation (P0 * V) := rot_mul h0 hV
    have : d0 = (P0 * V).transpose * -(P0 * V - 1) := by
      rw [e0, ← Matrix.transpose_mul, Matrix.mul_neg, Matrix.mul_sub, rot_trans_mul hD, mul_one, neg_sub]
    rw [this]
    exact w.neg.lmul (rot_transpose hD)
  have key : P0.transpose * P1 - P1 * P0.transpose =
      ((V * d1 - d1 * V) * U + V * (d0 * U - U * d0)) + (V * (d0 * d1) * U - d1 * (V * U) * d0) := by
    rw [P0e, P1e]
    have c2 : U * V = V * U := comm
    calc _ = V * d1 * U + V * d0 * U + V * (d0 * d1) * U + V * U - (1 + d1) * (U * V) * (1 + d0) := by noncomm_ring
      _ = _ := by rw [c2]; noncomm_ring
  have q1 : Small (V * d1 - d1 * V) (2 * (dl * nu)) := by
    have : V * d1 - d1 * V = (V - 1) * d1 - d1 * (V - 1) := by noncomm_ring
    rw [this]
    exact ((v1.mul s1).sub (s1.mul v1)).mono (by linarith [mul_comm nu dl])
  have q2 : Small (d0 * U - U * d0) (2 * (dl * nu)) := by
    have : d0 * U - U * d0 = d0 * (U - 1) - (U - 1) * d0 := by noncomm_ring
    rw [this]
    exact ((s0.mul u1).sub (u1.mul s0)).mono (by linarith [mul_comm nu dl])
  have q3 : Small (V * (d0 * d1) * U) (dl * dl) := ((s0.mul s1).lmul hV).rmul hU
  have q4 : Small (d1 * (V * U) * d0) (dl * dl) := (s1.rmul (rot_mul hV hU)).mul s0
  rw [key]
  exact (((q1.rmul hU).add (q2.lmul hV)).add (q3.sub q4)).mono (by linarith [pow_two dl])

end Pal
