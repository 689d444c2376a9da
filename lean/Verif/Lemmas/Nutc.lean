import Verif.Spec.Nutc
import Mathlib.Tactic.Linarith
import Mathlib.Tactic.FieldSimp
import Mathlib.Tactic.Ring
import Mathlib.Analysis.Real.Pi.Bounds
import Mathlib.Analysis.SpecialFunctions.Trigonometric.Bounds
import Mathlib.Analysis.SpecialFunctions.Trigonometric.Deriv
import Mathlib.Analysis.SpecialFunctions.Trigonometric.DerivHyp

/-!
# Lemmas about the nutation series
-/

namespace Pal
open Real Pal.Spec

/-- The fundamental arguments before reduction by `fmod`. -/
noncomputable def sArgs (t : ℝ) : NutArgs where
  el := 134.96340251 * dd2r + t * (1717915923.2178 + t * (31.8792 + t * (0.051635 + t * (-0.00024470)))) * das2r
  elp := 357.52910918 * dd2r + t * (129596581.0481 + t * (-0.5532 + t * (0.000136 + t * (-0.00001149)))) * das2r
  f := 93.27209062 * dd2r + t * (1739527262.8478 + t * (-12.7512 + t * (-0.001037 + t * 0.00000417))) * das2r
  d := 297.85019547 * dd2r + t * (1602961601.2090 + t * (-6.3706 + t * (0.006539 + t * (-0.00003169)))) * das2r
  om := 125.04455501 * dd2r + t * (-6962890.5431 + t * (7.4722 + t * (0.007702 + t * (-0.00005939)))) * das2r
  ve := 181.97980085 * dd2r + 210664136.433548 * t * das2r
  ma := 355.43299958 * dd2r + 68905077.493988 * t * das2r
  ju := 34.35151874 * dd2r + 10925660.377991 * t * das2r
  sa := 50.07744430 * dd2r + 4399609.855732 * t * das2r

theorem fmod_turn (x : ℝ) : ∃ k : ℤ, fmod x 1296000 * das2r = x * das2r - k * (2 * π) := by
  refine ⟨truncR (x / 1296000), ?_⟩
  unfold fmod das2r
  ring

theorem theta_turn (r : NutRow) (t : ℝ) : ∃ k : ℤ, nutTheta r (nutArgs t) = nutTheta r (sArgs t) - k * (2 * π) := by
  unfold nutTheta nutArgs sArgs
  dsimp only
  obtain ⟨k1, h1⟩ := fmod_turn (t * (1717915923.2178 + t * (31.8792 + t * (0.051635 + t * (-0.00024470)))))
  obtain ⟨k2, h2⟩ := fmod_turn (t * (129596581.0481 + t * (-0.5532 + t * (0.000136 + t * (-0.00001149)))))
  obtain ⟨k3, h3⟩ := fmod_turn (t * (1739527262.8478 + t * (-12.7512 + t * (-0.001037 + t * 0.00000417))))
  obtain ⟨k4, h4⟩ := fmod_turn (t * (1602961601.2090 + t * (-6.3706 + t * (0.006539 + t * (-0.00003169)))))
  obtain ⟨k5, h5⟩ := fmod_turn (t * (-6962890.5431 + t * (7.4722 + t * (0.007702 + t * (-0.00005939)))))
  obtain ⟨k6, h6⟩ := fmod_turn (210664136.433548 * t)
  obtain ⟨k7, h7⟩ := fmod_turn (68905077.493988 * t)
  obtain ⟨k8, h8⟩ := fmod_turn (10925660.377991 * t)
  obtain ⟨k9, h9⟩ := fmod_turn (4399609.855732 * t)
  refine ⟨r.l * k1 + r.lp * k2 + r.f * k3 + r.d * k4 + r.om * k5 + r.ve * k6 + r.ma * k7 + r.ju * k8 + r.sa * k9, ?_⟩
  rw [h1, h2, h3, h4, h5, h6, h7, h8, h9]
  push_cast
  ring

theorem cos_theta (r : NutRow) (t : ℝ) : cos (nutTheta r (nutArgs t)) = cos (nutTheta r (sArgs t)) := by
  obtain ⟨k, h⟩ := theta_turn r t
  rw [h, cos_sub_int_mul_two_pi]

theorem sin_theta (r : NutRow) (t : ℝ) : sin (nutTheta r (nutArgs t)) = sin (nutTheta r (sArgs t)) := by
  obtain ⟨k, h⟩ := theta_turn r t
  rw [h, sin_sub_int_mul_two_pi]

theorem elp_turn (t : ℝ) : ∃ k : ℤ, (nutArgs t).elp = (sArgs t).elp - k * (2 * π) := by
  obtain ⟨k, h⟩ := theta_turn ⟨0, 1, 0, 0, 0, 0, 0, 0, 0, 0, 0, 0, 0, 0, 0, 0, 0⟩ t
  refine ⟨k, ?_⟩
  unfold nutTheta at h
  push_cast at h
  linarith

/-- One term in longitude and in obliquity. -/
noncomputable def pTerm (t : ℝ) (r : NutRow) : ℝ :=
  (r.p0 + r.p2 * t) * cos (nutTheta r (sArgs t)) + (r.p1 + r.p3 * t) * sin (nutTheta r (sArgs t))

noncomputable def eTerm (t : ℝ) (r : NutRow) : ℝ :=
  (r.e0 + r.e2 * t) * cos (nutTheta r (sArgs t)) + (r.e1 + r.e3 * t) * sin (nutTheta r (sArgs t))

/-- Geodesic nutation. -/
noncomputable def gTerm (t : ℝ) : ℝ := -153.1 * sin (sArgs t).elp - 1.9 * sin (2 * (sArgs t).elp)

theorem series_eq (table : List NutRow) (t : ℝ) :
    nutSeries table t (nutArgs t) = (gTerm t + (table.map (pTerm t)).sum, (table.map (eTerm t)).sum) := by
  have hg : -153.1 * sin (nutArgs t).elp - 1.9 * sin (2 * (nutArgs t).elp) = gTerm t := by
    obtain ⟨k, h⟩ := elp_turn t
    unfold gTerm
    rw [h, sin_sub_int_mul_two_pi, show 2 * ((sArgs t).elp - k * (2 * π)) = 2 * (sArgs t).elp - ((2 * k : ℤ) : ℝ) * (2 * π) by push_cast; ring,
      sin_sub_int_mul_two_pi]
  unfold nutSeries
  rw [hg]
  induction table with
  | nil => simp
  | cons r l ih =>
    rw [List.foldr_cons, ih]
    unfold nutStep
    dsimp only
    rw [cos_theta, sin_theta, List.map_cons, List.map_cons, List.sum_cons, List.sum_cons]
    unfold pTerm eTerm
    ext <;> dsimp only <;> ring

theorem abs_sum_map_le {α : Type} (l : List α) (f : α → ℝ) (q : α → ℚ) (h : ∀ r, |f r| ≤ q r) : |(l.map f).sum| ≤ ((l.map q).sum : ℚ) := by
  induction l with
  | nil => simp
  | cons r l ih =>
    rw [List.map_cons, List.map_cons, List.sum_cons, List.sum_cons]
    rw [Rat.cast_add]
    exact (abs_add_le _ _).trans (add_le_add (h r) ih)

theorem abs_sum_map_sub_le {α : Type} (l : List α) (f g : α → ℝ) (q : α → ℚ) (c : ℝ) (h : ∀ r, |f r - g r| ≤ q r * c) :
    |(l.map f).sum - (l.map g).sum| ≤ ((l.map q).sum : ℚ) * c := by
  induction l with
  | nil => simp
  | cons r l ih =>
    rw [List.map_cons, List.map_cons, List.map_cons, List.sum_cons, List.sum_cons, List.sum_cons]
    rw [Rat.cast_add]
    have := h r
    rw [show f r + (l.map f).sum - (g r + (l.map g).sum) = (f r - g r) + ((l.map f).sum - (l.map g).sum) by ring, add_mul]
    exact (abs_add_le _ _).trans (add_le_add this ih)

theorem term_le (a b c d t θ : ℝ) : |(a + c * t) * cos θ + (b + d * t) * sin θ| ≤ |a| + |b| + (|c| + |d|) * |t| := by
  have h1 : |(a + c * t) * cos θ| ≤ |a| + |c| * |t| := by
    rw [abs_mul]
    calc _ ≤ |a + c * t| * 1 := mul_le_mul_of_nonneg_left (abs_cos_le_one _) (abs_nonneg _)
      _ ≤ |a| + |c| * |t| := by rw [mul_one, ← abs_mul]; exact abs_add_le _ _
  have h2 : |(b + d * t) * sin θ| ≤ |b| + |d| * |t| := by
    rw [abs_mul]
    calc _ ≤ |b + d * t| * 1 := mul_le_mul_of_nonneg_left (abs_sin_le_one _) (abs_nonneg _)
      _ ≤ |b| + |d| * |t| := by rw [mul_one, ← abs_mul]; exact abs_add_le _ _
  have := abs_add_le ((a + c * t) * cos θ) ((b + d * t) * sin θ)
  linarith

theorem abs_sum_map_lin {α : Type} (l : List α) (f : α → ℝ) (q w : α → ℚ) (t : ℝ) (h : ∀ r, |f r| ≤ q r + w r * t) :
    |(l.map f).sum| ≤ ((l.map q).sum : ℚ) + ((l.map w).sum : ℚ) * t := by
  induction l with
  | nil => simp
  | cons r l ih =>
    rw [List.map_cons, List.map_cons, List.map_cons, List.sum_cons, List.sum_cons, List.sum_cons]
    rw [Rat.cast_add, Rat.cast_add]
    have := h r
    have := abs_add_le (f r) (l.map f).sum
    linarith

theorem sum_p (t : ℝ) : |(nutTable.map (pTerm t)).sum| ≤ 19459153 + 18392 * |t| := by
  have h := abs_sum_map_lin nutTable (pTerm t) (fun r => |r.p0| + |r.p1|) (fun r => |r.p2| + |r.p3|) |t| (fun r => by
    push_cast; exact term_le _ _ _ _ _ _)
  have h1 : (nutTable.map (fun r => |r.p0| + |r.p1|)).sum ≤ 19459153 := by decide +kernel
  have h2 : (nutTable.map (fun r => |r.p2| + |r.p3|)).sum ≤ 18392 := by decide +kernel
  have h1' : (((nutTable.map (fun r => |r.p0| + |r.p1|)).sum : ℚ) : ℝ) ≤ 19459153 := by exact_mod_cast h1
  have h2' : (((nutTable.map (fun r => |r.p2| + |r.p3|)).sum : ℚ) : ℝ) ≤ 18392 := by exact_mod_cast h2
  have := mul_le_mul_of_nonneg_right h2' (abs_nonneg t)
  linarith

theorem sum_e (t : ℝ) : |(nutTable.map (eTerm t)).sum| ≤ 10086015 + 1467 * |t| := by
  have h := abs_sum_map_lin nutTable (eTerm t) (fun r => |r.e0| + |r.e1|) (fun r => |r.e2| + |r.e3|) |t| (fun r => by
    push_cast; exact term_le _ _ _ _ _ _)
  have h1 : (nutTable.map (fun r => |r.e0| + |r.e1|)).sum ≤ 10086015 := by decide +kernel
  have h2 : (nutTable.map (fun r => |r.e2| + |r.e3|)).sum ≤ 1467 := by decide +kernel
  have h1' : (((nutTable.map (fun r => |r.e0| + |r.e1|)).sum : ℚ) : ℝ) ≤ 10086015 := by exact_mod_cast h1
  have h2' : (((nutTable.map (fun r => |r.e2| + |r.e3|)).sum : ℚ) : ℝ) ≤ 1467 := by exact_mod_cast h2
  have := mul_le_mul_of_nonneg_right h2' (abs_nonneg t)
  linarith

theorem gTerm_le (t : ℝ) : |gTerm t| ≤ 155 := by
  unfold gTerm
  rw [abs_le]
  constructor <;> linarith [neg_one_le_sin (sArgs t).elp, sin_le_one (sArgs t).elp, neg_one_le_sin (2 * (sArgs t).elp), sin_le_one (2 * (sArgs t).elp)]

/-! ## Rates of change -/

theorem abs_cos_sub_le (x y : ℝ) : |cos x - cos y| ≤ |x - y| := by
  rw [cos_sub_cos, abs_mul, abs_mul, abs_neg, abs_two]
  have h1 := abs_sin_le_one ((x + y) / 2)
  have h2 : |sin ((x - y) / 2)| ≤ |(x - y) / 2| := abs_sin_le_abs
  rw [abs_div, abs_two] at h2
  have := mul_le_mul h1 h2 (abs_nonneg _) (by norm_num)
  linarith

theorem abs_sin_sub_le (x y : ℝ) : |sin x - sin y| ≤ |x - y| := by
  rw [sin_sub_sin, abs_mul, abs_mul, abs_two]
  have h1 := abs_cos_le_one ((x + y) / 2)
  have h2 : |sin ((x - y) / 2)| ≤ |(x - y) / 2| := abs_sin_le_abs
  rw [abs_div, abs_two] at h2
  have := mul_le_mul h2 h1 (abs_nonneg _) (by positivity)
  linarith

/-- The higher terms of a quartic change slowly over two centuries. -/
theorem quartic_rate {t u : ℝ} (ht : |t| ≤ 1) (hu : |u| ≤ 1) (a b c d X : ℝ) (hX : 2 * |b| + 3 * |c| + 4 * |d| ≤ X) :
    |t * (a + t * (b + t * (c + t * d))) - u * (a + u * (b + u * (c + u * d))) - a * (t - u)| ≤ X * |t - u| := by
  have e : t * (a + t * (b + t * (c + t * d))) - u * (a + u * (b + u * (c + u * d))) - a * (t - u)
      = (b * (t + u) + c * (t ^ 2 + t * u + u ^ 2) + d * ((t + u) * (t ^ 2 + u ^ 2))) * (t - u) := by ring
  rw [e, abs_mul]
  refine mul_le_mul_of_nonneg_right ?_ (abs_nonneg _)
  have h1 : |b * (t + u)| ≤ |b| * 2 := by
    rw [abs_mul]; exact mul_le_mul_of_nonneg_left ((abs_add_le _ _).trans (by linarith)) (abs_nonneg _)
  have ht2 : t ^ 2 ≤ 1 := by rw [← sq_abs]; nlinarith [abs_nonneg t]
  have hu2 : u ^ 2 ≤ 1 := by rw [← sq_abs]; nlinarith [abs_nonneg u]
  have h2 : |c * (t ^ 2 + t * u + u ^ 2)| ≤ |c| * 3 := by
    rw [abs_mul]
    refine mul_le_mul_of_nonneg_left ?_ (abs_nonneg _)
    rw [abs_le]; constructor <;> nlinarith [sq_nonneg (t - u), sq_nonneg (t + u)]
  have h3 : |d * ((t + u) * (t ^ 2 + u ^ 2))| ≤ |d| * 4 := by
    rw [abs_mul]
    refine mul_le_mul_of_nonneg_left ?_ (abs_nonneg _)
    rw [abs_mul]
    have ha : |t + u| ≤ 2 := (abs_add_le _ _).trans (by linarith)
    have hb : |t ^ 2 + u ^ 2| ≤ 2 := by rw [abs_of_nonneg (by positivity)]; linarith
    nlinarith [abs_nonneg (t + u), abs_nonneg (t ^ 2 + u ^ 2)]
  have := abs_add_le (b * (t + u) + c * (t ^ 2 + t * u + u ^ 2)) (d * ((t + u) * (t ^ 2 + u ^ 2)))
  have := abs_add_le (b * (t + u)) (c * (t ^ 2 + t * u + u ^ 2))
  linarith

/-- The rate of the argument of a term, in arcseconds per century: the linear part. -/
def rowRate (r : NutRow) : ℚ := r.l * 1717915923.2178 + r.lp * 129596581.0481 + r.f * 1739527262.8478 + r.d * 1602961601.2090 + r.om * (-6962890.5431)
  + r.ve * 210664136.433548 + r.ma * 68905077.493988 + r.ju * 10925660.377991 + r.sa * 4399609.855732

/-- The allowance for the higher terms. -/
def rowSlack (r : NutRow) : ℚ := 64 * (|(r.l : ℚ)| + |(r.lp : ℚ)| + |(r.f : ℚ)| + |(r.d : ℚ)| + |(r.om : ℚ)|)

theorem theta_rate (r : NutRow) {t u : ℝ} (ht : |t| ≤ 1) (hu : |u| ≤ 1) :
    |nutTheta r (sArgs t) - nutTheta r (sArgs u)| ≤ ((|rowRate r| + rowSlack r : ℚ) : ℝ) * das2r * |t - u| := by
  have hdas : 0 < das2r := by unfold das2r; positivity
  have q1 := quartic_rate ht hu 1717915923.2178 31.8792 0.051635 (-0.00024470) 64 (by norm_num [abs_of_pos, abs_of_neg])
  have q2 := quartic_rate ht hu 129596581.0481 (-0.5532) 0.000136 (-0.00001149) 64 (by norm_num [abs_of_pos, abs_of_neg])
  have q3 := quartic_rate ht hu 1739527262.8478 (-12.7512) (-0.001037) 0.00000417 64 (by norm_num [abs_of_pos, abs_of_neg])
  have q4 := quartic_rate ht hu 1602961601.2090 (-6.3706) 0.006539 (-0.00003169) 64 (by norm_num [abs_of_pos, abs_of_neg])
  have q5 := quartic_rate ht hu (-6962890.5431) 7.4722 0.007702 (-0.00005939) 64 (by norm_num [abs_of_pos, abs_of_neg])
  obtain ⟨x1, hx1⟩ : ∃ x, x = t * (1717915923.2178 + t * (31.8792 + t * (0.051635 + t * (-0.00024470)))) - u * (1717915923.2178 + u * (31.8792 + u * (0.051635 + u * (-0.00024470)))) - 1717915923.2178 * (t - u) := ⟨_, rfl⟩
  obtain ⟨x2, hx2⟩ : ∃ x, x = t * (129596581.0481 + t * (-0.5532 + t * (0.000136 + t * (-0.00001149)))) - u * (129596581.0481 + u * (-0.5532 + u * (0.000136 + u * (-0.00001149)))) - 129596581.0481 * (t - u) := ⟨_, rfl⟩
  obtain ⟨x3, hx3⟩ : ∃ x, x = t * (1739527262.8478 + t * (-12.7512 + t * (-0.001037 + t * 0.00000417))) - u * (1739527262.8478 + u * (-12.7512 + u * (-0.001037 + u * 0.00000417))) - 1739527262.8478 * (t - u) := ⟨_, rfl⟩
  obtain ⟨x4, hx4⟩ : ∃ x, x = t * (1602961601.2090 + t * (-6.3706 + t * (0.006539 + t * (-0.00003169)))) - u * (1602961601.2090 + u * (-6.3706 + u * (0.006539 + u * (-0.00003169)))) - 1602961601.2090 * (t - u) := ⟨_, rfl⟩
  obtain ⟨x5, hx5⟩ : ∃ x, x = t * (-6962890.5431 + t * (7.4722 + t * (0.007702 + t * (-0.00005939)))) - u * (-6962890.5431 + u * (7.4722 + u * (0.007702 + u * (-0.00005939)))) - (-6962890.5431) * (t - u) := ⟨_, rfl⟩
  rw [← hx1] at q1; rw [← hx2] at q2; rw [← hx3] at q3; rw [← hx4] at q4; rw [← hx5] at q5
  have e : nutTheta r (sArgs t) - nutTheta r (sArgs u) = das2r * ((rowRate r : ℝ) * (t - u) + (r.l * x1 + r.lp * x2 + r.f * x3 + r.d * x4 + r.om * x5)) := by
    unfold nutTheta sArgs rowRate
    dsimp only
    rw [hx1, hx2, hx3, hx4, hx5]
    push_cast
    ring
  rw [e, abs_mul, abs_of_pos hdas]
  have m : ∀ (n : ℤ) (x : ℝ), |x| ≤ 64 * |t - u| → |(n : ℝ) * x| ≤ 64 * |(n : ℝ)| * |t - u| := by
    intro n x hx
    rw [abs_mul]
    have := mul_le_mul_of_nonneg_left hx (abs_nonneg (n : ℝ))
    linarith
  have b0 : |(rowRate r : ℝ) * (t - u)| = |(rowRate r : ℝ)| * |t - u| := abs_mul _ _
  have b1 := m r.l x1 q1
  have b2 := m r.lp x2 q2
  have b3 := m r.f x3 q3
  have b4 := m r.d x4 q4
  have b5 := m r.om x5 q5
  have c1 := abs_add_le ((rowRate r : ℝ) * (t - u)) (r.l * x1 + r.lp * x2 + r.f * x3 + r.d * x4 + r.om * x5)
  have c2 := abs_add_le (r.l * x1 + r.lp * x2 + r.f * x3 + r.d * x4) (r.om * x5)
  have c3 := abs_add_le (r.l * x1 + r.lp * x2 + r.f * x3) (r.d * x4)
  have c4 := abs_add_le (r.l * x1 + r.lp * x2) (r.f * x3)
  have c5 := abs_add_le (r.l * x1) (r.lp * x2)
  have fin : |(rowRate r : ℝ) * (t - u) + (r.l * x1 + r.lp * x2 + r.f * x3 + r.d * x4 + r.om * x5)| ≤ ((|rowRate r| + rowSlack r : ℚ) : ℝ) * |t - u| := by
    unfold rowSlack
    push_cast
    generalize |t - u| = w at *
    nlinarith
  have := mul_le_mul_of_nonneg_left fin hdas.le
  linarith

theorem term_rate (a b c d : ℝ) {t u θ φ w : ℝ} (ht : |t| ≤ 1) (hw : |θ - φ| ≤ w) :
    |((a + c * t) * cos θ + (b + d * t) * sin θ) - ((a + c * u) * cos φ + (b + d * u) * sin φ)|
      ≤ (|a| + |b| + |c| + |d|) * w + (|c| + |d|) * |t - u| := by
  have e : ((a + c * t) * cos θ + (b + d * t) * sin θ) - ((a + c * u) * cos φ + (b + d * u) * sin φ)
      = ((a + c * t) * (cos θ - cos φ) + (b + d * t) * (sin θ - sin φ)) + (c * cos φ + d * sin φ) * (t - u) := by ring
  have hc := (abs_cos_sub_le θ φ).trans hw
  have hs := (abs_sin_sub_le θ φ).trans hw
  have hw0 : 0 ≤ w := (abs_nonneg _).trans hw
  have lin : ∀ a c : ℝ, |a + c * t| ≤ |a| + |c| := by
    intro a c
    have h1 := abs_add_le a (c * t)
    rw [abs_mul] at h1
    nlinarith [abs_nonneg c]
  have h1 : |(a + c * t) * (cos θ - cos φ)| ≤ (|a| + |c|) * w := by
    rw [abs_mul]; exact mul_le_mul (lin a c) hc (abs_nonneg _) (by positivity)
  have h2 : |(b + d * t) * (sin θ - sin φ)| ≤ (|b| + |d|) * w := by
    rw [abs_mul]; exact mul_le_mul (lin b d) hs (abs_nonneg _) (by positivity)
  have h3 : |(c * cos φ + d * sin φ) * (t - u)| ≤ (|c| + |d|) * |t - u| := by
    rw [abs_mul]
    refine mul_le_mul_of_nonneg_right ?_ (abs_nonneg _)
    have := abs_add_le (c * cos φ) (d * sin φ)
    rw [abs_mul, abs_mul] at this
    have := mul_le_mul_of_nonneg_left (abs_cos_le_one φ) (abs_nonneg c)
    have := mul_le_mul_of_nonneg_left (abs_sin_le_one φ) (abs_nonneg d)
    linarith
  rw [e]
  have := abs_add_le ((a + c * t) * (cos θ - cos φ) + (b + d * t) * (sin θ - sin φ)) ((c * cos φ + d * sin φ) * (t - u))
  have := abs_add_le ((a + c * t) * (cos θ - cos φ)) ((b + d * t) * (sin θ - sin φ))
  linarith

/-- A bound for the rate of a term in longitude, in microarcseconds per century, with π < 3.1416. -/
def pRate (r : NutRow) : ℚ := (|r.p0| + |r.p1| + |r.p2| + |r.p3|) * ((|rowRate r| + rowSlack r) * (3.1416 / 648000)) + (|r.p2| + |r.p3|)

theorem das2r_lt : das2r < 3.1416 / 648000 := by
  unfold das2r
  have := pi_lt_d4
  norm_num at *
  linarith

theorem pTerm_rate (r : NutRow) {t u : ℝ} (ht : |t| ≤ 1) (hu : |u| ≤ 1) : |pTerm t r - pTerm u r| ≤ (pRate r : ℝ) * |t - u| := by
  have h := term_rate (r.p0 : ℝ) r.p1 r.p2 r.p3 (t := t) (u := u) ht (theta_rate r ht hu)
  unfold pTerm
  refine h.trans ?_
  unfold pRate
  have hr : (0 : ℝ) ≤ ((|rowRate r| + rowSlack r : ℚ) : ℝ) := by
    unfold rowSlack; exact_mod_cast (by positivity)
  have h1 : ((|rowRate r| + rowSlack r : ℚ) : ℝ) * das2r * |t - u| ≤ ((|rowRate r| + rowSlack r : ℚ) : ℝ) * (3.1416 / 648000) * |t - u| :=
    mul_le_mul_of_nonneg_right (mul_le_mul_of_nonneg_left das2r_lt.le hr) (abs_nonneg _)
  have h2 := mul_le_mul_of_nonneg_left h1 (by positivity : 0 ≤ |(r.p0 : ℝ)| + |(r.p1 : ℝ)| + |(r.p2 : ℝ)| + |(r.p3 : ℝ)|)
  push_cast at h2 ⊢
  linarith

theorem sum_p_rate {t u : ℝ} (ht : |t| ≤ 1) (hu : |u| ≤ 1) :
    |(nutTable.map (pTerm t)).sum - (nutTable.map (pTerm u)).sum| ≤ 9770000000 * |t - u| := by
  have h := abs_sum_map_sub_le nutTable (pTerm t) (pTerm u) pRate |t - u| (fun r => pTerm_rate r ht hu)
  have h1 : (nutTable.map pRate).sum ≤ 9770000000 := by decide +kernel
  have h1' : (((nutTable.map pRate).sum : ℚ) : ℝ) ≤ 9770000000 := by exact_mod_cast h1
  exact h.trans (mul_le_mul_of_nonneg_right h1' (abs_nonneg _))

end Pal

namespace Pal
open Real Pal.Spec

/-! ## The equation of the equinoxes -/

/-- Nutation in longitude in arcseconds. -/
noncomputable def dpsiS (t : ℝ) : ℝ := (gTerm t + (nutTable.map (pTerm t)).sum) * 1e-6 - 0.042888 - 0.29856 * t

/-- Mean obliquity in arcseconds. -/
noncomputable def epsS (t : ℝ) : ℝ := 84381.412 + (-46.80927 + (-0.000152 + (0.0019989 + (-0.00000051 + (-0.000000025) * t) * t) * t) * t) * t

/-- The small complementary terms in arcseconds. -/
noncomputable def compS (t : ℝ) : ℝ :=
  0.00264 * sin (das2r * (450160.280 + (-5 * 1296000 - 482890.539 + (7.455 + 0.008 * t) * t) * t)) +
    0.000063 * sin (2 * (das2r * (450160.280 + (-5 * 1296000 - 482890.539 + (7.455 + 0.008 * t) * t) * t)))

noncomputable def eqeqxS (t : ℝ) : ℝ := dpsiS t * cos (epsS t * das2r) + compS t

theorem eqeqx_eq (date : ℝ) : aopEqeqx date = eqeqxS (centuries date) * das2r := by
  unfold aopEqeqx aopNutc eqeqxS dpsiS compS epsS centuries
  dsimp only
  rw [series_eq]
  rw [show ∀ x : ℝ, x + x = 2 * x from fun x => by ring]
  ring

theorem dpsi_le (t : ℝ) : |dpsiS t| ≤ 19.5022 + 0.316952 * |t| := by
  unfold dpsiS
  have h1 := sum_p t
  have h2 := gTerm_le t
  generalize (nutTable.map (pTerm t)).sum = s at *
  generalize gTerm t = g at *
  have h3 := neg_abs_le t
  have h4 := le_abs_self t
  rw [abs_le] at h1 h2
  rw [abs_le]
  constructor <;> norm_num at * <;> linarith

theorem compS_le (t : ℝ) : |compS t| ≤ 0.002703 := by
  unfold compS
  generalize das2r * (450160.280 + (-5 * 1296000 - 482890.539 + (7.455 + 0.008 * t) * t) * t) = om
  rw [abs_le]
  constructor <;> norm_num <;> linarith [neg_one_le_sin om, sin_le_one om, neg_one_le_sin (2 * om), sin_le_one (2 * om)]

theorem eps_range {t : ℝ} (ht : |t| ≤ 1) : 84334 ≤ epsS t ∧ epsS t ≤ 84429 := by
  obtain ⟨h1, h2⟩ := abs_le.1 ht
  have h3 : t ^ 2 ≤ 1 := by nlinarith
  have a3 : |t ^ 3| ≤ 1 := by rw [abs_pow]; exact pow_le_one₀ (abs_nonneg _) ht
  have a4 : |t ^ 4| ≤ 1 := by rw [abs_pow]; exact pow_le_one₀ (abs_nonneg _) ht
  have a5 : |t ^ 5| ≤ 1 := by rw [abs_pow]; exact pow_le_one₀ (abs_nonneg _) ht
  rw [abs_le] at a3 a4 a5
  have e : epsS t = 84381.412 - 46.80927 * t - 0.000152 * t ^ 2 + 0.0019989 * t ^ 3 - 0.00000051 * t ^ 4 - 0.000000025 * t ^ 5 := by
    unfold epsS; ring
  rw [e]
  have h4 := sq_nonneg t
  constructor <;> norm_num <;> linarith

theorem cos_eps_le {t : ℝ} (ht : |t| ≤ 1) : |cos (epsS t * das2r)| ≤ 0.918 := by
  obtain ⟨h1, h2⟩ := eps_range ht
  have hp := pi_gt_d4
  have hp2 := pi_lt_d4
  have l1 : 0.4088 ≤ epsS t * das2r := by
    unfold das2r
    have : 84334 * (3.1415 / 648000) ≤ epsS t * (π / 648000) := by
      apply mul_le_mul h1 _ (by norm_num) (by linarith)
      linarith
    norm_num at *
    linarith
  have l2 : epsS t * das2r ≤ 0.41 := by
    unfold das2r
    have : epsS t * (π / 648000) ≤ 84429 * (3.1416 / 648000) := by
      apply mul_le_mul h2 _ (by positivity) (by norm_num)
      linarith
    norm_num at *
    linarith
  generalize epsS t * das2r = x at *
  have hb := cos_bound (x := x) (by rw [abs_of_pos (by norm_num at *; linarith)]; norm_num at *; linarith)
  rw [abs_of_pos (by norm_num at *; linarith : 0 < x), abs_le] at hb
  have hx2 : 0.4088 ^ 2 ≤ x ^ 2 := pow_le_pow_left₀ (by norm_num) l1 2
  have hx2' : x ^ 2 ≤ 0.41 ^ 2 := pow_le_pow_left₀ (by norm_num at *; linarith) l2 2
  have hx4 : x ^ 4 ≤ 0.41 ^ 4 := pow_le_pow_left₀ (by norm_num at *; linarith) l2 4
  rw [abs_le]
  constructor <;> norm_num at * <;> linarith

theorem eqeqxS_le {t : ℝ} (ht : |t| ≤ 1) : |eqeqxS t| ≤ 18.2 := by
  unfold eqeqxS
  have h1 := dpsi_le t
  have h2 := cos_eps_le ht
  have h3 := compS_le t
  have h4 : |dpsiS t * cos (epsS t * das2r)| ≤ 19.8192 * 0.918 := by
    rw [abs_mul]
    refine mul_le_mul ?_ h2 (abs_nonneg _) (by norm_num)
    norm_num at *; linarith
  have := abs_add_le (dpsiS t * cos (epsS t * das2r)) (compS t)
  norm_num at *
  linarith

theorem eqeqxS_le_all (t : ℝ) : |eqeqxS t| ≤ 19.51 + 0.32 * |t| := by
  unfold eqeqxS
  have h1 := dpsi_le t
  have h3 := compS_le t
  have h4 : |dpsiS t * cos (epsS t * das2r)| ≤ |dpsiS t| * 1 := by
    rw [abs_mul]
    exact mul_le_mul_of_nonneg_left (abs_cos_le_one _) (abs_nonneg _)
  have := abs_add_le (dpsiS t * cos (epsS t * das2r)) (compS t)
  have := abs_nonneg t
  norm_num at h1 h3 ⊢
  linarith

theorem gTerm_rate {t u : ℝ} (ht : |t| ≤ 1) (hu : |u| ≤ 1) : |gTerm t - gTerm u| ≤ 99000 * |t - u| := by
  have h := theta_rate ⟨0, 1, 0, 0, 0, 0, 0, 0, 0, 0, 0, 0, 0, 0, 0, 0, 0⟩ ht hu
  have e : ∀ t, nutTheta ⟨0, 1, 0, 0, 0, 0, 0, 0, 0, 0, 0, 0, 0, 0, 0, 0, 0⟩ (sArgs t) = (sArgs t).elp := by
    intro t; unfold nutTheta; push_cast; ring
  rw [e, e] at h
  have hr : |rowRate ⟨0, 1, 0, 0, 0, 0, 0, 0, 0, 0, 0, 0, 0, 0, 0, 0, 0⟩| + rowSlack ⟨0, 1, 0, 0, 0, 0, 0, 0, 0, 0, 0, 0, 0, 0, 0, 0, 0⟩ ≤ 129596700 := by decide +kernel
  have hr' : ((|rowRate ⟨0, 1, 0, 0, 0, 0, 0, 0, 0, 0, 0, 0, 0, 0, 0, 0, 0⟩| + rowSlack ⟨0, 1, 0, 0, 0, 0, 0, 0, 0, 0, 0, 0, 0, 0, 0, 0, 0⟩ : ℚ) : ℝ) ≤ 129596700 := by exact_mod_cast hr
  have hd : 0 < das2r := by unfold das2r; positivity
  have hd2 := das2r_lt
  have h2 : |(sArgs t).elp - (sArgs u).elp| ≤ 629 * |t - u| := by
    refine h.trans (mul_le_mul_of_nonneg_right ?_ (abs_nonneg _))
    have : ((|rowRate ⟨0, 1, 0, 0, 0, 0, 0, 0, 0, 0, 0, 0, 0, 0, 0, 0, 0⟩| + rowSlack ⟨0, 1, 0, 0, 0, 0, 0, 0, 0, 0, 0, 0, 0, 0, 0, 0, 0⟩ : ℚ) : ℝ) * das2r ≤ 129596700 * (3.1416 / 648000) :=
      mul_le_mul hr' hd2.le hd.le (by norm_num)
    norm_num at *
    linarith
  unfold gTerm
  have s1 := (abs_sin_sub_le (sArgs t).elp (sArgs u).elp).trans h2
  have s2 := abs_sin_sub_le (2 * (sArgs t).elp) (2 * (sArgs u).elp)
  rw [← mul_sub, abs_mul, abs_two] at s2
  rw [abs_le] at s1
  have s3 : |sin (2 * (sArgs t).elp) - sin (2 * (sArgs u).elp)| ≤ 1258 * |t - u| := by linarith
  rw [abs_le] at s3
  have := abs_nonneg (t - u)
  rw [abs_le]
  constructor <;> norm_num at * <;> linarith

theorem dpsi_rate {t u : ℝ} (ht : |t| ≤ 1) (hu : |u| ≤ 1) : |dpsiS t - dpsiS u| ≤ 9771 * |t - u| := by
  have h1 := sum_p_rate ht hu
  have h2 := gTerm_rate ht hu
  unfold dpsiS
  generalize (nutTable.map (pTerm t)).sum = s at *
  generalize gTerm t = g at *
  generalize (nutTable.map (pTerm u)).sum = s' at *
  generalize gTerm u = g' at *
  have h3 := neg_abs_le (t - u)
  have h4 := le_abs_self (t - u)
  rw [abs_le] at h1 h2
  rw [abs_le]
  constructor <;> norm_num at * <;> linarith

theorem eps_rate {t u : ℝ} (ht : |t| ≤ 1) (hu : |u| ≤ 1) : |epsS t - epsS u| ≤ 47 * |t - u| := by
  obtain ⟨t1, t2⟩ := abs_le.1 ht
  obtain ⟨u1, u2⟩ := abs_le.1 hu
  have e : epsS t - epsS u = (-46.80927 - 0.000152 * (t + u) + 0.0019989 * (t ^ 2 + t * u + u ^ 2) - 0.00000051 * ((t + u) * (t ^ 2 + u ^ 2))
      - 0.000000025 * (t ^ 4 + t ^ 3 * u + t ^ 2 * u ^ 2 + t * u ^ 3 + u ^ 4)) * (t - u) := by unfold epsS; ring
  rw [e, abs_mul]
  refine mul_le_mul_of_nonneg_right ?_ (abs_nonneg _)
  have m : ∀ a b : ℕ, |t ^ a * u ^ b| ≤ 1 := by
    intro a b
    rw [abs_mul, abs_pow, abs_pow]
    exact mul_le_one₀ (pow_le_one₀ (abs_nonneg _) ht) (by positivity) (pow_le_one₀ (abs_nonneg _) hu)
  have m20 := abs_le.1 (m 2 0); have m11 := abs_le.1 (m 1 1); have m02 := abs_le.1 (m 0 2)
  have m30 := abs_le.1 (m 3 0); have m21 := abs_le.1 (m 2 1); have m12 := abs_le.1 (m 1 2); have m03 := abs_le.1 (m 0 3)
  have m40 := abs_le.1 (m 4 0); have m31 := abs_le.1 (m 3 1); have m22 := abs_le.1 (m 2 2); have m13 := abs_le.1 (m 1 3); have m04 := abs_le.1 (m 0 4)
  simp only [pow_zero, pow_one, mul_one, one_mul] at *
  rw [abs_le, show (t + u) * (t ^ 2 + u ^ 2) = t ^ 3 + t * u ^ 2 + t ^ 2 * u + u ^ 3 by ring]
  constructor <;> norm_num <;> linarith

theorem comp_rate {t u : ℝ} (ht : |t| ≤ 1) (hu : |u| ≤ 1) : |compS t - compS u| ≤ 1 * |t - u| := by
  obtain ⟨t1, t2⟩ := abs_le.1 ht
  obtain ⟨u1, u2⟩ := abs_le.1 hu
  obtain ⟨P, hP⟩ : ∃ P : ℝ → ℝ, P = fun t => das2r * (450160.280 + (-5 * 1296000 - 482890.539 + (7.455 + 0.008 * t) * t) * t) := ⟨_, rfl⟩
  have hd : 0 < das2r := by unfold das2r; positivity
  have hd2 := das2r_lt
  have hPr : |P t - P u| ≤ 34 * |t - u| := by
    have e : P t - P u = das2r * (-5 * 1296000 - 482890.539 + 7.455 * (t + u) + 0.008 * (t ^ 2 + t * u + u ^ 2)) * (t - u) := by rw [hP]; ring
    rw [e, abs_mul]
    refine mul_le_mul_of_nonneg_right ?_ (abs_nonneg _)
    rw [abs_mul, abs_of_pos hd]
    have : |-5 * 1296000 - 482890.539 + 7.455 * (t + u) + 0.008 * (t ^ 2 + t * u + u ^ 2)| ≤ 6963000 := by
      have : t ^ 2 ≤ 1 := by nlinarith
      have : u ^ 2 ≤ 1 := by nlinarith
      rw [abs_le]; constructor <;> norm_num at * <;> nlinarith [sq_nonneg (t - u), sq_nonneg (t + u)]
    have := mul_le_mul hd2.le this (abs_nonneg _) (by norm_num)
    norm_num at *
    linarith
  have e2 : ∀ t, compS t = 0.00264 * sin (P t) + 0.000063 * sin (2 * P t) := by intro t; rw [hP]; rfl
  rw [e2, e2]
  have s1 := (abs_sin_sub_le (P t) (P u)).trans hPr
  have s2 := abs_sin_sub_le (2 * P t) (2 * P u)
  rw [← mul_sub, abs_mul, abs_two] at s2
  have s3 : |sin (2 * P t) - sin (2 * P u)| ≤ 68 * |t - u| := by linarith
  rw [abs_le] at s1 s3
  have := abs_nonneg (t - u)
  rw [abs_le]
  constructor <;> norm_num at * <;> linarith

theorem eqeqxS_rate {t u : ℝ} (ht : |t| ≤ 1) (hu : |u| ≤ 1) : |eqeqxS t - eqeqxS u| ≤ 9000 * |t - u| := by
  unfold eqeqxS
  have h1 := dpsi_rate ht hu
  have h2 := cos_eps_le ht
  have h3 := comp_rate ht hu
  have h4 := dpsi_le u
  have h5 := eps_rate ht hu
  have hd : 0 < das2r := by unfold das2r; positivity
  have hd2 := das2r_lt
  have e : dpsiS t * cos (epsS t * das2r) + compS t - (dpsiS u * cos (epsS u * das2r) + compS u)
      = (dpsiS t - dpsiS u) * cos (epsS t * das2r) + dpsiS u * (cos (epsS t * das2r) - cos (epsS u * das2r)) + (compS t - compS u) := by ring
  have b1 : |(dpsiS t - dpsiS u) * cos (epsS t * das2r)| ≤ 9771 * |t - u| * 0.918 := by
    rw [abs_mul]; exact mul_le_mul h1 h2 (abs_nonneg _) (by positivity)
  have b2 : |dpsiS u * (cos (epsS t * das2r) - cos (epsS u * das2r))| ≤ 1 * |t - u| := by
    rw [abs_mul]
    have c1 := abs_cos_sub_le (epsS t * das2r) (epsS u * das2r)
    rw [← sub_mul, abs_mul, abs_of_pos hd] at c1
    have c2 : |epsS t - epsS u| * das2r ≤ 47 * |t - u| * (3.1416 / 648000) := mul_le_mul h5 hd2.le hd.le (by positivity)
    have c3 : |dpsiS u| ≤ 20 := by norm_num at *; linarith
    have := mul_le_mul c3 (c1.trans c2) (abs_nonneg _) (by norm_num)
    have := abs_nonneg (t - u)
    norm_num at *
    linarith [abs_nonneg (t - u)]
  rw [e]
  have := abs_add_le ((dpsiS t - dpsiS u) * cos (epsS t * das2r) + dpsiS u * (cos (epsS t * das2r) - cos (epsS u * das2r))) (compS t - compS u)
  have := abs_add_le ((dpsiS t - dpsiS u) * cos (epsS t * das2r)) (dpsiS u * (cos (epsS t * das2r) - cos (epsS u * das2r)))
  have := abs_nonneg (t - u)
  norm_num at *
  linarith [abs_nonneg (t - u)]

end Pal

namespace Pal
open Real Pal.Spec
open scoped ContDiff

/-! ## Smoothness -/

theorem contDiff_list_sum {α : Type} (l : List α) (f : ℝ → α → ℝ) (h : ∀ r, ContDiff ℝ ∞ (fun t => f t r)) :
    ContDiff ℝ ∞ (fun t => (l.map (f t)).sum) := by
  induction l with
  | nil => simpa using contDiff_const
  | cons r l ih =>
    simp only [List.map_cons, List.sum_cons]
    exact (h r).add ih

theorem pTerm_smooth (r : NutRow) : ContDiff ℝ ∞ (fun t => pTerm t r) := by
  unfold pTerm nutTheta sArgs
  dsimp only
  fun_prop

theorem eqeqx_smooth : ContDiff ℝ ∞ aopEqeqx := by
  have e : aopEqeqx = fun date => eqeqxS (centuries date) * das2r := funext eqeqx_eq
  rw [e]
  have h1 : ContDiff ℝ ∞ (fun t => (nutTable.map (pTerm t)).sum) := contDiff_list_sum nutTable pTerm pTerm_smooth
  have h2 : ContDiff ℝ ∞ gTerm := by
    unfold gTerm sArgs
    dsimp only
    fun_prop
  have h3 : ContDiff ℝ ∞ dpsiS := by
    unfold dpsiS
    fun_prop
  have h4 : ContDiff ℝ ∞ epsS := by
    unfold epsS
    fun_prop
  have h5 : ContDiff ℝ ∞ compS := by
    unfold compS
    fun_prop
  have h6 : ContDiff ℝ ∞ eqeqxS := by
    unfold eqeqxS
    fun_prop
  have h7 : ContDiff ℝ ∞ centuries := by
    unfold centuries
    fun_prop
  exact (h6.comp h7).mul contDiff_const

/-! ## The textbook formula -/

theorem table_split (t : ℝ) : (nutTable.map (pTerm t)).sum =
    pTerm t ⟨0, 0, 0, 0, -1, 0, 0, 0, 0, 3341.5, 17206241.800000001, 3.1000000000000001, 17409.5, 9205365.8000000007, -1506.2, 885.70000000000005, -0.20000000000000001⟩ +
    (pTerm t ⟨0, 0, 2, -2, 2, 0, 0, 0, 0, -1716.8, -1317185.3, 1.3999999999999999, -156.80000000000001, 573095.90000000002, -570.20000000000005, -305, -0.29999999999999999⟩ +
    (pTerm t ⟨0, 0, 2, 0, 2, 0, 0, 0, 0, 285.69999999999999, -227667, 0.29999999999999999, -23.5, 97845.5, 147.80000000000001, -48.799999999999997, -0.20000000000000001⟩ +
    (pTerm t ⟨0, 0, 0, 0, -2, 0, 0, 0, 0, -68.599999999999994, -207448, 0, -21.399999999999999, -89753.600000000006, 28, 46.899999999999999, 0⟩ +
    ((nutTable.drop 4).map (pTerm t)).sum))) := rfl

theorem sum_rest (t : ℝ) : |((nutTable.drop 4).map (pTerm t)).sum| ≤ 495198 + 800 * |t| := by
  have h := abs_sum_map_lin (nutTable.drop 4) (pTerm t) (fun r => |r.p0| + |r.p1|) (fun r => |r.p2| + |r.p3|) |t| (fun r => by
    push_cast; exact term_le _ _ _ _ _ _)
  have h1 : ((nutTable.drop 4).map (fun r => |r.p0| + |r.p1|)).sum ≤ 495198 := by decide +kernel
  have h2 : ((nutTable.drop 4).map (fun r => |r.p2| + |r.p3|)).sum ≤ 800 := by decide +kernel
  have h1' : ((((nutTable.drop 4).map (fun r => |r.p0| + |r.p1|)).sum : ℚ) : ℝ) ≤ 495198 := by exact_mod_cast h1
  have h2' : ((((nutTable.drop 4).map (fun r => |r.p2| + |r.p3|)).sum : ℚ) : ℝ) ≤ 800 := by exact_mod_cast h2
  have := mul_le_mul_of_nonneg_right h2' (abs_nonneg t)
  linarith

theorem row_textbook (a b c d A : ℝ) {t θ φ δ : ℝ} (ht : |t| ≤ 1) (h : |θ - φ| ≤ δ) :
    |((a + c * t) * cos θ + (b + d * t) * sin θ) * 1e-6 - A * sin φ| ≤ (|a| + |c| + |d|) * 1e-6 + |b * 1e-6 - A| + |A| * δ := by
  have e : ((a + c * t) * cos θ + (b + d * t) * sin θ) * 1e-6 - A * sin φ
      = (((a + c * t) * cos θ + (0 + d * t) * sin θ) * 1e-6 + (b * 1e-6 - A) * sin θ) + A * (sin θ - sin φ) := by ring
  have h1 : |((a + c * t) * cos θ + (0 + d * t) * sin θ) * 1e-6| ≤ (|a| + |c| + |d|) * 1e-6 := by
    rw [abs_mul, abs_of_pos (by norm_num : (0 : ℝ) < 1e-6)]
    refine mul_le_mul_of_nonneg_right ?_ (by norm_num)
    have := term_le a 0 c d t θ
    rw [abs_zero] at this
    nlinarith [abs_nonneg c, abs_nonneg d]
  have h2 : |(b * 1e-6 - A) * sin θ| ≤ |b * 1e-6 - A| := by
    rw [abs_mul]
    have := mul_le_mul_of_nonneg_left (abs_sin_le_one θ) (abs_nonneg (b * 1e-6 - A))
    linarith
  have h3 : |A * (sin θ - sin φ)| ≤ |A| * δ := by
    rw [abs_mul]
    exact mul_le_mul_of_nonneg_left ((abs_sin_sub_le θ φ).trans h) (abs_nonneg _)
  rw [e]
  have := abs_add_le (((a + c * t) * cos θ + (0 + d * t) * sin θ) * 1e-6 + (b * 1e-6 - A) * sin θ) (A * (sin θ - sin φ))
  have := abs_add_le (((a + c * t) * cos θ + (0 + d * t) * sin θ) * 1e-6) ((b * 1e-6 - A) * sin θ)
  linarith

/-- A quartic in arcseconds that is small is a small angle. -/
theorem small_angle {x δ : ℝ} (k : ℝ) (h : |x| ≤ k) (hk : k * (3.1416 / 648000) ≤ δ) : |x * das2r| ≤ δ := by
  have hd : 0 < das2r := by unfold das2r; positivity
  have hd2 := das2r_lt
  rw [abs_mul, abs_of_pos hd]
  have := mul_le_mul h hd2.le hd.le ((abs_nonneg x).trans h)
  linarith

theorem powers {t : ℝ} (ht : |t| ≤ 1) : (-1 ≤ t ∧ t ≤ 1) ∧ (0 ≤ t ^ 2 ∧ t ^ 2 ≤ 1) ∧ (-1 ≤ t ^ 3 ∧ t ^ 3 ≤ 1) ∧ (0 ≤ t ^ 4 ∧ t ^ 4 ≤ 1) := by
  have m : ∀ n, |t ^ n| ≤ 1 := fun n => by rw [abs_pow]; exact pow_le_one₀ (abs_nonneg _) ht
  exact ⟨abs_le.1 ht, ⟨by positivity, (abs_le.1 (m 2)).2⟩, abs_le.1 (m 3), ⟨by positivity, (abs_le.1 (m 4)).2⟩⟩

theorem dpsi_textbook {t : ℝ} (ht : |t| ≤ 1) : |dpsiS t - nutationLongitude t| ≤ 0.88 := by
  obtain ⟨⟨t1, t1'⟩, ⟨t2, t2'⟩, ⟨t3, t3'⟩, t4, t4'⟩ := powers ht
  have hdd : dd2r = 3600 * das2r := by unfold dd2r das2r; ring
  have hpi : π / 180 = 3600 * das2r := by unfold das2r; ring
  have r0 := row_textbook 3341.5 17206241.800000001 3.1000000000000001 17409.5 17.20 (t := t) (θ := -(sArgs t).om) (φ := -nodeLongitude t) (δ := 0.00005) ht (by
    have : -(sArgs t).om - -nodeLongitude t = (3600 * (125.04452 - 1934.136261 * t) - (3600 * 125.04455501 + t * (-6962890.5431 + t * (7.4722 + t * (0.007702 + t * (-0.00005939)))))) * das2r := by
      unfold sArgs nodeLongitude; rw [hdd, hpi]; ring
    rw [this]
    refine small_angle 8 ?_ (by norm_num)
    rw [abs_le]; constructor <;> ring_nf <;> norm_num <;> linarith)
  have r1 := row_textbook (-1716.8) (-1317185.3) 1.3999999999999999 (-156.80000000000001) (-1.32) (t := t) (θ := 2 * (sArgs t).f - 2 * (sArgs t).d + 2 * (sArgs t).om)
      (φ := 2 * sunLongitude t - 2 * (2 * π)) (δ := 0.00005) ht (by
    have : 2 * (sArgs t).f - 2 * (sArgs t).d + 2 * (sArgs t).om - (2 * sunLongitude t - 2 * (2 * π)) =
        2 * ((3600 * 93.27209062 + t * (1739527262.8478 + t * (-12.7512 + t * (-0.001037 + t * 0.00000417))))
          - (3600 * 297.85019547 + t * (1602961601.2090 + t * (-6.3706 + t * (0.006539 + t * (-0.00003169)))))
          + (3600 * 125.04455501 + t * (-6962890.5431 + t * (7.4722 + t * (0.007702 + t * (-0.00005939)))))
          - 3600 * (280.4665 + 36000.7698 * t) + 1296000) * das2r := by
      unfold sArgs sunLongitude; rw [hdd, hpi, show (2 : ℝ) * π = 1296000 * das2r by unfold das2r; ring]; ring
    rw [this]
    refine small_angle 8 ?_ (by norm_num)
    rw [abs_le]; constructor <;> ring_nf <;> norm_num <;> linarith)
  have r2 := row_textbook 285.69999999999999 (-227667) 0.29999999999999999 (-23.5) (-0.23) (t := t) (θ := 2 * (sArgs t).f + 2 * (sArgs t).om)
      (φ := 2 * moonLongitude t) (δ := 0.00008) ht (by
    have : 2 * (sArgs t).f + 2 * (sArgs t).om - 2 * moonLongitude t =
        2 * ((3600 * 93.27209062 + t * (1739527262.8478 + t * (-12.7512 + t * (-0.001037 + t * 0.00000417))))
          + (3600 * 125.04455501 + t * (-6962890.5431 + t * (7.4722 + t * (0.007702 + t * (-0.00005939)))))
          - 3600 * (218.3165 + 481267.8813 * t)) * das2r := by
      unfold sArgs moonLongitude; rw [hdd, hpi]; ring
    rw [this]
    refine small_angle 16 ?_ (by norm_num)
    rw [abs_le]; constructor <;> ring_nf <;> norm_num <;> linarith)
  have r3 := row_textbook (-68.599999999999994) (-207448) 0 (-21.399999999999999) (-0.21) (t := t) (θ := -2 * (sArgs t).om) (φ := -(2 * nodeLongitude t)) (δ := 0.00008) ht (by
    have : -2 * (sArgs t).om - -(2 * nodeLongitude t) = 2 * (3600 * (125.04452 - 1934.136261 * t) - (3600 * 125.04455501 + t * (-6962890.5431 + t * (7.4722 + t * (0.007702 + t * (-0.00005939)))))) * das2r := by
      unfold sArgs nodeLongitude; rw [hdd, hpi]; ring
    rw [this]
    refine small_angle 16 ?_ (by norm_num)
    rw [abs_le]; constructor <;> ring_nf <;> norm_num <;> linarith)
  rw [show (2 : ℝ) * sunLongitude t - 2 * (2 * π) = 2 * sunLongitude t - ((2 : ℤ) : ℝ) * (2 * π) by push_cast; ring, sin_sub_int_mul_two_pi] at r1
  have hrest := sum_rest t
  have hg := gTerm_le t
  unfold dpsiS nutationLongitude
  rw [table_split]
  generalize ((nutTable.drop 4).map (pTerm t)).sum = R at *
  unfold pTerm nutTheta
  dsimp only
  push_cast
  simp only [zero_mul, zero_add, add_zero, neg_mul, one_mul, sin_neg, cos_neg, ← sub_eq_add_neg] at r0 r1 r2 r3 ⊢
  clear hdd hpi
  generalize sin (nodeLongitude t) = n1 at *
  generalize sin (2 * nodeLongitude t) = n2 at *
  generalize sin (2 * sunLongitude t) = n3 at *
  generalize sin (2 * moonLongitude t) = n4 at *
  generalize gTerm t = g at *
  have hR : |R| ≤ 495998 := by linarith
  rw [abs_le] at r0 r1 r2 r3 hR hg
  rw [abs_le]
  have k0 : (|(3341.5 : ℝ)| + |3.1000000000000001| + |17409.5|) * 1e-6 + |17206241.800000001 * 1e-6 - 17.20| + |17.20| * 0.00005 ≤ 0.02786 := by
    norm_num [abs_of_pos, abs_of_neg]
  have k1 : (|(-1716.8 : ℝ)| + |1.3999999999999999| + |(-156.80000000000001)|) * 1e-6 + |-(1317185.3 * 1e-6) - -1.32| + |(-1.32)| * 0.00005 ≤ 0.00476 := by
    norm_num [abs_of_pos, abs_of_neg]
  have k2 : (|(285.69999999999999 : ℝ)| + |0.29999999999999999| + |(-23.5)|) * 1e-6 + |-(227667 * 1e-6) - -0.23| + |(-0.23)| * 0.00008 ≤ 0.0027 := by
    norm_num [abs_of_pos, abs_of_neg]
  have k3 : (|(-68.599999999999994 : ℝ)| + |0| + |(-21.399999999999999)|) * 1e-6 + |-(207448 * 1e-6) - -0.21| + |(-0.21)| * 0.00008 ≤ 0.0027 := by
    norm_num [abs_of_pos, abs_of_neg]
  obtain ⟨a0, b0⟩ := r0
  obtain ⟨a1, b1⟩ := r1
  obtain ⟨a2, b2⟩ := r2
  obtain ⟨a3, b3⟩ := r3
  replace a0 := (neg_le_neg k0).trans a0
  replace b0 := b0.trans k0
  replace a1 := (neg_le_neg k1).trans a1
  replace b1 := b1.trans k1
  replace a2 := (neg_le_neg k2).trans a2
  replace b2 := b2.trans k2
  replace a3 := (neg_le_neg k3).trans a3
  replace b3 := b3.trans k3
  clear k0 k1 k2 k3 t2 t2' t3 t3' t4 t4' ht hrest
  constructor <;> norm_num at * <;> linarith

end Pal

namespace Pal
open Real Pal.Spec

theorem nutationLongitude_le (t : ℝ) : |nutationLongitude t| ≤ 18.96 := by
  unfold nutationLongitude
  have h1 := neg_one_le_sin (nodeLongitude t); have h1' := sin_le_one (nodeLongitude t)
  have h2 := neg_one_le_sin (2 * nodeLongitude t); have h2' := sin_le_one (2 * nodeLongitude t)
  have h3 := neg_one_le_sin (2 * sunLongitude t); have h3' := sin_le_one (2 * sunLongitude t)
  have h4 := neg_one_le_sin (2 * moonLongitude t); have h4' := sin_le_one (2 * moonLongitude t)
  rw [abs_le]
  constructor <;> norm_num <;> linarith

theorem eqeqx_textbook {t : ℝ} (ht : |t| ≤ 1) : |eqeqxS t - equationOfEquinoxes t| ≤ 0.82 := by
  obtain ⟨⟨t1, t1'⟩, ⟨t2, t2'⟩, ⟨t3, t3'⟩, t4, t4'⟩ := powers ht
  have h1 := dpsi_textbook ht
  have h2 := cos_eps_le ht
  have h3 := compS_le t
  have h4 := nutationLongitude_le t
  have t5 : |t ^ 5| ≤ 1 := by rw [abs_pow]; exact pow_le_one₀ (abs_nonneg _) ht
  rw [abs_le] at t5
  have h5 : |epsS t * das2r - meanObliquity t| ≤ 0.000001 := by
    have : epsS t * das2r - meanObliquity t = (epsS t - (84381.448 - 46.8150 * t)) * das2r := by
      unfold meanObliquity das2r; ring
    rw [this]
    refine small_angle 0.05 ?_ (by norm_num)
    have e : epsS t - (84381.448 - 46.8150 * t) = -0.036 + 0.00573 * t - 0.000152 * t ^ 2 + 0.0019989 * t ^ 3 - 0.00000051 * t ^ 4 - 0.000000025 * t ^ 5 := by
      unfold epsS; ring
    rw [e, abs_le]
    constructor <;> norm_num <;> linarith
  unfold eqeqxS equationOfEquinoxes
  have e : dpsiS t * cos (epsS t * das2r) + compS t - nutationLongitude t * cos (meanObliquity t)
      = (dpsiS t - nutationLongitude t) * cos (epsS t * das2r) + nutationLongitude t * (cos (epsS t * das2r) - cos (meanObliquity t)) + compS t := by ring
  have b1 : |(dpsiS t - nutationLongitude t) * cos (epsS t * das2r)| ≤ 0.88 * 0.918 := by
    rw [abs_mul]; exact mul_le_mul h1 h2 (abs_nonneg _) (by norm_num)
  have b2 : |nutationLongitude t * (cos (epsS t * das2r) - cos (meanObliquity t))| ≤ 18.96 * 0.000001 := by
    rw [abs_mul]; exact mul_le_mul h4 ((abs_cos_sub_le _ _).trans h5) (abs_nonneg _) (by norm_num)
  rw [e]
  have c1 := abs_add_le ((dpsiS t - nutationLongitude t) * cos (epsS t * das2r) + nutationLongitude t * (cos (epsS t * das2r) - cos (meanObliquity t))) (compS t)
  have c2 := abs_add_le ((dpsiS t - nutationLongitude t) * cos (epsS t * das2r)) (nutationLongitude t * (cos (epsS t * das2r) - cos (meanObliquity t)))
  have c3 := c1.trans (add_le_add (c2.trans (add_le_add b1 b2)) h3)
  refine c3.trans ?_
  norm_num

end Pal
