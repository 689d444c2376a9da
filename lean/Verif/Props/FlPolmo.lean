import Verif.Model.FlPolmo
import Verif.Lemmas.FlAop
import Verif.Lemmas.FlPxy
import Verif.Props.FlBear
import Verif.Props.Coord2

/-!
# C140: polar motion in double precision
-/

namespace Pal
open Real Pal.Spec Pal.Props

variable {fl : ℝ → ℝ} {L : Libm}

theorem polmo_t (elongm phim xp yp : ℝ) : (axisY xp * axisX yp).mulVec (dir elongm phim) =
      ![cos elongm * cos phim * cos xp - (-(sin elongm * cos phim) * sin yp + sin phim * cos yp) * sin xp,
        sin elongm * cos phim * cos yp + sin phim * sin yp,
        cos elongm * cos phim * sin xp + (-(sin elongm * cos phim) * sin yp + sin phim * cos yp) * cos xp] := by
  rw [← Matrix.mulVec_mulVec]
  funext i
  fin_cases i <;> simp [axisX, axisY, dir, Matrix.mulVec, dotProduct, Fin.sum_univ_three] <;> ring

theorem polmo_n (xp yp : ℝ) : (axisY xp * axisX yp).mulVec ![0, 0, 1] = ![-sin xp * cos yp, sin yp, cos xp * cos yp] := by
  rw [← Matrix.mulVec_mulVec]
  funext i
  fin_cases i <;> simp [axisX, axisY, Matrix.mulVec, dotProduct, Fin.sum_univ_three]

theorem turned_le (xp yp : ℝ) {v : Vec3} (hv : dot v v = 1) (i : Fin 3) : |(axisY xp * axisX yp).mulVec v i| ≤ 1 := by
  have := comp_le_len ((axisY xp * axisX yp).mulVec v) i
  rwa [len_one (rot_unit (rot_mul (rot_axisY _) (rot_axisX _)) hv)] at this

theorem neg_err {a A e : ℝ} (h : |a - A| ≤ e) : |-a - -A| ≤ e := by rwa [show -a - -A = -(a - A) by ring, abs_neg]

/-- The site vector. -/
theorem flPolmoVec_err (R : Rounding fl) (hL : LibmOK L) (elongm phim xp yp : ℝ) (i : Fin 3) :
    |flPolmoVec fl L elongm phim xp yp i - (axisY xp * axisX yp).mulVec (dir elongm phim) i| ≤ 3e-15 := by
  have T := turned_le xp yp (dot_dir elongm phim)
  have Z := turned_le 0 yp (dot_dir elongm phim) 2
  rw [polmo_t] at T Z
  simp only [Matrix.cons_val, sin_zero, cos_zero, mul_zero, mul_one, zero_add] at Z
  rw [polmo_t]
  have s := fun x => hL.sin x
  have c := fun x => hL.cos x
  have mm : ∀ x y : ℝ, |sin x * cos y| ≤ 1 := fun x y => by rw [abs_mul]; exact mul_le_one₀ (abs_sin_le_one _) (abs_nonneg _) (abs_cos_le_one _)
  have mc : ∀ x y : ℝ, |cos x * cos y| ≤ 1 := fun x y => by rw [abs_mul]; exact mul_le_one₀ (abs_cos_le_one _) (abs_nonneg _) (abs_cos_le_one _)
  have xm : |fl (L.cos elongm * L.cos phim) - cos elongm * cos phim| ≤ 5.72e-16 := R.mul _ (c _) (c _) (abs_cos_le_one _) (abs_cos_le_one _) (by norm_num) (by norm_num) (by norm_num)
  have ym : |fl (L.sin elongm * L.cos phim) - sin elongm * cos phim| ≤ 5.72e-16 := R.mul _ (s _) (c _) (abs_sin_le_one _) (abs_cos_le_one _) (by norm_num) (by norm_num) (by norm_num)
  have z1 : |fl (-fl (L.sin elongm * L.cos phim) * L.sin yp) - -(sin elongm * cos phim) * sin yp| ≤ 9.14e-16 :=
    R.mul _ (neg_err ym) (s _) (by rw [abs_neg]; exact mm _ _) (abs_sin_le_one _) (by norm_num) (by norm_num) (by norm_num)
  have z2 : |fl (L.sin phim * L.cos yp) - sin phim * cos yp| ≤ 5.72e-16 := R.mul _ (s _) (c _) (abs_sin_le_one _) (abs_cos_le_one _) (by norm_num) (by norm_num) (by norm_num)
  have zw := R.add 1 1.6e-15 z1 z2 Z (by norm_num) (by norm_num) le_rfl (by norm_num) (by norm_num)
  have x1 : |fl (fl (L.cos elongm * L.cos phim) * L.cos xp) - cos elongm * cos phim * cos xp| ≤ 9.14e-16 := R.mul _ xm (c _) (mc _ _) (abs_cos_le_one _) (by norm_num) (by norm_num) (by norm_num)
  have x2 := R.mul 1.95e-15 zw (s xp) Z (abs_sin_le_one _) (by norm_num) (by norm_num) (by norm_num)
  have y1 : |fl (fl (L.sin elongm * L.cos phim) * L.cos yp) - sin elongm * cos phim * cos yp| ≤ 9.14e-16 := R.mul _ ym (c _) (mm _ _) (abs_cos_le_one _) (by norm_num) (by norm_num) (by norm_num)
  have y2 : |fl (L.sin phim * L.sin yp) - sin phim * sin yp| ≤ 5.72e-16 := R.mul _ (s _) (s _) (abs_sin_le_one _) (abs_sin_le_one _) (by norm_num) (by norm_num) (by norm_num)
  have w1 : |fl (fl (L.cos elongm * L.cos phim) * L.sin xp) - cos elongm * cos phim * sin xp| ≤ 9.14e-16 := R.mul _ xm (s _) (mc _ _) (abs_sin_le_one _) (by norm_num) (by norm_num) (by norm_num)
  have w2 := R.mul 1.95e-15 zw (c xp) Z (abs_cos_le_one _) (by norm_num) (by norm_num) (by norm_num)
  fin_cases i
  · exact sub_err R 3e-15 x1 x2 (T 0) (by norm_num) (by norm_num) (by norm_num)
  · exact (R.add 1 1.6e-15 y1 y2 (T 1) (by norm_num) (by norm_num) le_rfl (by norm_num) (by norm_num)).trans (by norm_num)
  · exact R.add 1 3e-15 w1 w2 (T 2) (by norm_num) (by norm_num) le_rfl (by norm_num) (by norm_num)

/-- The pole. -/
theorem flPolmoPole_err (R : Rounding fl) (hL : LibmOK L) (xp yp : ℝ) (i : Fin 3) :
    |flPolmoPole fl L xp yp i - (axisY xp * axisX yp).mulVec ![0, 0, 1] i| ≤ 5.72e-16 := by
  rw [polmo_n]
  fin_cases i
  · exact R.mul _ (neg_err (hL.sin xp)) (hL.cos yp) (by rw [abs_neg]; exact abs_sin_le_one _) (abs_cos_le_one _) (by norm_num) (by norm_num) (by norm_num)
  · exact (hL.sin yp).trans (by norm_num)
  · exact R.mul _ (hL.cos xp) (hL.cos yp) (abs_cos_le_one _) (abs_cos_le_one _) (by norm_num) (by norm_num) (by norm_num)

/-- The two components of the pole as seen from the site. -/
theorem polmo_comp (R : Rounding fl) {t T n N : Vec3} {c g s' c' S C η : ℝ} (ht : |t 2 - T 2| ≤ 3e-15) (hn : ∀ i, |n i - N i| ≤ 5.72e-16) (hT : |T 2| ≤ 1) (hN : ∀ i, |N i| ≤ 1)
    (hc : |c - g| ≤ 6.4e-15) (hg : |g| ≤ 1) (hs : |s' - S| ≤ η) (hc' : |c' - C| ≤ η) (hS : |S| ≤ 1) (hC : |C| ≤ 1) (h0 : 9.5e-15 ≤ η) (h1 : η ≤ 1e-3) :
    |fl (fl (fl (fl (n 0 * c') + fl (n 1 * s')) * t 2) - fl (n 2 * c)) - ((N 0 * C + N 1 * S) * T 2 - N 2 * g)| ≤ 3.8 * η ∧
    |fl (fl (-n 0 * s') + fl (n 1 * c')) - (-N 0 * S + N 1 * C)| ≤ 3.8 * η := by
  have mulη : ∀ {a A b B : ℝ}, |a - A| ≤ 5.72e-16 → |A| ≤ 1 → |b - B| ≤ η → |B| ≤ 1 → |fl (a * b) - A * B| ≤ 1.1 * η := fun {a A b B} h1' h2' h3' h4' =>
    R.mulB _ h1' h3' h2' h4' (by norm_num at *; nlinarith) (by norm_num at *; nlinarith)
  have p1 := mulη (hn 0) (hN 0) hc' hC
  have p2 := mulη (hn 1) (hN 1) hs hS
  have q1 := mulη (neg_err (hn 0)) (by rw [abs_neg]; exact hN 0) hs hS
  have q2 := mulη (hn 1) (hN 1) hc' hC
  have m1 : ∀ {A B : ℝ}, |A| ≤ 1 → |B| ≤ 1 → |A * B| ≤ 1 := fun {A B} h h' => by rw [abs_mul]; exact mul_le_one₀ h (abs_nonneg _) h'
  have a1 := R.addB (2.24 * η) p1 p2 (m1 (hN 0) hC) (m1 (hN 1) hS) (by norm_num at *; linarith) (by norm_num at *; linarith)
  have a2 := R.addB (2.24 * η) q1 q2 (m1 (by rw [abs_neg]; exact hN 0) hS) (m1 (hN 1) hC) (by norm_num at *; linarith) (by norm_num at *; linarith)
  refine ⟨?_, a2.1.trans (by linarith)⟩
  have e1 := R.mulB (2.92 * η) a1.1 ht a1.2 hT (by norm_num at *; nlinarith) (by norm_num at *; nlinarith)
  have e2 := R.mulB (0.76 * η) (hn 2) hc (hN 2) hg (by norm_num at *) (by norm_num at *; linarith)
  have b1 : |(N 0 * C + N 1 * S) * T 2| ≤ 2 := by
    rw [abs_mul]
    have := a1.2
    have := mul_le_mul this hT (abs_nonneg _) (by norm_num)
    linarith
  exact (R.subB (3.8 * η) e1 e2 b1 (m1 (hN 2) hg) (by norm_num at *; linarith) (by norm_num at *; linarith)).1

end Pal

namespace Pal.Props
open Real Pal Pal.Spec

/-- **C140** palPolmo in double precision: unless the site is within 1e-11 of the true pole, it returns the exact true position of the site to 2e-14, and the exact azimuth correction, up to whole
turns, to 2.1e-13 divided by the cosines of the mean and the true latitude; for all polar motions. -/
theorem C140_polmo {fl : ℝ → ℝ} (R : Rounding fl) {L : Libm} (hL : LibmOK L) (nz1 nz2 nz3 : Bool) (elongm phim xp yp : ℝ)
    (hg : 1e-11 ≤ √((axisY xp * axisX yp).mulVec (dir elongm phim) 0 ^ 2 + (axisY xp * axisX yp).mulVec (dir elongm phim) 1 ^ 2)) :
    ∃ o e, flPolmo fl L nz1 nz2 nz3 elongm phim xp yp = some o ∧ palPolmo elongm phim xp yp = some e ∧
      |o.elong| ≤ π + 4.5e-16 ∧ |o.phi| ≤ π / 2 + 4.5e-16 ∧ |o.daz| ≤ π + 4.5e-16 ∧
      len (fun i => dir o.elong o.phi i - dir e.elong e.phi i) ≤ 2e-14 ∧
      ∃ k : ℤ, |cos phim| * cos e.phi * |o.daz - (e.daz + k * (2 * π))| ≤ 2.1e-13 := by
  have tv := flPolmoVec_err R hL elongm phim xp yp
  have nv := flPolmoPole_err R hL xp yp
  have Tb := turned_le xp yp (dot_dir elongm phim)
  have Nb := turned_le xp yp (v := ![0, 0, 1]) (by rw [dot_eq]; simp)
  have hunit := rot_unit (rot_mul (rot_axisY xp) (rot_axisX yp)) (dot_dir elongm phim)
  have pe := polmo_eq elongm phim xp yp
  have C38 := C38_polmo elongm phim xp yp
  dsimp only at pe C38
  unfold flPolmo
  dsimp only
  generalize (axisY xp * axisX yp).mulVec (dir elongm phim) = T at *
  generalize (axisY xp * axisX yp).mulVec ![0, 0, 1] = N at *
  generalize flPolmoVec fl L elongm phim xp yp = t at *
  generalize flPolmoPole fl L xp yp = n at *
  rw [sq, sq] at hg
  have hsq := hyp_sq (T 0) (T 1)
  have tb : ∀ i, |t i| ≤ 10 ^ 72 := fun i => by
    have := abs_add_le (t i - T i) (T i)
    rw [sub_add_cancel] at this
    have := tv i
    have := Tb i
    refine le_trans (b := 2) ?_ (by norm_num)
    norm_num at *; linarith
  have hc := flHyp_err R (tv 0) (tv 1) (tb 0) (tb 1)
  have hN1 : √(T 0 * T 0 + T 1 * T 1) ≤ 1 := by
    refine Real.sqrt_le_one.2 ?_
    rw [dot_eq] at hunit; nlinarith [mul_self_nonneg (T 2)]
  have hc2 : |fl (√(fl (fl (t 0 * t 0) + fl (t 1 * t 1)))) - √(T 0 * T 0 + T 1 * T 1)| ≤ 6.4e-15 := by
    refine hc.trans ?_
    have : (1 : ℝ) / 10 ^ 98 ≤ 1e-20 := by norm_num
    generalize (1 : ℝ) / 10 ^ 98 = q at *
    clear hsq pe C38 hunit
    generalize √(T 0 * T 0 + T 1 * T 1) = g at *
    norm_num at *
    linarith
  have hD : (√(T 0 * T 0 + T 1 * T 1)) ≠ 0 := (lt_of_lt_of_le (by norm_num) hg).ne'
  rw [if_neg hD] at pe
  obtain ⟨d1, d2, d3, d4, d5⟩ := C38 _ pe
  have core := fun θ φ => core_dir R hL nz1 (u := T) tv (by norm_num) (by rw [len_one hunit]; norm_num) (by rw [len_one hunit]; norm_num) (by funext i; rw [len_one hunit, one_mul]) θ φ
  have cT : ∀ i, i = 0 ∨ i = 1 → |T i| ≤ √(T 0 * T 0 + T 1 * T 1) := by
    intro i hi
    refine Real.le_sqrt_of_sq_le ?_
    rw [sq_abs]
    rcases hi with rfl | rfl <;> nlinarith [mul_self_nonneg (T 0), mul_self_nonneg (T 1)]
  have hcl := hyp_cos_atan2 (T 1) (T 0)
  have hsl := hyp_sin_atan2 (T 1) (T 0)
  have t2c := hyp_cos_atan2 (T 2) (√(T 0 * T 0 + T 1 * T 1))
  have t2s := hyp_sin_atan2 (T 2) (√(T 0 * T 0 + T 1 * T 1))
  rw [hsq, ← dot_eq, hunit, Real.sqrt_one, one_mul] at t2c t2s
  have cz : t 0 = 0 ∧ t 1 = 0 → fl (√(fl (fl (t 0 * t 0) + fl (t 1 * t 1)))) = 0 := fun h => by rw [h.1, h.2]; simp [R.zero]
  generalize fl (√(fl (fl (t 0 * t 0) + fl (t 1 * t 1)))) = c at *
  generalize √(T 0 * T 0 + T 1 * T 1) = g at *
  have g0 : 0 < g := lt_of_lt_of_le (by norm_num) hg
  have c0 : 0 < c := by have := (abs_le.1 hc2).1; norm_num at *; linarith
  rw [if_neg c0.ne']
  refine ⟨_, _, rfl, pe, ?_⟩
  have tne : t 0 ≠ 0 ∨ t 1 ≠ 0 := by
    by_contra h
    rw [not_or, not_not, not_not] at h
    exact c0.ne' (cz h)
  rw [if_pos tne]
  dsimp only at d1 d2 d3 d4 d5 ⊢
  have hφ : |flAtan2 L nz2 (t 2) c - atan2 (t 2) c| ≤ 4.5e-16 := by
    unfold flAtan2
    split_ifs with h
    · rw [h.2, atan2_zero_pos c0.le, sub_zero]; exact hL.atan2m_pos _ c0
    · exact hL.atan2 _ _
  obtain ⟨A, P, a1, a2, a3, a4, a5⟩ := core _ _ (Or.inr ⟨tne, rfl⟩) (fun _ => hφ)
  have quo : ∀ i, i = 0 ∨ i = 1 → |fl (t i / c) - T i / g| ≤ 9.7e-15 / g := by
    intro i hi
    have q := R.quot (tv i) (d := c) (D := g) (e := 6.4e-15 / g) (by rw [abs_of_pos g0, div_mul_cancel₀ _ g0.ne']; exact hc2) (by rw [div_le_iff₀ g0]; norm_num at *; linarith) g0.ne'
      (by
        rw [abs_of_pos g0, div_le_iff₀ g0]
        have := cT i hi
        have : (10 : ℝ) ^ 240 * 1e-11 ≤ 10 ^ 240 * g := mul_le_mul_of_nonneg_left hg (by positivity)
        refine le_trans ?_ this
        refine le_trans (b := 2) ?_ (by norm_num)
        norm_num at *; linarith)
    refine q.trans ?_
    rw [abs_of_pos g0]
    have h1 : (6.4e-15 / g + 1.1104e-16) * |T i| ≤ 6.52e-15 := by
      have := cT i hi
      have : 6.4e-15 / g * |T i| ≤ 6.4e-15 := by
        rw [div_mul_eq_mul_div, div_le_iff₀ g0]; exact mul_le_mul_of_nonneg_left this (by norm_num)
      have := abs_nonneg (T i)
      norm_num at *; nlinarith
    have h2 : (1 : ℝ) / 10 ^ 200 ≤ 1e-20 / g := by
      rw [le_div_iff₀ g0]
      have := mul_le_mul_of_nonneg_left hN1 (by positivity : (0 : ℝ) ≤ 1 / 10 ^ 200)
      refine this.trans (by norm_num)
    have h3 : 1.0012 * (3e-15 + (6.4e-15 / g + 1.1104e-16) * |T i|) / g ≤ 9.6e-15 / g := by
      refine div_le_div_of_nonneg_right ?_ g0.le
      generalize (6.4e-15 / g + 1.1104e-16) * |T i| = q at *
      norm_num at *; linarith
    have h4 : 9.6e-15 / g + 1e-20 / g ≤ 9.7e-15 / g := by
      rw [← add_div]; exact div_le_div_of_nonneg_right (by norm_num) g0.le
    linarith
  have unit1 : ∀ i, i = 0 ∨ i = 1 → |T i / g| ≤ 1 := fun i hi => by
    rw [abs_div, abs_of_pos g0, div_le_one g0]; exact cT i hi
  obtain ⟨k1, k2⟩ := polmo_comp R (tv 2) nv (Tb 2) Nb hc2 (by rw [abs_of_pos g0]; exact hN1) (quo 1 (Or.inr rfl)) (quo 0 (Or.inl rfl)) (unit1 1 (Or.inr rfl)) (unit1 0 (Or.inl rfl))
    (by rw [le_div_iff₀ g0]; norm_num at *; linarith) (by rw [div_le_iff₀ g0]; norm_num at *; linarith)
  have hcl' : cos (atan2 (T 1) (T 0)) = T 0 / g := by rw [eq_div_iff g0.ne']; linarith
  have hsl' : sin (atan2 (T 1) (T 0)) = T 1 / g := by rw [eq_div_iff g0.ne']; linarith
  have hNo : dot N (northAt (atan2 (T 1) (T 0)) (atan2 (T 2) g)) = -((N 0 * (T 0 / g) + N 1 * (T 1 / g)) * T 2 - N 2 * g) := by
    rw [dot_eq]; simp only [northAt, Matrix.cons_val_zero, Matrix.cons_val_one, Matrix.cons_val]; rw [hcl', hsl', t2c, t2s]; ring
  have hEa : dot N (eastAt (atan2 (T 1) (T 0))) = -N 0 * (T 1 / g) + N 1 * (T 0 / g) := by
    rw [dot_eq]; simp only [eastAt, Matrix.cons_val_zero, Matrix.cons_val_one, Matrix.cons_val]; rw [hcl', hsl']; ring
  rw [hNo] at d4
  rw [hEa] at d5
  have hlen : len (fun i => dir (flAtan2 L nz1 (t 1) (t 0)) (flAtan2 L nz2 (t 2) c) i - dir (atan2 (T 1) (T 0)) (atan2 (T 2) g) i) ≤ 2e-14 := by
    rw [d1]
    have ch := chord (flAtan2 L nz1 (t 1) (t 0)) (flAtan2 L nz2 (t 2) c) A P
    have := len_tri (dir (flAtan2 L nz1 (t 1) (t 0)) (flAtan2 L nz2 (t 2) c)) (dir A P) T
    norm_num at *
    linarith
  have bc : ∀ {ρ τ θ X Y : ℝ}, |X - ((N 0 * (T 0 / g) + N 1 * (T 1 / g)) * T 2 - N 2 * g)| ≤ 3.8 * (9.7e-15 / g) → |Y - (-N 0 * (T 1 / g) + N 1 * (T 0 / g))| ≤ 3.8 * (9.7e-15 / g) → 0 ≤ ρ → ρ * cos τ = -X → ρ * sin τ = -Y → |θ - τ| ≤ 4.5e-16 →
      ∃ k : ℤ, |cos phim| * cos (atan2 (T 2) g) * |θ - (atan2 (-(-N 0 * (T 1 / g) + N 1 * (T 0 / g))) (-((N 0 * (T 0 / g) + N 1 * (T 1 / g)) * T 2 - N 2 * g)) + k * (2 * π))| ≤ 2.1e-13 := by
    intro ρ τ θ X Y hX hY hρ r1 r2 hθ
    obtain ⟨k, hk⟩ := bearing_close (neg_err hX) (neg_err hY) (abs_nonneg (cos phim)) ((abs_cos_le_one _).trans one_le_two) d4 d5 hρ r1 r2 hθ
    refine ⟨k, ?_⟩
    rw [t2c]
    generalize |θ - (atan2 (-(-N 0 * (T 1 / g) + N 1 * (T 0 / g))) (-((N 0 * (T 0 / g) + N 1 * (T 1 / g)) * T 2 - N 2 * g)) + k * (2 * π))| = D at *
    have := mul_le_mul_of_nonneg_left hk g0.le
    rw [show g * (5.45 * (3.8 * (9.7e-15 / g)) + 9e-16) = 5.45 * 3.8 * 9.7e-15 + 9e-16 * g by field_simp] at this
    rw [show |cos phim| * g * D = g * (|cos phim| * D) by ring]
    refine this.trans ?_
    norm_num at *; linarith
  refine ⟨close_range a1 a3, close_range a2 a4, ?_⟩
  generalize fl (fl (fl (fl (n 0 * fl (t 0 / c)) + fl (n 1 * fl (t 1 / c))) * t 2) - fl (n 2 * c)) = X at *
  generalize fl (fl (-n 0 * fl (t 1 / c)) + fl (n 1 * fl (t 0 / c))) = Y at *
  by_cases hxy : X ≠ 0 ∨ Y ≠ 0
  · rw [if_pos hxy]
    obtain ⟨τ, t1, t2, t3, t4⟩ := flAtan2_spec hL nz3 (-Y) (-X) (by simpa using hxy)
    exact ⟨close_range t1 t4, hlen, bc k1 k2 (Real.sqrt_nonneg _) t2.symm t3.symm t1⟩
  · rw [if_neg hxy]
    rw [not_or, not_not, not_not] at hxy
    refine ⟨by rw [abs_zero]; positivity, hlen, ?_⟩
    exact bc (ρ := 0) (τ := 0) k1 k2 le_rfl (by rw [hxy.1, zero_mul, neg_zero]) (by rw [hxy.2, zero_mul, neg_zero]) (by norm_num)

/-- The hypothesis for a site at 45° without polar motion, and for one on the equator with polar motion of a fraction of an arcsecond. -/
example : 1e-11 ≤ √((axisY 0 * axisX 0).mulVec (dir 1 (π / 4)) 0 ^ 2 + (axisY 0 * axisX 0).mulVec (dir 1 (π / 4)) 1 ^ 2) := by
  rw [polmo_t]
  simp only [Matrix.cons_val_zero, Matrix.cons_val_one, sin_zero, cos_zero, mul_zero, sub_zero, add_zero, mul_one]
  rw [show (cos 1 * cos (π / 4)) ^ 2 + (sin 1 * cos (π / 4)) ^ 2 = cos (π / 4) ^ 2 * (sin 1 ^ 2 + cos 1 ^ 2) by ring, sin_sq_add_cos_sq, mul_one, Real.sqrt_sq (by rw [cos_pi_div_four]; positivity), cos_pi_div_four]
  have : 1 ≤ √2 := Real.one_le_sqrt.2 (by norm_num)
  generalize √(2 : ℝ) = q at *
  norm_num; linarith

example (xp yp : ℝ) (hx : xp = 1e-6) (_ : yp = 2e-6) : 1e-11 ≤ √((axisY xp * axisX yp).mulVec (dir 0 0) 0 ^ 2 + (axisY xp * axisX yp).mulVec (dir 0 0) 1 ^ 2) := by
  rw [polmo_t]
  simp only [Matrix.cons_val_zero, Matrix.cons_val_one, sin_zero, cos_zero, zero_mul, neg_zero, sub_zero, add_zero, mul_one, one_mul]
  rw [sq 0, mul_zero, add_zero, Real.sqrt_sq_eq_abs]
  refine le_trans ?_ (le_abs_self _)
  have := Real.one_sub_sq_div_two_le_cos (x := xp)
  rw [hx] at *
  norm_num at *; linarith

end Pal.Props
