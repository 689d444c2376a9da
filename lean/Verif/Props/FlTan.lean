import Verif.Model.FlTan
import Verif.Props.FlBear
import Verif.Props.Sphere

/-!
# C119: the tangent plane in double precision
-/

namespace Pal.Props
open Real Pal Pal.Spec

theorem fl_double {fl : ℝ → ℝ} (R : Rounding fl) {x : ℝ} (hx : |x| ≤ 10 ^ 30) : IsDouble fl (fl x) := by
  obtain ⟨m, e, hm, he, h⟩ := R.rep x (big_le hx)
  unfold IsDouble
  rw [h]
  refine R.keep m e hm he ?_
  have n := R.err hx
  have : |fl x| ≤ 10 ^ 31 := by
    have := abs_add_le (fl x - x) x
    rw [sub_add_cancel] at this
    have z : (1 : ℝ) / 10 ^ 200 ≤ 1 := by norm_num
    generalize (1 : ℝ) / 10 ^ 200 = t at *
    norm_num at *
    linarith
  rw [h, abs_mul, abs_of_pos (by positivity : (0 : ℝ) < 2 ^ e)] at this
  refine this.trans ?_
  rw [show (1000 : ℕ) = 110 + 890 by norm_num, pow_add]
  exact le_trans (by norm_num) (le_mul_of_one_le_right (by positivity) (one_le_pow₀ (by norm_num : (1 : ℝ) ≤ 2)))

/-- A point of the sphere with its projection, as a vector in the meridian frame of the tangent point. -/
theorem tan_vec {ra dec raz decz xi eta : ℝ} (h : Projects ra dec raz decz xi eta) :
    ∃ T, 1 ≤ T ∧ T * T = 1 + xi * xi + eta * eta ∧ (fun i => T * dir (ra - raz) dec i) = ![cos decz - eta * sin decz, xi, sin decz + eta * cos decz] := by
  obtain ⟨p, x, e⟩ := h
  have f := frame_sq raz decz (dir ra dec)
  rw [dot_dir] at f
  have d1 : dot (dir ra dec) (dir raz decz) = sin dec * sin decz + cos dec * cos decz * cos (ra - raz) := by
    simp only [dot_eq, dir, Matrix.cons_val_zero, Matrix.cons_val_one, Matrix.cons_val]; rw [cos_sub]; ring
  have d2 : dot (dir ra dec) (eastAt raz) = cos dec * sin (ra - raz) := by
    simp only [dot_eq, dir, eastAt, Matrix.cons_val_zero, Matrix.cons_val_one, Matrix.cons_val]; rw [sin_sub]; ring
  have d3 : dot (dir ra dec) (northAt raz decz) = sin dec * cos decz - cos dec * sin decz * cos (ra - raz) := by
    simp only [dot_eq, dir, northAt, Matrix.cons_val_zero, Matrix.cons_val_one, Matrix.cons_val]; rw [cos_sub]; ring
  have z := sin_sq_add_cos_sq decz
  rw [← x, ← e] at f
  set c := dot (dir ra dec) (dir raz decz) with hc
  have hT : 1 / c * (1 / c) = 1 + xi * xi + eta * eta := by
    field_simp
    linear_combination -f
  refine ⟨1 / c, ?_, hT, ?_⟩
  · have : 0 < 1 / c := by positivity
    by_contra hn
    push Not at hn
    nlinarith [mul_self_nonneg xi, mul_self_nonneg eta]
  · have q : ∀ a b : ℝ, a = c * b → 1 / c * a = b := fun a b h => by rw [h]; field_simp
    rw [d2] at x
    rw [d3] at e
    clear_value c
    funext i
    fin_cases i
    · refine q _ _ ?_
      simp [dir]
      linear_combination sin decz * e - cos decz * d1 - cos dec * cos (ra - raz) * z
    · refine q _ _ ?_
      simp [dir]
      linear_combination -x
    · refine q _ _ ?_
      simp [dir]
      linear_combination -cos decz * e - sin decz * d1 - sin dec * z

theorem len_dir_turn (a b c d r : ℝ) : len (fun i => dir (a + r) b i - dir (c + r) d i) = len (fun i => dir a b i - dir c d i) := by
  unfold len
  congr 1
  rw [Fin.sum_univ_three, Fin.sum_univ_three]
  simp only [dir, Matrix.cons_val_zero, Matrix.cons_val_one, Matrix.cons_val]
  rw [cos_add, sin_add, cos_add, sin_add]
  have z := sin_sq_add_cos_sq r
  linear_combination ((cos b * cos a - cos d * cos c) ^ 2 + (cos b * sin a - cos d * sin c) ^ 2) * z

/-- Sum of a library value and a product with a library value. -/
theorem tan_comp {fl : ℝ → ℝ} (R : Rounding fl) {a A b B η : ℝ} (ha : |a - A| ≤ 2.3e-16) (hb : |b - B| ≤ 2.3e-16) (hA : |A| ≤ 1) (hB : |B| ≤ 1) (hη : |η| ≤ 10 ^ 13) :
    |fl (a + fl (η * b)) - (A + η * B)| ≤ 4.7e-16 * (1 + |η|) ∧ |fl (a - fl (η * b)) - (A - η * B)| ≤ 4.7e-16 * (1 + |η|) := by
  have n := abs_nonneg η
  have hbb : |b| ≤ 1 + 2.3e-16 := by
    have := abs_add_le (b - B) B
    rw [sub_add_cancel] at this
    linarith
  have m1 : |η * b| ≤ |η| * (1 + 2.3e-16) := by rw [abs_mul]; exact mul_le_mul_of_nonneg_left hbb n
  have m2 : |η * b - η * B| ≤ |η| * 2.3e-16 := by rw [← mul_sub, abs_mul]; exact mul_le_mul_of_nonneg_left hb n
  have e1 := R.err (x := η * b) (m1.trans (by norm_num at *; linarith))
  have z : (1 : ℝ) / 10 ^ 200 ≤ 1e-20 := by norm_num
  have er : ∀ x : ℝ, |x| ≤ 10 ^ 30 → |fl x - x| ≤ 1.1103e-16 * |x| + 1 / 10 ^ 200 := fun x hx => R.err hx
  generalize (1 : ℝ) / 10 ^ 200 = t at *
  have m3 : |fl (η * b) - η * B| ≤ 3.42e-16 * |η| + t := by
    have := abs_sub_le (fl (η * b)) (η * b) (η * B)
    norm_num at *
    linarith [abs_nonneg η]
  generalize fl (η * b) = p at *
  have m4 : |η * B| ≤ |η| := by rw [abs_mul]; exact mul_le_of_le_one_right n hB
  clear e1 m1 m2
  have key : ∀ x X : ℝ, |x - X| ≤ 2.3e-16 + (3.42e-16 * |η| + t) → |X| ≤ 1 + |η| → |fl x - X| ≤ 4.7e-16 * (1 + |η|) := by
    intro x X h1 h2
    have h3 := abs_add_le (x - X) X
    rw [sub_add_cancel] at h3
    have := er x (by norm_num at *; linarith)
    have := abs_sub_le (fl x) x X
    norm_num at *
    linarith [abs_nonneg η]
  constructor
  · refine key _ _ ?_ ((abs_add_le _ _).trans (add_le_add hA m4))
    rw [show a + p - (A + η * B) = (a - A) + (p - η * B) by ring]
    exact (abs_add_le _ _).trans (add_le_add ha m3)
  · refine key _ _ ?_ ((abs_sub _ _).trans (add_le_add hA m4))
    rw [show a - p - (A - η * B) = (a - A) - (p - η * B) by ring]
    exact (abs_sub _ _).trans (add_le_add ha m3)

/-- **C119** palDtp2s in double precision: for tangent-plane coordinates up to 1e13 the direction it returns differs from the star that projects there by at most 1e-14 (two nano-arcseconds),
also next to the poles and at the edge of the plane; the right ascension is in [0, 2π] as stored and the declination within a rounding error of its range. -/
theorem C119_dtp2s {fl : ℝ → ℝ} (R : Rounding fl) {L : Libm} (hL : LibmOK L) (nz : Bool) (xi eta ra dec raz decz : ℝ) (hx : |xi| ≤ 10 ^ 13) (he : |eta| ≤ 10 ^ 13) (hr : |raz| ≤ 7)
    (h : Projects ra dec raz decz xi eta) :
    let s := flDtp2s fl L nz xi eta raz decz
    len (fun i => dir s.1 s.2 i - dir ra dec i) ≤ 1e-14 ∧ 0 ≤ s.1 ∧ s.1 ≤ flD2PI fl ∧ |s.2| ≤ π / 2 + 4.5e-16 := by
  intro s
  obtain ⟨T, T1, TT, hT⟩ := tan_vec h
  have c0 := (tan_comp R (hL.cos decz) (hL.sin decz) (abs_cos_le_one _) (abs_sin_le_one _) he).2
  have c2 := (tan_comp R (hL.sin decz) (hL.cos decz) (abs_sin_le_one _) (abs_cos_le_one _) he).1
  have hE : 1 + |eta| ≤ 1.4143 * T := by
    have q := sq_abs eta
    refine abs_le_of_sq_le_sq' ?_ (by linarith) |>.2
    nlinarith [mul_self_nonneg xi, sq_nonneg (1 - |eta|)]
  have hTb : T ≤ 2 * 10 ^ 13 := by
    refine abs_le_of_sq_le_sq' ?_ (by norm_num) |>.2
    have q1 := sq_abs eta
    have q2 := sq_abs xi
    have q3 := abs_nonneg eta
    have q4 := abs_nonneg xi
    nlinarith
  obtain ⟨v, hv⟩ : ∃ v : Vec3, v = ![fl (L.cos decz - fl (eta * L.sin decz)), xi, fl (L.sin decz + fl (eta * L.cos decz))] := ⟨_, rfl⟩
  have v0 : fl (L.cos decz - fl (eta * L.sin decz)) = v 0 := by rw [hv]; rfl
  have v1 : xi = v 1 := by rw [hv]; rfl
  have v2 : fl (L.sin decz + fl (eta * L.cos decz)) = v 2 := by rw [hv]; rfl
  have hs : s = (flAnp fl (fl ((if v 1 = 0 ∧ v 0 = 0 then 0 else flAtan2 L nz (v 1) (v 0)) + raz)), L.atan2 (v 2) (fl (√(fl (fl (v 0 * v 0) + fl (v 1 * v 1)))))) := by
    show flDtp2s fl L nz xi eta raz decz = _
    unfold flDtp2s
    dsimp only
    rw [v0, v2, ← v1, add_comm (fl (xi * xi))]
  obtain ⟨V, hV⟩ : ∃ V : Vec3, V = ![cos decz - eta * sin decz, xi, sin decz + eta * cos decz] := ⟨_, rfl⟩
  have hd : ∀ i, |v i - V i| ≤ 6.65e-16 * T := by
    intro i
    have n : 4.7e-16 * (1 + |eta|) ≤ 6.65e-16 * T := by norm_num at *; linarith
    rw [hv, hV]
    fin_cases i
    · exact c0.trans n
    · show |xi - xi| ≤ _
      rw [sub_self, abs_zero]; positivity
    · exact c2.trans n
  have hdl := len_le_of_comp hd
  have one := len_one (dot_dir (ra - raz) dec)
  have hVl : len V = T := by
    rw [hV, ← hT, len_smul, one, mul_one, abs_of_nonneg (by linarith)]
  have rev := abs_le.1 ((len_rev_tri v V).trans hdl)
  rw [hVl] at rev
  have l1 : 0.9 * T ≤ len v := by norm_num at *; linarith
  have l2 : len v ≤ 1.0001 * T := by norm_num at *; linarith
  obtain ⟨θ, hθ⟩ : ∃ θ, θ = if v 1 = 0 ∧ v 0 = 0 then 0 else flAtan2 L nz (v 1) (v 0) := ⟨_, rfl⟩
  obtain ⟨A, P, a1, a2, a3, a4, a5⟩ := flC2s_core R hL nz v (by
      have z : (1 : ℝ) / 10 ^ 70 ≤ 0.5 := by norm_num
      norm_num at *; linarith) (by norm_num at *; linarith) θ (L.atan2 (v 2) (fl (√(fl (fl (v 0 * v 0) + fl (v 1 * v 1)))))) (by
      by_cases hc : v 1 = 0 ∧ v 0 = 0
      · left
        rw [if_pos hc] at hθ
        refine ⟨?_, hθ⟩
        rw [hc.1, hc.2, mul_zero, R.zero, add_zero, R.zero, Real.sqrt_zero, R.zero]
      · right
        rw [if_neg hc] at hθ
        exact ⟨by tauto, hθ⟩) (fun _ => hL.atan2 _ _)
  rw [← hθ] at hs
  clear_value s
  subst hs
  dsimp only
  generalize L.atan2 (v 2) (fl (√(fl (fl (v 0 * v 0) + fl (v 1 * v 1))))) = φ at *
  have p4 := pi_lt_d4
  have hθb : |θ| ≤ 3.15 := by
    have := abs_add_le (θ - A) A
    rw [sub_add_cancel] at this
    norm_num at *; linarith
  have hsum : |θ + raz| ≤ 10.15 := (abs_add_le _ _).trans (by norm_num at *; linarith)
  have f1 : |fl (θ + raz) - (θ + raz)| ≤ 1.13e-15 := R.add_err _ (X := θ + raz) (δ := 0) (by rw [sub_self, abs_zero]) hsum (by norm_num) (by norm_num) (by norm_num)
  have fb : |fl (θ + raz)| ≤ 10.16 := by
    have := abs_add_le (fl (θ + raz) - (θ + raz)) (θ + raz)
    rw [sub_add_cancel] at this
    norm_num at *; linarith
  obtain ⟨g1, g2, -, -, -, ⟨k, hk⟩, -⟩ := C99_dranrm R (fl (θ + raz)) (fl_double R (hsum.trans (by norm_num))) (big_le (fb.trans (by norm_num)))
  change 0 ≤ flAnp fl (fl (θ + raz)) at g1
  change flAnp fl (fl (θ + raz)) ≤ _ at g2
  change |flAnp fl (fl (θ + raz)) - _| ≤ _ at hk
  generalize flAnp fl (fl (θ + raz)) = α at *
  refine ⟨?_, g1, g2, ?_⟩
  · have b1 : |α - (A + raz + (-k : ℤ) * (2 * π))| ≤ 3e-15 := by
      have t1 := abs_sub_le α (fl (θ + raz) - k * (2 * π)) (A + raz + (-k : ℤ) * (2 * π))
      have t2 := abs_sub_le (fl (θ + raz)) (θ + raz) (A + raz)
      rw [show θ + raz - (A + raz) = θ - A by ring] at t2
      rw [show fl (θ + raz) - k * (2 * π) - (A + raz + (-k : ℤ) * (2 * π)) = fl (θ + raz) - (A + raz) by push_cast; ring] at t1
      norm_num at *
      linarith
    have ch := chord α φ (A + raz + (-k : ℤ) * (2 * π)) P
    rw [dir_add_turn] at ch
    have nc := norm_close (k := T) (k' := len v) (u := dir (ra - raz) dec) (u' := dir A P) (W := V) (W' := fun i => len v * dir A P i) (by linarith) (len_nonneg v) one (len_one (dot_dir A P)) (by rw [hT, hV]) rfl
    have t3 := len_tri V v (fun i => len v * dir A P i)
    rw [len_sub_comm v, len_sub_comm V v] at t3
    have e := len_dir_turn (ra - raz) dec A P raz
    rw [sub_add_cancel, len_sub_comm] at e
    have t4 := len_tri (dir α φ) (dir (A + raz) P) (dir ra dec)
    rw [e] at t4
    have hn : len (fun i => dir (ra - raz) dec i - dir A P i) ≤ 4.5e-15 := by
      refine le_of_mul_le_mul_left (nc.trans ?_) (by linarith : 0 < T)
      norm_num at *
      linarith
    norm_num at *
    linarith
  · have := abs_add_le (φ - P) P
    rw [sub_add_cancel] at this
    linarith

/-- The three components of the star in the frame of the tangent point, and the quotients. -/
theorem tp_comp {fl : ℝ → ℝ} (R : Rounding fl) {L : Libm} (hL : LibmOK L) (ra dec raz decz : ℝ) (h : |ra - raz| ≤ 4 * π) :
    ∃ c X Y : ℝ, |c - dot (dir ra dec) (dir raz decz)| ≤ 3.1e-15 ∧ |X - dot (dir ra dec) (eastAt raz)| ≤ 3.1e-15 ∧ |Y - dot (dir ra dec) (northAt raz decz)| ≤ 3.1e-15 ∧
      flDs2tp fl L ra dec raz decz =
        let jd : ℤ × ℝ := if c > fl (1 / 10 ^ 6) then (0, c) else if c ≥ 0 then (1, fl (1 / 10 ^ 6)) else if c > -fl (1 / 10 ^ 6) then (2, -fl (1 / 10 ^ 6)) else (3, c)
        (fl (X / jd.2), fl (Y / jd.2), jd.1) := by
  have p4 := pi_lt_d4
  have hd : |fl (ra - raz) - (ra - raz)| ≤ 1.4e-15 := R.add_err _ (X := ra - raz) (δ := 0) (B := 12.5664) (by rw [sub_self, abs_zero]) (by norm_num at *; linarith) (by norm_num) (by norm_num) (by norm_num)
  obtain ⟨-, x, y⟩ := bear_comp R hL _ _ decz dec _ hd (by norm_num)
  have d1 : dot (dir ra dec) (dir raz decz) = sin dec * sin decz + cos dec * cos decz * cos (ra - raz) := by
    simp only [dot_eq, dir, Matrix.cons_val_zero, Matrix.cons_val_one, Matrix.cons_val]; rw [cos_sub]; ring
  have d2 : dot (dir ra dec) (eastAt raz) = cos dec * sin (ra - raz) := by
    simp only [dot_eq, dir, eastAt, Matrix.cons_val_zero, Matrix.cons_val_one, Matrix.cons_val]; rw [sin_sub]; ring
  have d3 : dot (dir ra dec) (northAt raz decz) = sin dec * cos decz - cos dec * sin decz * cos (ra - raz) := by
    simp only [dot_eq, dir, northAt, Matrix.cons_val_zero, Matrix.cons_val_one, Matrix.cons_val]; rw [cos_sub]; ring
  have hc1 : |L.cos (fl (ra - raz)) - cos (ra - raz)| ≤ 1.63e-15 := by
    have t := abs_add_le (L.cos (fl (ra - raz)) - cos (fl (ra - raz))) (cos (fl (ra - raz)) - cos (ra - raz))
    have u := Real.lipschitzWith_cos.dist_le_mul (fl (ra - raz)) (ra - raz)
    simp only [Real.dist_eq, NNReal.coe_one, one_mul] at u
    rw [sub_add_sub_cancel] at t
    have := hL.cos (fl (ra - raz))
    norm_num at *
    linarith
  have m1 : |fl (L.sin dec * L.sin decz) - sin dec * sin decz| ≤ 5.72e-16 := R.mul _ (hL.sin _) (hL.sin _) (abs_sin_le_one _) (abs_sin_le_one _) (by norm_num) (by norm_num) (by norm_num)
  have m2 : |fl (L.cos dec * L.cos decz) - cos dec * cos decz| ≤ 5.72e-16 := R.mul _ (hL.cos _) (hL.cos _) (abs_cos_le_one _) (abs_cos_le_one _) (by norm_num) (by norm_num) (by norm_num)
  have p1 : |cos dec * cos decz| ≤ 1 := by rw [abs_mul]; exact mul_le_one₀ (abs_cos_le_one _) (abs_nonneg _) (abs_cos_le_one _)
  have m3 : |fl (fl (L.cos dec * L.cos decz) * L.cos (fl (ra - raz))) - cos dec * cos decz * cos (ra - raz)| ≤ 2.32e-15 := R.mul _ m2 hc1 p1 (abs_cos_le_one _) (by norm_num) (by norm_num) (by norm_num)
  have hdb : |sin dec * sin decz + cos dec * cos decz * cos (ra - raz)| ≤ 1 := by
    rw [← d1]
    refine abs_le_one_iff_mul_self_le_one.2 ?_
    have f := frame_sq raz decz (dir ra dec)
    rw [dot_dir] at f
    nlinarith [mul_self_nonneg (dot (dir ra dec) (eastAt raz)), mul_self_nonneg (dot (dir ra dec) (northAt raz decz))]
  have m4 := R.add 1 3.1e-15 m1 m3 hdb (by norm_num) (by norm_num) le_rfl (by norm_num) (by norm_num)
  rw [← d1] at m4
  rw [← d2] at x
  rw [← d3] at y
  exact ⟨_, _, _, m4, x.trans (by norm_num), y.trans (by norm_num), rfl⟩

/-- A quotient of slightly wrong numbers. -/
theorem tp_quot {fl : ℝ → ℝ} (R : Rounding fl) {x c X C : ℝ} (hc : 9e-7 ≤ c) (hC : |c - C| ≤ 3.1e-15) (hC1 : C ≤ 1) (hX : |x - X| ≤ 3.1e-15) (hX1 : |X| ≤ 1) :
    |fl (x / c)| ≤ 10 ^ 13 ∧ |c * fl (x / c) - X| ≤ 3.3e-15 ∧ C * |fl (x / c) - X / C| ≤ 3.4e-15 * (1 + |X / C|) := by
  have c0 : 0 < c := by norm_num at hc; linarith
  have xb : |x| ≤ 1 + 3.1e-15 := by
    have := abs_add_le (x - X) X
    rw [sub_add_cancel] at this
    linarith
  have q : |x / c| ≤ 2e6 := by
    rw [abs_div, abs_of_pos c0, div_le_iff₀ c0]
    norm_num at *; linarith
  have e := R.err (x := x / c) (q.trans (by norm_num))
  have z : (1 : ℝ) / 10 ^ 200 ≤ 1e-30 := by norm_num
  have z0 : (0 : ℝ) ≤ 1 / 10 ^ 200 := by positivity
  generalize (1 : ℝ) / 10 ^ 200 = t at *
  have c1 := abs_le.1 hC
  have fb : |fl (x / c)| ≤ 3e6 := by
    have := abs_add_le (fl (x / c) - x / c) (x / c)
    rw [sub_add_cancel] at this
    norm_num at *; linarith
  have C0 : 8.9e-7 ≤ C := by norm_num at *; linarith
  have Cp : 0 < C := by norm_num at C0; linarith
  have hbig : c ≤ 2 := by norm_num at *; linarith
  have r : |c * fl (x / c) - x| ≤ 1.2e-16 := by
    have : c * fl (x / c) - x = c * (fl (x / c) - x / c) := by field_simp
    rw [this, abs_mul, abs_of_pos c0]
    have h1 : c * |fl (x / c) - x / c| ≤ c * (1.1103e-16 * |x / c| + t) := mul_le_mul_of_nonneg_left e c0.le
    have h2 : c * |x / c| = |x| := by rw [abs_div, abs_of_pos c0]; field_simp
    have h3 : c * t ≤ 2 * 1e-30 := mul_le_mul hbig z z0 (by norm_num)
    have h4 : c * (1.1103e-16 * |x / c| + t) = 1.1103e-16 * |x| + c * t := by rw [← h2]; ring
    rw [h4] at h1
    generalize c * |fl (x / c) - x / c| = u at *
    generalize c * t = w at *
    norm_num at *
    linarith
  generalize fl (x / c) = F at *
  have r2 : |c * F - X| ≤ 3.3e-15 := by
    have := abs_sub_le (c * F) x X
    norm_num at *
    linarith
  refine ⟨fb.trans (by norm_num), r2, ?_⟩
  have e1 : C * |F - X / C| = |(c * F - X) + (C - c) * (F - X / C + X / C)| := by
    rw [← abs_of_pos Cp, ← abs_mul, abs_of_pos Cp]; congr 1; field_simp; ring
  have e2 := abs_add_le (c * F - X) ((C - c) * (F - X / C + X / C))
  rw [abs_mul, abs_sub_comm C c] at e2
  have e3 := abs_add_le (F - X / C) (X / C)
  rw [e1]
  have e4 : |c - C| * |F - X / C + X / C| ≤ 3.1e-15 * (|F - X / C| + |X / C|) := mul_le_mul hC e3 (abs_nonneg _) (by norm_num)
  rw [← e1] at e2 ⊢
  have e5 : 8.9e-7 * |F - X / C| ≤ C * |F - X / C| := mul_le_mul_of_nonneg_right C0 (abs_nonneg _)
  have e6 := abs_nonneg (F - X / C)
  have e7 := abs_nonneg (X / C)
  clear e1 e3 e hC hX hX1 q xb fb r
  generalize C * |F - X / C| = u at *
  generalize |F - X / C| = D at *
  generalize |X / C| = g at *
  norm_num at *
  linarith

theorem abs_dot_le {u v : Vec3} (hu : dot u u = 1) (hv : dot v v = 1) : |dot u v| ≤ 1 := by
  refine abs_le_one_iff_mul_self_le_one.2 ?_
  simp only [dot_eq] at *
  nlinarith [sq_nonneg (u 0 * v 1 - u 1 * v 0), sq_nonneg (u 0 * v 2 - u 2 * v 0), sq_nonneg (u 1 * v 2 - u 2 * v 1)]

theorem tiny_fl {fl : ℝ → ℝ} (R : Rounding fl) : |fl (1 / 10 ^ 6) - 1e-6| ≤ 2e-22 := by
  have e := R.err (x := 1 / 10 ^ 6) (by norm_num)
  have z : (1 : ℝ) / 10 ^ 200 ≤ 1e-30 := by norm_num
  generalize (1 : ℝ) / 10 ^ 200 = t at *
  norm_num at *
  linarith

/-- **C119** palDs2tp in double precision, for right ascensions at most two turns apart. The status is the right one unless the cosine of the distance from the tangent point is within 4e-15 of
one of the limits 1e-6, 0 and -1e-6; and with status 0 the coordinates differ from the exact projection by at most 4e-15 (1+|coordinate|) divided by that cosine. -/
theorem C119_ds2tp {fl : ℝ → ℝ} (R : Rounding fl) {L : Libm} (hL : LibmOK L) (ra dec raz decz : ℝ) (h : |ra - raz| ≤ 4 * π) :
    let c := dot (dir ra dec) (dir raz decz)
    let t := flDs2tp fl L ra dec raz decz
    (1e-6 + 4e-15 < c → t.2.2 = 0) ∧ (4e-15 < c → c < 1e-6 - 4e-15 → t.2.2 = 1) ∧ (-1e-6 + 4e-15 < c → c < -4e-15 → t.2.2 = 2) ∧ (c < -1e-6 - 4e-15 → t.2.2 = 3) ∧
    (t.2.2 = 0 → ∃ xi eta, Projects ra dec raz decz xi eta ∧ c * |t.1 - xi| ≤ 4e-15 * (1 + |xi|) ∧ c * |t.2.1 - eta| ≤ 4e-15 * (1 + |eta|)) := by
  obtain ⟨c', X, Y, hc, hX, hY, hall⟩ := tp_comp R hL ra dec raz decz h
  intro c t
  have hcd : c = dot (dir ra dec) (dir raz decz) := rfl
  have tiny := abs_le.1 (tiny_fl R)
  have ht : t = flDs2tp fl L ra dec raz decz := rfl
  rw [hall] at ht
  rw [← hcd] at hc
  have c1 : c ≤ 1 := (abs_le.1 (abs_dot_le (dot_dir ra dec) (dot_dir raz decz))).2
  have X1 : |dot (dir ra dec) (eastAt raz)| ≤ 1 := abs_dot_le (dot_dir ra dec) (by simp [dot_eq, eastAt]; nlinarith [sin_sq_add_cos_sq raz])
  have Y1 : |dot (dir ra dec) (northAt raz decz)| ≤ 1 := abs_dot_le (dot_dir ra dec) (by simp [dot_eq, northAt]; have := sin_sq_add_cos_sq raz; have := sin_sq_add_cos_sq decz; grind)
  clear_value c t
  subst ht
  generalize fl (1 / 10 ^ 6) = τ at *
  have hc' := abs_le.1 hc
  refine ⟨?_, ?_, ?_, ?_, ?_⟩
  · intro g
    dsimp only
    rw [if_pos (by norm_num at *; linarith)]
  · intro g g'
    dsimp only
    rw [if_neg (by norm_num at *; linarith), if_pos (by norm_num at *; linarith)]
  · intro g g'
    dsimp only
    rw [if_neg (by norm_num at *; linarith), if_neg (by norm_num at *; linarith), if_pos (by norm_num at *; linarith)]
  · intro g
    dsimp only
    rw [if_neg (by norm_num at *; linarith), if_neg (by norm_num at *; linarith), if_neg (by norm_num at *; linarith)]
  · intro g
    dsimp only at g ⊢
    have g0 : c' > τ := by
      by_contra hn
      rw [if_neg hn] at g
      split_ifs at g <;> simp at g
    rw [if_pos g0]
    have q1 := (tp_quot R (x := X) (c := c') (by norm_num at *; linarith) hc c1 hX X1).2.2
    have q2 := (tp_quot R (x := Y) (c := c') (by norm_num at *; linarith) hc c1 hY Y1).2.2
    have cp : 0 < c := by norm_num at *; linarith
    refine ⟨dot (dir ra dec) (eastAt raz) / c, dot (dir ra dec) (northAt raz decz) / c, ⟨hcd ▸ cp, ?_, ?_⟩, ?_, ?_⟩
    · rw [← hcd]; field_simp
    · rw [← hcd]; field_simp
    · refine q1.trans (mul_le_mul_of_nonneg_right (by norm_num) (by positivity))
    · refine q2.trans (mul_le_mul_of_nonneg_right (by norm_num) (by positivity))

/-- **C119** (round trip) A star that palDs2tp projects with status 0 is found again by palDtp2s within 4e-14 (less than 1e-8 arcsec), whatever its distance from the tangent point. -/
theorem C119_round_trip {fl : ℝ → ℝ} (R : Rounding fl) {L : Libm} (hL : LibmOK L) (nz : Bool) (ra dec raz decz : ℝ) (h : |ra - raz| ≤ 4 * π) (hr : |raz| ≤ 7) :
    let t := flDs2tp fl L ra dec raz decz
    let s := flDtp2s fl L nz t.1 t.2.1 raz decz
    t.2.2 = 0 → len (fun i => dir s.1 s.2 i - dir ra dec i) ≤ 4e-14 := by
  obtain ⟨c', X, Y, hc, hX, hY, hall⟩ := tp_comp R hL ra dec raz decz h
  intro t s g
  have tiny := abs_le.1 (tiny_fl R)
  have hs : s = flDtp2s fl L nz t.1 t.2.1 raz decz := rfl
  have ht : t = flDs2tp fl L ra dec raz decz := rfl
  rw [hall] at ht
  have c1 := (abs_le.1 (abs_dot_le (dot_dir ra dec) (dot_dir raz decz))).2
  have X1 : |dot (dir ra dec) (eastAt raz)| ≤ 1 := abs_dot_le (dot_dir ra dec) (by simp [dot_eq, eastAt]; nlinarith [sin_sq_add_cos_sq raz])
  have Y1 : |dot (dir ra dec) (northAt raz decz)| ≤ 1 := abs_dot_le (dot_dir ra dec) (by simp [dot_eq, northAt]; have := sin_sq_add_cos_sq raz; have := sin_sq_add_cos_sq decz; grind)
  clear_value s t
  subst ht
  dsimp only at g hs
  have g0 : c' > fl (1 / 10 ^ 6) := by
    by_contra hn
    rw [if_neg hn] at g
    split_ifs at g <;> simp at g
  rw [if_pos g0] at hs
  have cb : 9e-7 ≤ c' := by norm_num at *; linarith
  obtain ⟨x1, x2, -⟩ := tp_quot R (x := X) cb hc c1 hX X1
  obtain ⟨y1, y2, -⟩ := tp_quot R (x := Y) cb hc c1 hY Y1
  dsimp only at hs
  generalize fl (X / c') = xi at *
  generalize fl (Y / c') = eta at *
  have pr := (C32_dtp2s_projects xi eta raz decz).1
  have main := (C119_dtp2s R hL nz xi eta _ _ raz decz x1 y1 hr pr).1
  rw [← hs] at main
  generalize (palDtp2s xi eta raz decz).1 = a at *
  generalize (palDtp2s xi eta raz decz).2 = b at *
  obtain ⟨p, x, e⟩ := pr
  have f1 := frame_sq raz decz (dir a b)
  rw [dot_dir] at f1
  have tri := len_tri (dir s.1 s.2) (dir a b) (dir ra dec)
  have cp : 0 < c' := by norm_num at cb; linarith
  -- compare (c', c' xi, c' eta), a multiple of the direction (a, b), with the components of the star
  set C := dot (dir a b) (dir raz decz) with hC
  have mul : ∀ u : Vec3, dot (fun i => c' / C * dir a b i) u = c' / C * dot (dir a b) u := fun u => by simp only [dot_eq]; ring
  have diff : ∀ u : Vec3, dot (fun i => c' / C * dir a b i - dir ra dec i) u = c' / C * dot (dir a b) u - dot (dir ra dec) u := fun u => by simp only [dot_eq]; ring
  have l : len (fun i => c' / C * dir a b i - dir ra dec i) ≤ 6e-15 := by
    refine Real.sqrt_le_iff.2 ⟨by norm_num, ?_⟩
    have f := frame_sq raz decz (fun i => c' / C * dir a b i - dir ra dec i)
    rw [diff, diff, diff, ← hC, ← x, ← e, div_mul_cancel₀ _ p.ne', show c' / C * (xi * C) = c' * xi by field_simp, show c' / C * (eta * C) = c' * eta by field_simp] at f
    have s1 := mul_self_le_mul_self (abs_nonneg _) hc
    have s2 := mul_self_le_mul_self (abs_nonneg _) x2
    have s3 := mul_self_le_mul_self (abs_nonneg _) y2
    rw [abs_mul_abs_self] at s1 s2 s3
    have g : (∑ i, (c' / C * dir a b i - dir ra dec i) ^ 2) = dot (fun i => c' / C * dir a b i - dir ra dec i) (fun i => c' / C * dir a b i - dir ra dec i) := by
      rw [Fin.sum_univ_three, dot_eq]; ring
    rw [g]
    norm_num at *
    linarith
  have nc := norm_close (k := 1) (k' := c' / C) (u := dir ra dec) (u' := dir a b) (W := dir ra dec) (W' := fun i => c' / C * dir a b i) zero_le_one (by positivity) (len_one (dot_dir _ _)) (len_one (dot_dir _ _)) (by funext i; ring) rfl
  rw [len_sub_comm (dir ra dec) (dir a b), len_sub_comm (dir ra dec), one_mul] at nc
  norm_num at *
  linarith

/-- The hypotheses are met: a star at 45° from the tangent point, the machine's rounding and a good library; and the statement is about a status that does occur. -/
example : |π / 4 - 0| ≤ 4 * π ∧ Projects (π / 4) 0 0 0 1 0 ∧ (flDs2tp ieee roundedLibm (π / 4) 0 0 0).2.2 = 0 := by
  have p := pi_pos
  have h : |π / 4 - 0| ≤ 4 * π := by rw [sub_zero, abs_of_pos (by positivity)]; linarith
  have s := Real.sqrt_pos.2 (by norm_num : (0 : ℝ) < 2)
  have d : dot (dir (π / 4) 0) (dir 0 0) = √2 / 2 := by simp [dot_eq, dir]
  refine ⟨h, ⟨by rw [d]; positivity, by rw [d]; simp [dot_eq, dir, eastAt], by simp [dot_eq, dir, northAt]⟩, ?_⟩
  refine (C119_ds2tp ieee_rounding roundedLibm_ok (π / 4) 0 0 0 h).1 ?_
  rw [d]
  have : (1 : ℝ) < √2 := Real.lt_sqrt_of_sq_lt (by norm_num)
  norm_num
  linarith

end Pal.Props
