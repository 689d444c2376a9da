import Verif.Lemmas.FlAop
import Verif.Lemmas.FlPxy

/-! # Azimuth and zenith distance in palAopqk and palOapqk in double precision -/

namespace Pal
open Real Pal.Spec

variable {fl : ℝ → ℝ} {L : Libm}

theorem atan2_swap {r z : ℝ} (hr : 0 ≤ r) (h : r ≠ 0 ∨ z ≠ 0) : atan2 z r = π / 2 - atan2 r z := by
  have q : 0 < √(z * z + r * r) := Real.sqrt_pos.2 (by
    rcases h with h | h
    · have := mul_self_pos.2 h; have := mul_self_nonneg z; linarith
    · have := mul_self_pos.2 h; have := mul_self_nonneg r; linarith)
  have a0 := atan2_nonneg (x := z) hr
  have a1 := (atan2_mem r z).2
  have p := pi_pos
  exact atan2_eq_of q ⟨by linarith, by linarith⟩ (by rw [sin_pi_div_two_sub]; exact (hyp_cos_atan2 r z).symm) (by rw [cos_pi_div_two_sub]; exact (hyp_sin_atan2 r z).symm)

/-- Azimuth and zenith distance of a vector, as computed. -/
theorem azzd_core (R : Rounding fl) (hL : LibmOK L) (nz : Bool) {v V u : Vec3} {e : ℝ} (hv : ∀ i, |v i - V i| ≤ e) (he : e ≤ 1e-11) (h1 : 0.99 ≤ len V) (h2 : len V ≤ 1.01)
    (hu : (fun i => len V * u i) = V) (θ : ℝ) (hθ : (v 0 = 0 ∧ v 1 = 0 ∧ θ = 0) ∨ ((v 0 ≠ 0 ∨ v 1 ≠ 0) ∧ θ = flAtan2 L nz (v 1) (v 0))) :
    ∃ T P, |θ - T| ≤ 4.5e-16 ∧ |L.atan2 (fl (√(fl (fl (v 0 * v 0) + fl (v 1 * v 1))))) (v 2) - (π / 2 - P)| ≤ 4.5e-16 ∧ |P| ≤ π / 2 ∧ len (fun i => dir T P i - u i) ≤ 3.5 * e + 1.1e-15 := by
  have hd := len_le_of_comp hv
  have hr := abs_le.1 ((len_rev_tri v V).trans hd)
  have n1 : 0.98 ≤ len v := by norm_num at *; linarith
  have n2 : len v ≤ 1.02 := by norm_num at *; linarith
  obtain ⟨T, P, t1, t2, t3, t4, t5⟩ := core_dir R hL nz hv he h1 h2 hu θ (π / 2 - L.atan2 (fl (√(fl (fl (v 0 * v 0) + fl (v 1 * v 1))))) (v 2)) (by
    rcases hθ with ⟨a, b, c⟩ | h
    · left; refine ⟨?_, c⟩; rw [a, b]; simp [R.zero]
    · exact Or.inr h) (by
    intro r0
    rw [atan2_swap r0]
    · have := hL.atan2 (fl (√(fl (fl (v 0 * v 0) + fl (v 1 * v 1))))) (v 2)
      rw [sub_sub_sub_cancel_left, abs_sub_comm]; exact this
    · by_contra hc
      push Not at hc
      obtain ⟨c1, c2⟩ := hc
      have b0 := (comp_le_len v 0).trans (n2.trans (by norm_num : (1.02 : ℝ) ≤ 10 ^ 72))
      have b1 := (comp_le_len v 1).trans (n2.trans (by norm_num : (1.02 : ℝ) ≤ 10 ^ 72))
      have k := flHyp_err R (noerr (v 0)) (noerr (v 1)) b0 b1
      have l : √(v 0 * v 0 + v 1 * v 1) = len v := by rw [len_eq, dot_eq, c2]; simp
      rw [c1, l, zero_sub, abs_neg, abs_of_nonneg (len_nonneg v)] at k
      have z : (1 : ℝ) / 10 ^ 98 ≤ 1e-10 := by norm_num
      norm_num at *; linarith)
  refine ⟨T, P, t1, ?_, t4, t5⟩
  rw [show L.atan2 (fl (√(fl (fl (v 0 * v 0) + fl (v 1 * v 1))))) (v 2) - (π / 2 - P) = -(π / 2 - L.atan2 (fl (√(fl (fl (v 0 * v 0) + fl (v 1 * v 1))))) (v 2) - P) by ring, abs_neg]
  exact t2

/-- Azimuth and zenith distance of a vector, exactly. -/
theorem azzd_exact (V : Vec3) (A : ℝ) (hA : (V 0 ≠ 0 ∨ V 1 ≠ 0) → A = atan2 (V 1) (V 0)) :
    (fun i => len V * dir A (π / 2 - atan2 (√(V 0 * V 0 + V 1 * V 1)) (V 2)) i) = V ∧ 0 ≤ atan2 (√(V 0 * V 0 + V 1 * V 1)) (V 2) ∧ atan2 (√(V 0 * V 0 + V 1 * V 1)) (V 2) ≤ π := by
  obtain ⟨r, hr⟩ : ∃ r, r = √(V 0 * V 0 + V 1 * V 1) := ⟨_, rfl⟩
  have r0 : 0 ≤ r := by rw [hr]; exact Real.sqrt_nonneg _
  rw [← hr]
  refine ⟨?_, atan2_nonneg r0, (atan2_mem _ _).2⟩
  have s := hyp_sin_atan2 r (V 2)
  have c := hyp_cos_atan2 r (V 2)
  have l : √(V 2 * V 2 + r * r) = len V := by
    rw [len_eq, dot_eq, hr, Real.mul_self_sqrt (add_nonneg (mul_self_nonneg _) (mul_self_nonneg _)), add_comm]
  rw [l] at s c
  have az : r * cos A = V 0 ∧ r * sin A = V 1 := by
    by_cases h : V 0 ≠ 0 ∨ V 1 ≠ 0
    · rw [hA h, hr]; exact ⟨hyp_cos_atan2 _ _, hyp_sin_atan2 _ _⟩
    · push Not at h
      rw [hr, h.1, h.2]; simp
  funext i
  fin_cases i
  · show len V * (cos (π / 2 - _) * cos A) = V 0
    rw [cos_pi_div_two_sub, ← mul_assoc, s]; exact az.1
  · show len V * (cos (π / 2 - _) * sin A) = V 1
    rw [cos_pi_div_two_sub, ← mul_assoc, s]; exact az.2
  · show len V * sin (π / 2 - _) = V 2
    rw [sin_pi_div_two_sub]; exact c

/-- The topocentric direction, exactly: south, east, up. -/
noncomputable def aopAet (rap dap : ℝ) (p : Aoprms) : Vec3 :=
  let D := dir (rap - p.st) dap
  let W : Vec3 := ![(1 - p.diurab * D 1) * D 0, (1 - p.diurab * D 1) * (D 1 + p.diurab), (1 - p.diurab * D 1) * D 2]
  ![p.sphi * W 0 - p.cphi * W 2, W 1, p.cphi * W 0 + p.sphi * W 2]

theorem aopTopo_eq (rap dap : ℝ) (p : Aoprms) : aopTopo rap dap p =
    (if aopAet rap dap p 0 = 0 ∧ aopAet rap dap p 1 = 0 then 0 else atan2 (aopAet rap dap p 1) (-aopAet rap dap p 0),
      atan2 (√(aopAet rap dap p 0 * aopAet rap dap p 0 + aopAet rap dap p 1 * aopAet rap dap p 1)) (aopAet rap dap p 2)) := by
  unfold aopTopo aopAet palDcs2c eraS2c dir
  simp only [Matrix.cons_val_zero, Matrix.cons_val_one, Matrix.cons_val, mul_comm (cos dap)]
  congr

theorem aopAet_len (rap dap : ℝ) {p : Aoprms} (hsc : |p.sphi * p.sphi + p.cphi * p.cphi - 1| ≤ 1e-6) (ha : |p.diurab| ≤ 1e-5) : 0.9989 ≤ len (aopAet rap dap p) ∧ len (aopAet rap dap p) ≤ 1.0011 := by
  have l1 : len (dir (rap - p.st) dap) = 1 := len_one (dot_dir _ _)
  obtain ⟨w1, w2⟩ := diurnal_len (D := dir (rap - p.st) dap) ha (l := 1) (u := 1) zero_le_one l1.ge l1.le (by norm_num)
  refine turn_len hsc (W := ![(1 - p.diurab * dir (rap - p.st) dap 1) * dir (rap - p.st) dap 0, (1 - p.diurab * dir (rap - p.st) dap 1) * (dir (rap - p.st) dap 1 + p.diurab), (1 - p.diurab * dir (rap - p.st) dap 1) * dir (rap - p.st) dap 2]) ?_ ?_
    (le_trans (by norm_num) w1) (w2.trans (by norm_num))
  · simp [aopAet]
  · simp only [aopAet, Matrix.cons_val_zero, Matrix.cons_val_one, Matrix.cons_val]; ring

theorem flAopAet_err (R : Rounding fl) (hL : LibmOK L) (rap dap : ℝ) {p : Aoprms} (hsc : |p.sphi * p.sphi + p.cphi * p.cphi - 1| ≤ 1e-6) (ha : |p.diurab| ≤ 1e-5) (hst : |rap - p.st| ≤ 20) (i : Fin 3) :
    |flAopAet fl L rap dap p i - aopAet rap dap p i| ≤ 5e-15 := by
  have a1 := R.add_err2 (δ := 0) (B := 20) 2.23e-15 (noerr (rap - p.st)) hst (by norm_num) (by norm_num)
  have g1 : ∀ i, |flS2c fl L (fl (rap - p.st)) dap i - dir (rap - p.st) dap i| ≤ 2.82e-15 := fun i => by
    have e1 := flS2c_err R hL (fl (rap - p.st)) dap i
    have e2 := (comp_le_len _ i).trans (chord (fl (rap - p.st)) dap (rap - p.st) dap)
    rw [sub_self, abs_zero, add_zero] at e2
    have := abs_sub_le (flS2c fl L (fl (rap - p.st)) dap i) (dir (fl (rap - p.st)) dap i) (dir (rap - p.st) dap i)
    norm_num at *; linarith
  have hD : ∀ i, |dir (rap - p.st) dap i| ≤ 1.01 := fun i => (dir_le _ _ i).trans (by norm_num)
  have g2 := fun i => diurnal_err R ha (by norm_num) g1 hD i
  have l1 : len (dir (rap - p.st) dap) = 1 := len_one (dot_dir _ _)
  have w2 := (diurnal_len (D := dir (rap - p.st) dap) ha (l := 1) (u := 1) zero_le_one l1.ge l1.le (by norm_num)).2
  have wb := fun i => (comp_le_len (![(1 - p.diurab * dir (rap - p.st) dap 1) * dir (rap - p.st) dap 0, (1 - p.diurab * dir (rap - p.st) dap 1) * (dir (rap - p.st) dap 1 + p.diurab), (1 - p.diurab * dir (rap - p.st) dap 1) * dir (rap - p.st) dap 2] : Vec3) i).trans
    (w2.trans (by norm_num : (1 : ℝ) + 3e-5 ≤ 1.001))
  have hsc' : |p.cphi * p.cphi + p.sphi * p.sphi - 1| ≤ 1e-6 := by rw [add_comm (p.cphi * p.cphi)]; exact hsc
  fin_cases i
  · exact (turn_err' R hsc (g2 0) (g2 2) (by norm_num) (wb 0) (wb 2)).trans (by norm_num)
  · exact (g2 1).trans (by norm_num)
  · exact (turn_err R hsc' (g2 0) (g2 2) (by norm_num) (wb 0) (wb 2)).trans (by norm_num)

/-- Azimuth and topocentric zenith distance in palAopqk. -/
theorem flAopTopo_err (R : Rounding fl) (hL : LibmOK L) (nz : Bool) (rap dap : ℝ) {p : Aoprms} (hsc : |p.sphi * p.sphi + p.cphi * p.cphi - 1| ≤ 1e-6) (ha : |p.diurab| ≤ 1e-5) (hst : |rap - p.st| ≤ 20) :
    let o := flAopTopo fl L nz rap dap p
    let E := aopTopo rap dap p
    0 ≤ E.2 ∧ E.2 ≤ π ∧ ∃ T P, |o.1 - T| ≤ 4.5e-16 ∧ |o.2 - (π / 2 - P)| ≤ 4.5e-16 ∧ |P| ≤ π / 2 ∧ len (fun i => dir T P i - dir E.1 (π / 2 - E.2) i) ≤ 1.87e-14 := by
  intro o E
  have er := flAopAet_err R hL rap dap hsc ha hst
  obtain ⟨l1, l2⟩ := aopAet_len rap dap hsc ha
  have hE : E = _ := aopTopo_eq rap dap p
  have ho : o = (if flAopAet fl L rap dap p 0 = 0 ∧ flAopAet fl L rap dap p 1 = 0 then 0 else flAtan2 L nz (flAopAet fl L rap dap p 1) (-flAopAet fl L rap dap p 0),
    L.atan2 (fl (√(fl (fl (flAopAet fl L rap dap p 0 * flAopAet fl L rap dap p 0) + fl (flAopAet fl L rap dap p 1 * flAopAet fl L rap dap p 1))))) (flAopAet fl L rap dap p 2)) := rfl
  clear_value o E
  generalize flAopAet fl L rap dap p = a at *
  generalize aopAet rap dap p = A at *
  have lV : len (![-A 0, A 1, A 2] : Vec3) = len A := by
    rw [len_eq, len_eq, dot_eq, dot_eq]; simp
  obtain ⟨x1, x2, x3⟩ := azzd_exact ![-A 0, A 1, A 2] E.1 (by
    intro h
    rw [hE]
    simp only [Matrix.cons_val_zero, Matrix.cons_val_one, ne_eq, neg_eq_zero] at h ⊢
    rw [if_neg (by tauto)])
  have eE : atan2 (√((![-A 0, A 1, A 2] : Vec3) 0 * (![-A 0, A 1, A 2] : Vec3) 0 + (![-A 0, A 1, A 2] : Vec3) 1 * (![-A 0, A 1, A 2] : Vec3) 1)) ((![-A 0, A 1, A 2] : Vec3) 2) = E.2 := by
    rw [hE]; simp
  rw [eE] at x1 x2 x3
  refine ⟨x2, x3, ?_⟩
  obtain ⟨T, P, t1, t2, t3, t4⟩ := azzd_core R hL nz (v := ![-a 0, a 1, a 2]) (V := ![-A 0, A 1, A 2]) (e := 5e-15) (by
    intro i
    fin_cases i
    · show |-a 0 - -A 0| ≤ _
      rw [show -a 0 - -A 0 = -(a 0 - A 0) by ring, abs_neg]; exact er 0
    · exact er 1
    · exact er 2) (by norm_num) (by rw [lV]; norm_num at *; linarith) (by rw [lV]; norm_num at *; linarith) x1 o.1 (by
    rw [ho]
    simp only [Matrix.cons_val_zero, Matrix.cons_val_one, ne_eq, neg_eq_zero]
    by_cases h : a 0 = 0 ∧ a 1 = 0
    · rw [if_pos h]; exact Or.inl ⟨h.1, h.2, rfl⟩
    · rw [if_neg h]; exact Or.inr ⟨by tauto, rfl⟩)
  refine ⟨T, P, t1, ?_, t3, t4.trans (by norm_num)⟩
  have : o.2 = L.atan2 (fl (√(fl (fl ((![-a 0, a 1, a 2] : Vec3) 0 * (![-a 0, a 1, a 2] : Vec3) 0) + fl ((![-a 0, a 1, a 2] : Vec3) 1 * (![-a 0, a 1, a 2] : Vec3) 1))))) ((![-a 0, a 1, a 2] : Vec3) 2) := by
    rw [ho]; simp
  rw [this]; exact t2

theorem turn_dirs (a b c d r : ℝ) : len (fun i => dir (r + a) b i - dir (r + c) d i) = len (fun i => dir a b i - dir c d i) := by
  unfold len
  congr 1
  rw [Fin.sum_univ_three, Fin.sum_univ_three]
  simp only [dir, Matrix.cons_val_zero, Matrix.cons_val_one, Matrix.cons_val]
  rw [cos_add, sin_add, cos_add, sin_add]
  have z := sin_sq_add_cos_sq r
  linear_combination ((cos b * cos a - cos d * cos c) ^ 2 + (cos b * sin a - cos d * sin c) ^ 2) * z

/-- The last steps of palAopqk and palOapqk: to spherical coordinates, and the right ascension. -/
theorem back_err (R : Rounding fl) (hL : LibmOK L) (nz : Bool) {v V : Vec3} {e st : ℝ} (hv : ∀ i, |v i - V i| ≤ e) (he : e ≤ 1e-11) (h1 : 0.99 ≤ len V) (h2 : len V ≤ 1.01) (hst : |st| ≤ 20) :
    let s := flC2s fl L nz v
    let S := palDcc2s V
    |s.1| ≤ π + 4.5e-16 ∧ |s.2| ≤ π / 2 + 4.5e-16 ∧ len (fun i => dir s.1 s.2 i - dir S.1 S.2 i) ≤ 3.5 * e + 2e-15 ∧
    0 ≤ flDranrm fl (fl (st + s.1)) ∧ flDranrm fl (fl (st + s.1)) ≤ flD2PI fl ∧ (∃ k : ℤ, |flDranrm fl (fl (st + s.1)) - (st + s.1 + k * (2 * π))| ≤ 5e-15) ∧
    len (fun i => dir (flDranrm fl (fl (st + s.1))) s.2 i - dir (palDranrm (st + S.1)) S.2 i) ≤ 3.5 * e + 7e-15 := by
  intro s S
  have hu : (fun i => len V * dir S.1 S.2 i) = V := by
    have := eraC2s_spec V
    rw [pm_len] at this
    exact this
  obtain ⟨a1, a2, a3⟩ := flC2s_wide R hL nz hv he h1 h2 hu
  change |s.1| ≤ _ at a1
  change |s.2| ≤ _ at a2
  change len (fun i => dir s.1 s.2 i - dir S.1 S.2 i) ≤ _ at a3
  have p2 := pi_lt_d4
  have sb : |st + s.1| ≤ 23.15 := (abs_add_le _ _).trans (by norm_num at *; linarith)
  have b := R.add_err2 (δ := 0) (B := 23.15) 2.6e-15 (noerr (st + s.1)) sb (by norm_num) (by norm_num)
  rcases flAnp_near R b sb (by norm_num) with ⟨c1, c2, c3⟩ | c
  swap
  · exact absurd (sb.trans (by norm_num)) c
  obtain ⟨k, hk⟩ := c3 (sb.trans (by norm_num))
  have hk' : |flDranrm fl (fl (st + s.1)) - (st + s.1 + k * (2 * π))| ≤ 5e-15 := hk.trans (by norm_num)
  refine ⟨a1, a2, a3, c1, c2, ⟨k, hk'⟩, ?_⟩
  have e1 : dir (palDranrm (st + S.1)) S.2 = dir (st + S.1) S.2 := by
    unfold dir palDranrm; rw [cos_eraAnp, sin_eraAnp]
  have d1 := chord (flDranrm fl (fl (st + s.1))) s.2 (st + s.1 + k * (2 * π)) s.2
  rw [dir_add_turn, sub_self, abs_zero, add_zero] at d1
  have d2 := turn_dirs s.1 s.2 S.1 S.2 st
  have := len_tri (dir (flDranrm fl (fl (st + s.1))) s.2) (dir (st + s.1) s.2) (dir (st + S.1) S.2)
  rw [e1]
  rw [d2] at this
  norm_num at hk' ⊢
  linarith

/-- A direction given by an azimuth and a zenith distance that are slightly wrong. -/
theorem aeo_err (R : Rounding fl) (hL : LibmOK L) {az T A z Z k ε : ℝ} (h1 : |az - T| ≤ 4.5e-16) (kc : |sin Z * (cos T - cos A)| ≤ k) (ks : |sin Z * (sin T - sin A)| ≤ k) (hz : |z - Z| ≤ ε) (hε : ε ≤ 1e-11) :
    |fl (-L.cos az * L.sin z) - -cos A * sin Z| ≤ ε + k + 1.1e-15 ∧ |fl (L.cos az * L.sin z) - cos A * sin Z| ≤ ε + k + 1.1e-15 ∧ |fl (L.sin az * L.sin z) - sin A * sin Z| ≤ ε + k + 1.1e-15 ∧ |L.cos z - cos Z| ≤ ε + k + 1.1e-15 := by
  have k0 := (abs_nonneg _).trans kc
  have e0 := (abs_nonneg _).trans hz
  have c1 : |L.cos az - cos T| ≤ 6.8e-16 := by
    have := hL.cos az
    have := Real.abs_cos_sub_cos_le az T
    have := abs_sub_le (L.cos az) (cos az) (cos T)
    norm_num at *; linarith
  have s1 : |L.sin az - sin T| ≤ 6.8e-16 := by
    have := hL.sin az
    have := Real.abs_sin_sub_sin_le az T
    have := abs_sub_le (L.sin az) (sin az) (sin T)
    norm_num at *; linarith
  have cz : |L.cos z - cos Z| ≤ ε + 2.3e-16 := by
    have := hL.cos z
    have := Real.abs_cos_sub_cos_le z Z
    have := abs_sub_le (L.cos z) (cos z) (cos Z)
    linarith
  have sz : |L.sin z - sin Z| ≤ ε + 2.3e-16 := by
    have := hL.sin z
    have := Real.abs_sin_sub_sin_le z Z
    have := abs_sub_le (L.sin z) (sin z) (sin Z)
    linarith
  have m1 := R.mulB (ε + 1.1e-15) c1 sz (abs_cos_le_one T) (abs_sin_le_one Z) (by norm_num at *; linarith) (by norm_num at hε ⊢; linarith)
  have m2 := R.mulB (ε + 1.1e-15) s1 sz (abs_sin_le_one T) (abs_sin_le_one Z) (by norm_num at *; linarith) (by norm_num at hε ⊢; linarith)
  have f1 : |fl (L.cos az * L.sin z) - cos A * sin Z| ≤ ε + k + 1.1e-15 := by
    have := abs_sub_le (fl (L.cos az * L.sin z)) (cos T * sin Z) (cos A * sin Z)
    rw [show cos T * sin Z - cos A * sin Z = sin Z * (cos T - cos A) by ring] at this
    linarith
  refine ⟨?_, f1, ?_, by norm_num at *; linarith⟩
  · rw [neg_mul, R.odd, neg_mul, show -fl (L.cos az * L.sin z) - -(cos A * sin Z) = -(fl (L.cos az * L.sin z) - cos A * sin Z) by ring, abs_neg]; exact f1
  · have := abs_sub_le (fl (L.sin az * L.sin z)) (sin T * sin Z) (sin A * sin Z)
    rw [show sin T * sin Z - sin A * sin Z = sin Z * (sin T - sin A) by ring] at this
    linarith

/-- Turning back to hour angle and declination. -/
theorem flAopTurn_err (R : Rounding fl) {p : Aoprms} (hsc : |p.sphi * p.sphi + p.cphi * p.cphi - 1| ≤ 1e-6) {a A : Vec3} {g : ℝ} (h : ∀ i, |a i - A i| ≤ g) (hg : g ≤ 1e-11) (hA : len A = 1) :
    (∀ i, |flAopTurn fl p a i - (![p.sphi * A 0 + p.cphi * A 2, A 1, -p.cphi * A 0 + p.sphi * A 2] : Vec3) i| ≤ 1.41424 * g + 4e-16) ∧
    0.9989 ≤ len (![p.sphi * A 0 + p.cphi * A 2, A 1, -p.cphi * A 0 + p.sphi * A 2] : Vec3) ∧ len (![p.sphi * A 0 + p.cphi * A 2, A 1, -p.cphi * A 0 + p.sphi * A 2] : Vec3) ≤ 1.0011 := by
  have hb : ∀ i, |A i| ≤ 1.001 := fun i => (comp_le_len A i).trans (by rw [hA]; norm_num)
  have g0 := (abs_nonneg _).trans (h 0)
  refine ⟨fun i => ?_, turn_len hsc (W := A) (by simp) (by simp only [Matrix.cons_val_zero, Matrix.cons_val]; ring) (by rw [hA]; norm_num) (by rw [hA]; norm_num)⟩
  fin_cases i
  · exact turn_err R hsc (h 0) (h 2) hg (hb 0) (hb 2)
  · exact (h 1).trans (by norm_num; linarith)
  · exact turn_err R (s := -p.cphi) (c := p.sphi) (by rw [neg_mul_neg, add_comm (p.cphi * p.cphi)]; exact hsc) (h 0) (h 2) hg (hb 0) (hb 2)

theorem aeo_len (A Z : ℝ) : len (![-cos A * sin Z, sin A * sin Z, cos Z] : Vec3) = 1 := by
  refine len_one ?_
  rw [dot_eq]
  simp only [Matrix.cons_val_zero, Matrix.cons_val_one, Matrix.cons_val]
  have := sin_sq_add_cos_sq A; have := sin_sq_add_cos_sq Z
  grind

end Pal
