import Verif.Props.Pertue

/-!
# A concrete case for the theorems about palPertue

A body 2 AU above the Sun, and eight planets all in one place, so that every step of palPertue can be followed exactly.
-/

namespace Pal.Props.Ex
open Real Pal.Spec Pal.Pertue Pal.Orbit

theorem abs_le_len (a : Vec3) (i : Fin 3) : |a i| ≤ len a := by
  unfold len
  rw [← Real.sqrt_sq_eq_abs]
  exact Real.sqrt_le_sqrt (Finset.single_le_sum (f := fun i => a i ^ 2) (fun i _ => sq_nonneg _) (Finset.mem_univ i))

theorem ueFun_zero (psi : ℝ) : ueFun 0 psi = { s0 := 1, s1 := psi, s2 := psi * psi / 2, s3 := psi * (psi * psi) / 6, tol := 1 / 10 ^ 13 } := by
  rw [ueFun_small (by norm_num)]
  unfold ueSeries
  simp

/-- palUe2pv on a parabolic element set, when its first guess is exact. -/
theorem ue2pv_exact {date : ℝ} {u : Univ} (pv : PV) (psi dt R : ℝ) (ha : u.alpha = 0) (h0 : u.r0 ≠ 0) (hpsi : psi = u.psi + (date - u.t) * gcon / u.r0)
    (hdt : dt = (date - u.t0) * gcon) (hk : u.r0 * psi + u.sigma * (psi * psi / 2) + u.cm * (psi * (psi * psi) / 6) = dt)
    (hR : R = u.r0 * 1 + u.sigma * psi + u.cm * (psi * psi / 2)) (hR0 : R ≠ 0) :
    palUe2pv date u pv = some ({ u with t := date, psi := psi },
      { p := fun i => u.p0 i * (1 - u.cm * (psi * psi / 2) / u.r0) + u.v0 i * (dt - u.cm * (psi * (psi * psi) / 6)),
        v := fun i => cd2s * (u.p0 i * (-u.cm * psi / (u.r0 * R)) + u.v0 i * (1 - u.cm * (psi * psi / 2) / R)) }, 0) := by
  unfold palUe2pv
  rw [if_neg h0]
  dsimp only
  rw [← hpsi, ← hdt]
  have hff : ueFF u dt (ueFun u.alpha psi) = 0 := by
    rw [ha, ueFun_zero]; unfold ueFF; dsimp only; linarith
  have hr : ueR u (ueFun u.alpha psi) = R := by rw [ha, ueFun_zero, hR]; rfl
  have hl : ueLoop u dt 1 psi 0 0 = .done psi (ueFun u.alpha psi) R := by
    rw [ueLoop]
    dsimp only
    rw [hff, hr]
    rw [if_neg (fun h => hR0 h.2)]
    simp only [if_true, mul_zero, lt_irrefl, if_false, zero_div, abs_zero, sub_zero]
    rw [if_neg (by norm_num), if_neg]
    rw [ha, ueFun_zero]
    norm_num
  rw [hl]
  dsimp only
  rw [if_neg hR0, ha, ueFun_zero]

/-- √(2 - (15 k)²), k the Gaussian constant. -/
noncomputable def sy : ℝ := √(2 - (15 * gcon) ^ 2)

theorem k_bounds : 172 / 10000 < gcon ∧ gcon < 173 / 10000 := by unfold gcon; norm_num
theorem sy_sq : sy * sy = 2 - (15 * gcon) ^ 2 := by
  unfold sy
  have := k_bounds
  exact Real.mul_self_sqrt (by nlinarith [this.1, this.2])
theorem sy_pos : 0 < sy := by
  unfold sy
  have := k_bounds
  exact Real.sqrt_pos.mpr (by nlinarith [this.1, this.2])

/-- The planets: all at (1, 0, 0), on the same parabola. -/
noncomputable def P : PertTheory where
  plan94 := fun _ _ _ => ({ p := ![1, 0, 0], v := ![gcon * (15 * gcon), gcon * sy, 0] }, 0)
  epv00 := fun _ _ => { ph := ![1, 0, 0], vh := fun _ => 0, pb := fun _ => 0, vb := fun _ => 0 }
  T := { pmat06 := fun _ _ => 1, obl06 := fun _ _ => 0, nut06a := fun _ _ => (0, 0), p06e := fun _ _ => ⟨0, 0, 0, 0⟩, pnm06a := fun _ _ => 1 }
  dmoon := fun _ => ⟨fun _ => 0, fun _ => 0⟩

/-- The planets' universal elements at epoch t. -/
noncomputable def upl (t : ℝ) : Univ :=
  { cm := 1, alpha := 0, t0 := t, p0 := ![1, 0, 0], v0 := ![15 * gcon, sy, 0], r0 := 1, sigma := 15 * gcon, t := t, psi := 0 }

theorem els_ok (t : ℝ) (u : Univ) (np : ℤ) : planetEls P.plan94 t u np = .ok (upl t, false) := by
  have hg : gcon ≠ 0 := ne_of_gt gcon_pos
  have hs : spd ≠ 0 := by unfold spd; norm_num
  have e1 : gcon * (15 * gcon) / spd / cd2s = 15 * gcon := by unfold cd2s; field_simp
  have e2 : gcon * sy / spd / cd2s = sy := by unfold cd2s; field_simp
  have hpal : palPlanet P.plan94 t np = ({ p := ![1, 0, 0], v := fun i => ![gcon * (15 * gcon), gcon * sy, 0] i / spd }, 0) := by
    unfold palPlanet; simp [P]
  have hv : (15 * gcon) * (15 * gcon) + sy * sy = 2 := by rw [sy_sq]; ring
  have hpv : palPv2ue { p := ![1, 0, 0], v := fun i => ![gcon * (15 * gcon), gcon * sy, 0] i / spd } t 0 u = (upl t, 0) := by
    have hv' : (fun i => (![gcon * (15 * gcon), gcon * sy, 0] : Vec3) i / spd / cd2s) = ![15 * gcon, sy, 0] := by
      funext i
      fin_cases i
      · exact e1
      · exact e2
      · simp
    have l1 : len (![1, 0, 0] : Vec3) = 1 := by unfold len; simp [Fin.sum_univ_three]
    have l2 : dot (![15 * gcon, sy, 0] : Vec3) ![15 * gcon, sy, 0] = 2 := by simp only [dot, Fin.sum_univ_three]; simp; linarith
    have l3 : len (![15 * gcon, sy, 0] : Vec3) = √2 := by rw [len_eq, l2]
    have h3 : (1 : ℝ) < √2 := by
      rw [show (1 : ℝ) = √1 by simp]; exact Real.sqrt_lt_sqrt (by norm_num) (by norm_num)
    have hst := (C61_status { p := ![1, 0, 0], v := fun i => ![gcon * (15 * gcon), gcon * sy, 0] i / spd } t 0 u).2.2.2 le_rfl
      (by rw [l1]; norm_num) (by dsimp only; rw [hv', l3]; linarith)
    obtain ⟨u', hu'⟩ : ∃ u', palPv2ue { p := ![1, 0, 0], v := fun i => ![gcon * (15 * gcon), gcon * sy, 0] i / spd } t 0 u = (u', 0) := ⟨_, Prod.ext rfl hst⟩
    rw [hu']
    obtain ⟨⟨c1, c2, c3, c4⟩, d1, d2, d3, d4⟩ := C61_elements _ _ _ _ _ hu'
    obtain ⟨f1, f2, -⟩ := pv2ue_more hu'
    dsimp only at d3 d4
    rw [hv'] at d4
    rw [d3, l1] at c1
    rw [d3, d4] at c3 c4
    unfold energy at c4
    rw [l1, l2, d2] at c4
    congr 1
    unfold upl
    cases u'
    simp only [Univ.mk.injEq] at *
    refine ⟨by rw [d2]; norm_num, by rw [c4]; norm_num, d1, d3, d4, c1, ?_, f1, f2⟩
    rw [c3]; simp [dot, Fin.sum_univ_three]
  unfold planetEls
  rw [hpal]
  dsimp only
  rw [hpv]
  simp

/-- The planets' state 45 days before the epoch of their elements. -/
noncomputable def pvl : PV :=
  { p := ![1 - (45 * gcon) ^ 2 / 2 + 15 * gcon * (-(45 * gcon) + (45 * gcon) ^ 3 / 6), sy * (-(45 * gcon) + (45 * gcon) ^ 3 / 6), 0]
    v := ![gcon * (45 * gcon / (1 + (45 * gcon) ^ 2 / 6) + 15 * gcon * (1 - (45 * gcon) ^ 2 / 2 / (1 + (45 * gcon) ^ 2 / 6))),
      gcon * (sy * (1 - (45 * gcon) ^ 2 / 2 / (1 + (45 * gcon) ^ 2 / 6))), 0] }

theorem y_neg : -(45 * gcon) + (45 * gcon) ^ 3 / 6 < 0 := by
  have h1 := k_bounds.1
  have h2 := k_bounds.2
  have : (45 * gcon) ^ 2 < 1 := by nlinarith
  have : (45 * gcon) ^ 3 < 45 * gcon := by nlinarith
  linarith

theorem motion_ok (t : ℝ) (pv : PV) : ∃ u, planetMotion (t - 45) (upl t) pv = .ok (u, pvl) := by
  have hs : spd ≠ 0 := by unfold spd; norm_num
  have hR : (1 : ℝ) + (45 * gcon) ^ 2 / 6 ≠ 0 := by positivity
  refine ⟨{ upl t with t := t - 45, psi := -(45 * gcon) }, ?_⟩
  have hu := ue2pv_exact (date := t - 45) (u := upl t) pv (-(45 * gcon)) (-(45 * gcon)) (1 + (45 * gcon) ^ 2 / 6) rfl (by norm_num [upl]) (by simp [upl]) (by simp [upl])
    (by simp [upl]; ring) (by simp [upl]; ring) hR
  unfold planetMotion
  rw [hu]
  dsimp only
  rw [if_neg (by norm_num)]
  have hp : (fun i => (upl t).p0 i * (1 - (upl t).cm * (-(45 * gcon) * -(45 * gcon) / 2) / (upl t).r0) +
      (upl t).v0 i * (-(45 * gcon) - (upl t).cm * (-(45 * gcon) * (-(45 * gcon) * -(45 * gcon)) / 6))) = pvl.p := by
    funext i
    fin_cases i <;> simp only [upl, pvl, Fin.zero_eta, Matrix.cons_val_zero, Fin.mk_one, Matrix.cons_val_one, Fin.reduceFinMk, Matrix.cons_val] <;> ring
  have hv : (fun i => cd2s * ((upl t).p0 i * (-(upl t).cm * -(45 * gcon) / ((upl t).r0 * (1 + (45 * gcon) ^ 2 / 6))) +
      (upl t).v0 i * (1 - (upl t).cm * (-(45 * gcon) * -(45 * gcon) / 2) / (1 + (45 * gcon) ^ 2 / 6))) * spd) = pvl.v := by
    have hc : ∀ x : ℝ, cd2s * x * spd = gcon * x := by intro x; unfold cd2s; field_simp
    funext i
    rw [hc]
    fin_cases i <;> simp only [upl, pvl, Fin.zero_eta, Matrix.cons_val_zero, Fin.mk_one, Matrix.cons_val_one, Fin.reduceFinMk, Matrix.cons_val] <;> ring
  have hn : norm3 pvl.p ≠ 0 := by
    rw [norm3_eq]
    intro h
    have h1 : pvl.p 1 = 0 := by
      have := abs_le_len pvl.p 1
      rw [h] at this
      exact abs_eq_zero.mp (le_antisymm this (abs_nonneg _))
    have : pvl.p 1 = sy * (-(45 * gcon) + (45 * gcon) ^ 3 / 6) := rfl
    rw [this] at h1
    have := mul_neg_of_pos_of_neg sy_pos y_neg
    linarith
  rw [hp, if_neg hn, hv]

/-- Where the planets are put in the first timestep. -/
noncomputable def rho : Vec3 := planetAt pvl (-5)

theorem rho_z : rho 2 = 0 := by
  unfold rho planetAt
  simp [pvl]

theorem rho_ne : len rho ≠ 0 := by
  have h1 := k_bounds.1
  have h2 := k_bounds.2
  intro h
  have hy : rho 1 = 0 := by
    have := abs_le_len rho 1
    rw [h] at this
    exact abs_eq_zero.mp (le_antisymm this (abs_nonneg _))
  obtain ⟨r2, hr2⟩ : ∃ r2, r2 = pvl.p 0 * pvl.p 0 + pvl.p 1 * pvl.p 1 + pvl.p 2 * pvl.p 2 := ⟨_, rfl⟩
  obtain ⟨fc, hfc⟩ : ∃ fc, fc = 1 + (pvl.v 0 * (-5) * (pvl.v 0 * (-5)) + pvl.v 1 * (-5) * (pvl.v 1 * (-5)) + pvl.v 2 * (-5) * (pvl.v 2 * (-5))) / (r2 * 3) := ⟨_, rfl⟩
  have he : rho 1 = (1 - gcon * gcon / (2 * r2 * √r2) * ((-5) * (-5))) * (pvl.p 1 + fc * pvl.v 1 * (-5)) := by
    rw [hfc, hr2]; rfl
  have hx : 4 / 10 ≤ pvl.p 0 := by
    show 4 / 10 ≤ 1 - (45 * gcon) ^ 2 / 2 + 15 * gcon * (-(45 * gcon) + (45 * gcon) ^ 3 / 6)
    have : (0 : ℝ) ≤ 15 * gcon * ((45 * gcon) ^ 3 / 6) := by positivity
    nlinarith
  have hr : 16 / 100 ≤ r2 := by
    rw [hr2]; nlinarith [mul_self_nonneg (pvl.p 1), mul_self_nonneg (pvl.p 2)]
  have hsr : 4 / 10 ≤ √r2 := by
    rw [show (4 / 10 : ℝ) = √(16 / 100) by
      rw [show (16 / 100 : ℝ) = (4 / 10) ^ 2 by norm_num, Real.sqrt_sq (by norm_num)]]
    exact Real.sqrt_le_sqrt hr
  have hfg : 0 < 1 - gcon * gcon / (2 * r2 * √r2) * ((-5) * (-5)) := by
    have hd : 1 / 10 < 2 * r2 * √r2 := by nlinarith
    have : gcon * gcon / (2 * r2 * √r2) < 1 / 100 := by
      rw [div_lt_iff₀ (by linarith)]
      nlinarith
    linarith
  have hfc0 : 0 < fc := by
    rw [hfc]
    have : 0 ≤ (pvl.v 0 * (-5) * (pvl.v 0 * (-5)) + pvl.v 1 * (-5) * (pvl.v 1 * (-5)) + pvl.v 2 * (-5) * (pvl.v 2 * (-5))) / (r2 * 3) :=
      div_nonneg (by nlinarith [mul_self_nonneg (pvl.v 0 * (-5)), mul_self_nonneg (pvl.v 1 * (-5)), mul_self_nonneg (pvl.v 2 * (-5))]) (by linarith)
    linarith
  have hv1 : 0 < pvl.v 1 := by
    show 0 < gcon * (sy * (1 - (45 * gcon) ^ 2 / 2 / (1 + (45 * gcon) ^ 2 / 6)))
    refine mul_pos gcon_pos (mul_pos sy_pos ?_)
    have : (45 * gcon) ^ 2 / 2 / (1 + (45 * gcon) ^ 2 / 6) < 1 := by
      rw [div_lt_one (by positivity)]
      nlinarith
    linarith
  have hp1 : pvl.p 1 < 0 := mul_neg_of_pos_of_neg sy_pos y_neg
  have hneg : pvl.p 1 + fc * pvl.v 1 * (-5) < 0 := by
    have := mul_pos hfc0 hv1
    linarith
  have := mul_neg_of_pos_of_neg hfg hneg
  rw [← he, hy] at this
  exact lt_irrefl _ this

/-- If none of the bodies is at the Sun, there is no division by zero among the direct accelerations. -/
theorem bodies_some (pos : Vec3) (planet : ℕ → Vec3) (earth moon : Vec3) (h1 : ∀ m, len (planet m) ≠ 0) (h2 : len earth ≠ 0) :
    ∀ (n np : ℕ) (d : Direct), np + n ≤ 10 → ∃ d', pertBodies pos planet earth moon n np d = some d' := by
  intro n
  induction n with
  | zero => intro _ d _; exact ⟨d, rfl⟩
  | succ n ih =>
    intro np d hn
    unfold pertBodies
    dsimp only
    obtain ⟨r, hr⟩ : ∃ r : Vec3, r = if np ≤ 8 then planet np else if np = 9 then earth else fun i => moon i + earth i := ⟨_, rfl⟩
    rw [← hr]
    have hr0 : len r ≠ 0 := by
      rw [hr]
      split
      · exact h1 _
      · rw [if_pos (by omega)]; exact h2
    split
    · obtain ⟨d1, hd1⟩ : ∃ d1, pertPull pos r np d = some d1 := by
        unfold pertPull
        dsimp only
        split
        · exact ⟨_, rfl⟩
        · split
          · exact ⟨_, rfl⟩
          · rw [norm3_eq, if_neg hr0]; exact ⟨_, rfl⟩
      rw [hd1]
      exact ih _ _ (by omega)
    · exact ih _ _ (by omega)

/-- The body: 2 AU above the Sun, moving upwards. -/
noncomputable def body : Univ := { cm := 0, alpha := 0, t0 := 0, p0 := ![0, 0, 2], v0 := ![0, 0, 1], r0 := 1, sigma := 0, t := 0, psi := 0 }

theorem body_moves (date : ℝ) (u : Univ) (hu : ∃ t, u = { body with t := t, psi := t * gcon }) :
    palUe2pv date u ⟨fun _ => 0, fun _ => 0⟩ = some ({ body with t := date, psi := date * gcon }, { p := ![0, 0, 2 + date * gcon], v := ![0, 0, cd2s] }, 0) := by
  obtain ⟨t, rfl⟩ := hu
  rw [ue2pv_exact (u := { body with t := t, psi := t * gcon }) _ (date * gcon) (date * gcon) 1 rfl (by norm_num [body]) (by simp [body]; ring) (by simp [body]) (by simp [body])
    (by simp [body]) one_ne_zero]
  simp only [Option.some.injEq, Prod.mk.injEq, PV.mk.injEq, and_true, true_and]
  refine ⟨?_, ?_⟩ <;> funext i <;> fin_cases i <;> simp [body]

/-- The conditions of C63_epoch, C63_status and C64_acceleration_partial are met: a step forward of 0.01 day succeeds with status 0. -/
theorem _root_.Pal.Props.C63_case (up0 : Fin 8 → Univ) (pvin0 : Fin 8 → PV) (fd0 : Vec3) : ∃ u', palPertue P (1 / 100) body up0 pvin0 fd0 = some (u', 0) := by
  have h1 := k_bounds.1
  have h2 := k_bounds.2
  obtain ⟨s0, hs0⟩ : ∃ s0, s0 = pertInit (1 / 100) body up0 pvin0 fd0 := ⟨_, rfl⟩
  have hfwd : decide ((0 : ℝ) ≤ 1 / 100 - body.t0) = true := by simp [body]
  have hj0 : s0.jstat = 0 := by rw [hs0]; unfold pertInit; dsimp only; rw [if_neg]; norm_num [body, abs_of_pos]
  have ht0 : s0.t0 = 0 := by rw [hs0]; rfl
  have hr0 : s0.rtn = 0 := by rw [hs0]; rfl
  have hfirst : s0.first = true := by rw [hs0]; rfl
  have hul : s0.ul = body := by rw [hs0]; rfl
  have hperp : s0.perp = fun _ => 0 := by rw [hs0]; rfl
  have hperv : s0.perv = fun _ => 0 := by rw [hs0]; rfl
  have hpera : s0.pera = fun _ => 0 := by rw [hs0]; rfl
  unfold palPertue
  rw [hfwd, ← hs0]
  have hts : pertTs true (1 / 100) s0 = 1 / 100 := by
    unfold pertTs pertTs0
    dsimp only
    rw [hfirst, ht0, hr0]
    simp [fbOf]
  have hc : fbOf true * (1 / 100 - s0.t0 - s0.rtn) > 0 := by rw [ht0, hr0]; norm_num [fbOf]
  -- the planets' elements
  obtain ⟨s1, hs1, e1⟩ : ∃ s1, pertEls P.plan94 true (1 / 200) s0 = .ok s1 ∧ s1 = { s0 with tpel := 1 / 200 + 50, up := fun _ => upl (1 / 200 + 50) } := by
    refine ⟨_, ?_, rfl⟩
    unfold pertEls
    rw [if_pos (Or.inl hfirst)]
    dsimp only
    have hg : gather (fun np => planetEls P.plan94 (1 / 200 + fbOf true * 50) (s0.up np) ((np.val : ℤ) + 1)) = .ok (fun _ => (upl (1 / 200 + 50), false)) := by
      rw [gather_ok]
      intro i
      rw [els_ok]
      simp [fbOf]
    rw [hg]
    simp [fbOf]
  -- their motions
  obtain ⟨s2, hs2, e2⟩ : ∃ s2, pertMotions true (1 / 200) s1 = .ok s2 ∧ ∃ up', s2 = { s1 with tpmo := 1 / 200 + 5, up := up', pvin := fun _ => pvl } := by
    obtain ⟨g, hg⟩ : ∃ g : Fin 8 → Univ, gather (fun np => planetMotion (1 / 200 + fbOf true * 5) (s1.up np) (s1.pvin np)) = .ok (fun i => (g i, pvl)) := by
      have : ∀ i, ∃ u, planetMotion (1 / 200 + fbOf true * 5) (s1.up i) (s1.pvin i) = .ok (u, pvl) := by
        intro i
        have e3 : s1.up i = upl (1 / 200 + 50) := by rw [e1]
        have e4 : (1 / 200 + fbOf true * 5 : ℝ) = 1 / 200 + 50 - 45 := by norm_num [fbOf]
        rw [e3, e4]
        exact motion_ok _ _
      choose g hg using this
      exact ⟨g, gather_ok.mpr hg⟩
    refine ⟨{ s1 with tpmo := 1 / 200 + 5, up := g, pvin := fun _ => pvl }, ?_, g, rfl⟩
    unfold pertMotions
    rw [if_pos (Or.inl (by rw [e1]; exact hfirst))]
    dsimp only
    rw [hg]
    simp [fbOf]
  obtain ⟨up', e2⟩ := e2
  have hul2 : s2.ul = body := by rw [e2, e1]; exact hul
  have hperp2 : s2.perp = fun _ => 0 := by rw [e2, e1]; exact hperp
  have hperv2 : s2.perv = fun _ => 0 := by rw [e2, e1]; exact hperv
  have hpera2 : s2.pera = fun _ => 0 := by rw [e2, e1]; exact hpera
  have hj2 : s2.jstat = 0 := by rw [e2, e1]; exact hj0
  have ht2 : s2.t0 = 0 := by rw [e2, e1]; exact ht0
  have hr2 : s2.rtn = 0 := by rw [e2, e1]; exact hr0
  -- forces
  obtain ⟨pos, hpos⟩ : ∃ pos : Vec3, pos = ![0, 0, 2 + 1 / 200 * gcon] := ⟨_, rfl⟩
  have hbody : ∀ m, bodyAt P (1 / 200) s2.tpmo s2.pvin m = if m ≤ 8 then rho else ![1, 0, 0] := by
    intro m
    unfold bodyAt
    have : (1 / 200 : ℝ) - s2.tpmo = -5 := by rw [e2]; norm_num
    rw [this, e2]
    rfl
  have hbz : ∀ m, bodyAt P (1 / 200) s2.tpmo s2.pvin m 2 = 0 := by
    intro m
    rw [hbody]
    split
    · exact rho_z
    · rfl
  have hdist : ∀ m, 2 ≤ len (fun k => bodyAt P (1 / 200) s2.tpmo s2.pvin m k - pos k) := by
    intro m
    have h3 := abs_le_len (fun k => bodyAt P (1 / 200) s2.tpmo s2.pvin m k - pos k) 2
    have hp2 : pos 2 = 2 + 1 / 200 * gcon := by rw [hpos]; rfl
    rw [hbz, hp2] at h3
    rw [zero_sub, abs_neg, abs_of_pos (by linarith)] at h3
    linarith
  obtain ⟨d, hd⟩ : ∃ d, pertDirect P (1 / 200) s2.tpmo s2.pvin s2.jstat pos = some d := by
    unfold pertDirect pertNBodies
    refine bodies_some _ _ _ _ ?_ ?_ _ _ _ (by norm_num)
    · intro m
      have := hbody 1
      unfold bodyAt at this
      rw [if_pos (by norm_num), if_pos (by norm_num)] at this
      have e5 : s2.pvin (Fin.ofNat 8 (m - 1)) = s2.pvin (Fin.ofNat 8 (1 - 1)) := by rw [e2]
      rw [e5, this]
      exact rho_ne
    · show len (![1, 0, 0] : Vec3) ≠ 0
      have : len (![1, 0, 0] : Vec3) = 1 := by unfold len; simp [Fin.sum_univ_three]
      rw [this]; norm_num
  obtain ⟨hfd, hjs⟩ := direct_spec hd False (by
    constructor
    · exact False.elim
    · intro h; linarith [hdist 3])
  have hdj : d.jstat = 0 := by
    rcases hjs with ⟨a, -⟩ | ⟨m, -, -, -, a, -⟩
    · rw [a, hj2]
    · linarith [hdist m]
  have hfdz : |d.fd 2| ≤ 9 / 1000 := by
    rw [hfd 2]
    calc |∑ m ∈ Finset.Icc 1 9, _| ≤ ∑ m ∈ Finset.Icc (1 : ℕ) 9, (1 / 1000 : ℝ) := by
          refine le_trans (Finset.abs_sum_le_sum_abs _ _) (Finset.sum_le_sum fun m _ => ?_)
          split
          · unfold tidal attraction
            obtain ⟨L, hL⟩ : ∃ L, L = len (fun k => bodyAt P (1 / 200) s2.tpmo s2.pvin m k - pos k) := ⟨_, rfl⟩
            have hL2 : 2 ≤ L := by rw [hL]; exact hdist m
            have hcomp : |bodyAt P (1 / 200) s2.tpmo s2.pvin m 2 - pos 2| ≤ L := by
              rw [hL]; exact abs_le_len (fun k => bodyAt P (1 / 200) s2.tpmo s2.pvin m k - pos k) 2
            rw [← hL]
            have hM : 1000 ≤ amas m := by
              unfold amas
              split_ifs <;> norm_num
            have hM0 : 0 < amas m := by linarith
            have hz := hbz m
            rw [abs_div, abs_of_pos hM0, div_le_iff₀ hM0]
            have e6 : bodyAt P (1 / 200) s2.tpmo s2.pvin m 2 / len (bodyAt P (1 / 200) s2.tpmo s2.pvin m) ^ 3 = 0 := by rw [hz, zero_div]
            rw [e6, sub_zero, abs_div, abs_of_pos (show 0 < L ^ 3 by positivity)]
            have : |bodyAt P (1 / 200) s2.tpmo s2.pvin m 2 - pos 2| / L ^ 3 ≤ 1 := by
              rw [div_le_one (by positivity)]
              nlinarith [mul_self_nonneg L]
            linarith
          · norm_num
      _ = 9 / 1000 := by norm_num
  obtain ⟨s3, hs3, e3ul, e3j, e3t0, e3rtn, e3perp, e3perv⟩ : ∃ s3, pertMove P (1 / 200) (1 / 100) s2 = .ok s3 ∧ s3.ul = { body with t := 1 / 200, psi := 1 / 200 * gcon } ∧ s3.jstat = 0 ∧
      s3.t0 = 0 ∧ s3.rtn = 1 / 100 ∧ |s3.perp 2| ≤ 1 / 1000 ∧ |s3.perv 2| ≤ 1 / 10000 * gcon := by
    unfold pertMove
    rw [hul2, body_moves (1 / 200) body ⟨0, by unfold body; simp⟩]
    dsimp only
    rw [if_neg (by norm_num)]
    have hpp : pertPos s2 ![0, 0, 2 + 1 / 200 * gcon] (1 / 100 / 2) = pos := by
      unfold pertPos
      rw [hperp2, hperv2, hpera2, hpos]
      funext i
      simp
    rw [hpp]
    have hn : len pos ≠ 0 := by
      have h3 := abs_le_len pos 2
      rw [hpos] at h3 ⊢
      simp only [Matrix.cons_val] at h3
      rw [abs_of_pos (by linarith)] at h3
      linarith
    rw [norm3_eq, ← hpos, norm3_eq, if_neg (by simp [hn]), hd]
    dsimp only
    refine ⟨_, rfl, ?_⟩
    dsimp only
    rw [hdj, ht2, hr2, hperp2, hperv2]
    have hfi : pertIndirect pos pos 2 = 0 := by unfold pertIndirect; ring
    rw [hfi]
    have hb := abs_le.mp hfdz
    refine ⟨rfl, rfl, rfl, by norm_num, ?_, ?_⟩
    · rw [abs_le]; constructor <;> nlinarith
    · rw [abs_le]
      have hg := gcon_pos
      constructor <;> nlinarith
  -- rectification
  obtain ⟨s4, hs4, e4j, e4t0, e4rtn⟩ : ∃ s4, pertRectify true (1 / 100) s3 = .ok s4 ∧ s4.jstat = 0 ∧ s4.t0 = 1 / 100 ∧ s4.rtn = 0 := by
    unfold pertRectify
    rw [e3t0, e3rtn, if_pos (Or.inr (by norm_num))]
    dsimp only
    rw [body_moves (0 + 1 / 100) s3.ul ⟨1 / 200, e3ul⟩]
    dsimp only
    rw [if_neg (by norm_num)]
    have hp := abs_le.mp e3perp
    have hv := abs_le.mp e3perv
    have hst := (C61_status { p := fun i => (![0, 0, 2 + (0 + 1 / 100) * gcon] : Vec3) i + s3.perp i, v := fun i => (![0, 0, cd2s] : Vec3) i + s3.perv i / spd } (0 + 1 / 100) 0
      { body with t := 0 + 1 / 100, psi := (0 + 1 / 100) * gcon }).2.2.2 le_rfl ?_ ?_
    · rw [if_neg (not_not.mpr hst)]
      exact ⟨_, rfl, e3j, by norm_num, rfl⟩
    · refine le_trans ?_ (abs_le_len _ 2)
      simp only [Matrix.cons_val]
      rw [abs_of_pos (by linarith only [hp.1, h1])]
      linarith only [hp.1, h1]
    · refine le_trans ?_ (abs_le_len _ 2)
      simp only [Matrix.cons_val]
      have hc2 := cd2s_pos
      have e7 : (cd2s + s3.perv 2 / spd) / cd2s = 1 + s3.perv 2 / gcon := by
        unfold cd2s spd
        have hg : gcon ≠ 0 := ne_of_gt gcon_pos
        field_simp
      rw [e7]
      have e8 : -(1 / 10000) ≤ s3.perv 2 / gcon := by rw [le_div_iff₀ gcon_pos]; linarith only [hv.1]
      rw [abs_of_pos (by linarith only [e8])]
      linarith only [e8]
  have hstep : pertStep P true (1 / 100) s0 = .ok s4 := by
    unfold pertStep
    dsimp only
    have e9 : s0.t0 + s0.rtn + pertTs true (1 / 100) s0 / 2 = 1 / 200 := by rw [ht0, hr0, hts]; norm_num
    rw [e9, hts, hs1]
    dsimp only
    rw [hs2]
    dsimp only
    rw [hs3]
    exact hs4
  have hend : ¬ fbOf true * (1 / 100 - s4.t0 - s4.rtn) > 0 := by rw [e4t0, e4rtn]; norm_num
  rw [loop_next hc hstep, loop_done hend]
  exact ⟨s4.ul, by simp [e4j]⟩

/-- The conditions of C65_success and C65_same_date are met: a hyperbolic comet at perihelion. -/
theorem _root_.Pal.Props.C65_case (Q : PertTheory) (el : Elems) (u0 : Univ) (up0 : Fin 8 → Univ) (pvin0 : Fin 8 → PV) (fd0 : Vec3) :
    ∃ u el', palEl2ue 50000 3 50000 0 0 0 2 1.5 0 0 u0 = some (u, 0) ∧
      palPertel Q 3 50000 50000 50000 0 0 0 2 1.5 0 el u0 up0 pvin0 fd0 = some (el', 0) ∧ el'.jform = 3 ∧ 1.2 < el'.e := by
  have hsq : (√(1 * (1 + 1.5) / 2)) ^ 2 = (1.25 : ℝ) := by rw [Real.sq_sqrt (by norm_num)]; norm_num
  obtain ⟨s, hs⟩ : ∃ s : ℝ, s = √(1 * (1 + 1.5) / 2) := ⟨_, rfl⟩
  have hs0 : 0 ≤ s := by rw [hs]; exact Real.sqrt_nonneg _
  rw [← hs] at hsq
  have hp : fromOrbit obSE obCE 0 0 0 2 0 = ![2, 0, 0] := by
    rw [← orbitToEqu_eq]; simp [orbitToEqu]
  have hv : fromOrbit obSE obCE 0 0 0 0 s = ![0, s * obCE, s * obSE] := by
    rw [← orbitToEqu_eq]; simp [orbitToEqu]
  have h1 : (1 : ℝ) / 10 ^ 3 ≤ len (fromOrbit obSE obCE 0 0 0 2 0) := by
    rw [hp]
    refine le_trans ?_ (abs_le_len _ 0)
    norm_num
  have h2 : (1 : ℝ) / 10 ^ 3 ≤ len (fromOrbit obSE obCE 0 0 0 0 s) := by
    rw [hv]
    refine le_trans ?_ (abs_le_len _ 1)
    simp only [Matrix.cons_val_one, Matrix.cons_val_zero]
    have : 1 ≤ s := by nlinarith
    rw [abs_of_nonneg (by unfold obCE; nlinarith)]
    unfold obCE; nlinarith
  obtain ⟨u, hu, ht, hcm, hp0, hv0⟩ := C83_perihelion 50000 3 50000 0 0 0 2 1.5 0 0 u0
    ⟨by norm_num, by norm_num, by norm_num, by norm_num, Or.inr rfl, by norm_num, fun h => absurd h (by norm_num)⟩ 0 2 1 (by unfold standardForm; norm_num) le_rfl h1
    (by rw [← hs]; exact h2)
  rw [← hs, hv] at hv0
  rw [hp] at hp0
  obtain ⟨pv, hpv⟩ : ∃ pv : PV, pv = { p := u.p0, v := fun i => u.v0 i * cd2s } := ⟨_, rfl⟩
  have hg := gcon_pos
  have hspd : spd ≠ 0 := by unfold spd; norm_num
  obtain ⟨κ, hκ⟩ : ∃ κ, κ = obCE ^ 2 + obSE ^ 2 := ⟨_, rfl⟩
  have hκ1 : |κ - 1| ≤ 1 / 1000 := by rw [hκ]; unfold obCE obSE; norm_num
  have hκ2 := abs_le.mp hκ1
  have ep : eclPos pv = ![2, 0, 0] := by
    rw [hpv]; unfold eclPos tilt; dsimp only; rw [hp0]
    funext i; fin_cases i <;> simp [Matrix.mulVec, dotProduct, Fin.sum_univ_three, Matrix.transpose_apply]
  have ev : eclVel pv = ![0, gcon * s * κ, 0] := by
    rw [hpv]; unfold eclVel tilt cd2s spd; dsimp only; rw [hv0, hκ]
    funext i; fin_cases i <;> simp [Matrix.mulVec, dotProduct, Fin.sum_univ_three, Matrix.transpose_apply]
    · ring
    · ring
  have lp : len (eclPos pv) = 2 := by
    rw [ep]; unfold len; simp [Fin.sum_univ_three]
  have hs1 : 1 ≤ s := by nlinarith
  have hr : 1 / 10 ^ 3 ≤ len (eclPos pv) := by rw [lp]; norm_num
  have hvv : 1 / 10 ^ 8 ≤ len (eclVel pv) := by
    rw [ev]
    refine le_trans ?_ (abs_le_len _ 1)
    simp only [Matrix.cons_val_one, Matrix.cons_val_zero]
    have hb := k_bounds.1
    have h5 : (172 / 10000) * (1 / 2) ≤ gcon * s * κ := by
      have : gcon ≤ gcon * s := by nlinarith
      nlinarith
    rw [abs_of_nonneg (by linarith)]
    linarith
  obtain ⟨e, he⟩ : ∃ e, e = eccentricity ((1 + 0) * gcon ^ 2) (eclPos pv) (eclVel pv) := ⟨_, rfl⟩
  have he1 : 1.2 < e := by
    rw [he]
    unfold eccentricity energy
    rw [lp, ep, ev]
    have d1 : dot (![0, gcon * s * κ, 0] : Vec3) ![0, gcon * s * κ, 0] = gcon ^ 2 * 1.25 * κ ^ 2 := by
      simp only [dot, Fin.sum_univ_three]; simp; rw [← hsq]; ring
    have d2 : dot (cross (![2, 0, 0] : Vec3) ![0, gcon * s * κ, 0]) (cross (![2, 0, 0] : Vec3) ![0, gcon * s * κ, 0]) = 4 * (gcon ^ 2 * 1.25 * κ ^ 2) := by
      simp only [dot, cross, Fin.sum_univ_three]; simp; rw [show (1.25 : ℝ) = s ^ 2 from hsq.symm]; ring
    rw [d1, d2]
    refine Real.lt_sqrt_of_sq_lt ?_
    have e1 : 1 + (gcon ^ 2 * 1.25 * κ ^ 2 - 2 * ((1 + 0) * gcon ^ 2) / 2) * (4 * (gcon ^ 2 * 1.25 * κ ^ 2)) / ((1 + 0) * gcon ^ 2) ^ 2 = 1 + (1.25 * κ ^ 2 - 1) * (5 * κ ^ 2) := by
      field_simp; ring
    rw [e1]
    have h6 : 0.99 ≤ κ ^ 2 := by nlinarith
    nlinarith
  obtain ⟨el', hel, hee, -, hjf⟩ := C62_form_partial pv 50000 0 3 el le_rfl (by simp) hr hvv e he (by rw [abs_of_pos (by linarith)]; linarith)
  have hue : palUe2el u 3 el = some (el', 0) := by
    unfold palUe2el
    rw [← hpv, ht, hcm, sub_self]
    exact hel
  refine ⟨u, el', hu, ?_, hjf (by linarith), by rw [hee]; exact he1⟩
  rw [C65_same_date Q 3 50000 50000 0 0 0 2 1.5 0 el u0 u up0 pvin0 fd0 (Or.inr rfl) hu, hue]
  simp [hjf (show 1 < e by linarith)]

end Pal.Props.Ex
