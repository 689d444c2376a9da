import Verif.Lemmas.FlNut

/-!
# Rounding errors of palEvp and palMappa
-/

namespace Pal
open Real Pal.Spec Pal.Props Matrix
variable {fl : ℝ → ℝ} {L : Libm}

/-- A matrix that is nearly a rotation times a vector of any length. -/
theorem flRxp_scaled (R : Rounding fl) {M Q : Mat3} {e : ℝ} (hQ : IsRotation Q) (h : Small (M - Q) e) (he : e ≤ 1e-13) (v : Vec3) (hv : len v ≤ 10 ^ 20) :
    len (fun i => flRxp fl M v i - (Q *ᵥ v) i) ≤ (e + 1.37e-15) * len v + 1 / 10 ^ 198 := by
  have hM : ∀ i j, |M i j| ≤ 1.01 := fun i j => by
    have a := (h.entry i j).trans he
    rw [Matrix.sub_apply] at a
    have b := (rot_small hQ).entry i j
    have := abs_add_le (M i j - Q i j) (Q i j)
    rw [sub_add_cancel] at this
    norm_num at *; linarith
  have r := flRxp_len R M hM v hv
  have q1 := len_tri (flRxp fl M v) (M *ᵥ v) (Q *ᵥ v)
  have q3 : len (fun i => (M *ᵥ v) i - (Q *ᵥ v) i) ≤ e * len v := by
    have := h v
    rw [Matrix.sub_mulVec] at this
    exact this
  linarith

/-- Division of each component by a constant, rounded. -/
theorem flDivs_len (R : Rounding fl) {v V : Vec3} {η B : ℝ} (h : len (fun i => v i - V i) ≤ η) (hV : len V ≤ B) (hB : B + η ≤ 10 ^ 20) :
    len (fun i => fl (v i / 86400) - V i / 86400) ≤ (η + 1.95e-16 * (B + η)) / 86400 + 1e-198 := by
  have lv : len v ≤ B + η := by have := (abs_le.1 ((len_rev_tri v V).trans h)).2; linarith
  have c : ∀ i, |fl (v i / 86400) - v i / 86400| ≤ 1.1103e-16 * ((B + η) / 86400) + 1 / 10 ^ 200 := fun i => by
    have b : |v i / 86400| ≤ (B + η) / 86400 := div_bd ((comp_le_len v i).trans lv) (by norm_num)
    have := R.err (x := v i / 86400) (b.trans (by norm_num; linarith))
    have h2 : (1.1103e-16 : ℝ) * |v i / 86400| ≤ 1.1103e-16 * ((B + η) / 86400) := mul_le_mul_of_nonneg_left b (by norm_num)
    linarith
  have q1 := len_tri (fun i => fl (v i / 86400)) (fun i => v i / 86400) (fun i => V i / 86400)
  have q2 := len_le_of_comp c
  have q3 : len (fun i => v i / 86400 - V i / 86400) ≤ η / 86400 := by
    have : (fun i => v i / 86400 - V i / 86400) = fun i => (1 / 86400 : ℝ) * (v i - V i) := by funext i; ring
    rw [this, len_smul (1 / 86400) (fun i => v i - V i), abs_of_pos (by norm_num)]
    linarith
  have p0 : 0 ≤ B + η := (len_nonneg v).trans lv
  have z : (1.7321 : ℝ) * (1 / 10 ^ 200) ≤ 1e-198 := by norm_num
  generalize (1 / 10 ^ 200 : ℝ) = w at *
  generalize (1e-198 : ℝ) = w' at *
  norm_num at *
  linarith

/-- palEvp in double precision. -/
theorem flEvp_err (R : Rounding fl) (hL : LibmOK L) (nut : ℝ → ℝ → ℝ × ℝ) (epv00 : ℝ → ℝ → Epv) {date deqx : ℝ} (h0 : |deqx - 2000| ≤ 1000 ∨ deqx ≤ 0) :
    let e := epv00 2400000.5 date
    let o := flEvp fl L epv00 date deqx
    let x := palEvp (iau2006 nut) epv00 date deqx
    (len e.ph ≤ 10 ^ 10 → len (fun i => o.ph i - x.ph i) ≤ 9.7e-15 * len e.ph + 1e-190) ∧ (len e.pb ≤ 10 ^ 10 → len (fun i => o.pb i - x.pb i) ≤ 9.7e-15 * len e.pb + 1e-190) ∧
    (len e.vh ≤ 10 ^ 10 → len (fun i => o.vh i - x.vh i) ≤ 1e-14 * (len e.vh / 86400) + 1e-190) ∧ (len e.vb ≤ 10 ^ 10 → len (fun i => o.vb i - x.vb i) ≤ 1e-14 * (len e.vb / 86400) + 1e-190) ∧
    len x.ph = len e.ph ∧ len x.pb = len e.pb ∧ len x.vb = len e.vb / 86400 := by
  intro e o x
  have z1 : (1 : ℝ) / 10 ^ 198 ≤ 1e-195 := by norm_num
  have z2 : (1e-195 : ℝ) + 1e-195 ≤ 1e-190 := by norm_num
  have z0 : (0 : ℝ) < 1e-195 := by norm_num
  have z3 : (1e-198 : ℝ) ≤ 1e-195 := by norm_num
  have z4 : (1e-195 : ℝ) ≤ 1 := by norm_num
  have dv : ∀ v V : Vec3, ∀ B : ℝ, len V = B → B ≤ 10 ^ 10 → len (fun i => v i - V i) ≤ 9.7e-15 * B + 1e-195 → len (fun i => fl (v i / 86400) - V i / 86400) ≤ 1e-14 * (B / 86400) + 1e-190 := by
    intro v V B hV hB h
    have b0 := (len_nonneg V).trans hV.le
    have := flDivs_len R h hV.le (by norm_num at *; linarith)
    generalize (1e-195 : ℝ) = w at *
    generalize (1e-198 : ℝ) = w' at *
    generalize (1e-190 : ℝ) = w'' at *
    norm_num at *
    linarith
  have ld : ∀ V : Vec3, len (fun i => V i / 86400) = len V / 86400 := fun V => by
    have : (fun i => V i / 86400) = fun i => (1 / 86400 : ℝ) * V i := by funext i; ring
    rw [this, len_smul, abs_of_pos (by norm_num)]; ring
  by_cases hp : deqx > 0
  · have h1 : |deqx - 2000| ≤ 1000 := h0.resolve_right (not_le.2 hp)
    obtain ⟨t, b⟩ := flCent_epj2d R h1
    have s := flPmat06_small R hL t b
    have hQ := pmat06_rot 2400000.5 (51544.5 + (deqx - 2000) * 365.25)
    have ro : ∀ v : Vec3, len v ≤ 10 ^ 10 → len (fun i => flRxp fl (flPmat06 fl L 2400000.5 (flEpj2d fl deqx)) v i - (eraPmat06 2400000.5 (51544.5 + (deqx - 2000) * 365.25) *ᵥ v) i) ≤ 9.7e-15 * len v + 1e-195 := fun v hv => by
      have := flRxp_scaled R hQ s (by norm_num) v (hv.trans (by norm_num))
      have l := len_nonneg v
      generalize (1 / 10 ^ 198 : ℝ) = w at *
      generalize (1e-195 : ℝ) = w' at *
      norm_num at *; linarith
    have ex : x = ⟨eraPmat06 2400000.5 (51544.5 + (deqx - 2000) * 365.25) *ᵥ e.ph, fun i => (eraPmat06 2400000.5 (51544.5 + (deqx - 2000) * 365.25) *ᵥ e.vh) i / 86400,
        eraPmat06 2400000.5 (51544.5 + (deqx - 2000) * 365.25) *ᵥ e.pb, fun i => (eraPmat06 2400000.5 (51544.5 + (deqx - 2000) * 365.25) *ᵥ e.vb) i / 86400⟩ := by
      change palEvp (iau2006 nut) epv00 date deqx = _
      unfold palEvp
      dsimp only [iau2006]
      rw [if_pos hp]
      simp only [eraRxp_eq]
      rfl
    have eo : o = ⟨flRxp fl (flPmat06 fl L 2400000.5 (flEpj2d fl deqx)) e.ph, fun i => fl (flRxp fl (flPmat06 fl L 2400000.5 (flEpj2d fl deqx)) e.vh i / 86400),
        flRxp fl (flPmat06 fl L 2400000.5 (flEpj2d fl deqx)) e.pb, fun i => fl (flRxp fl (flPmat06 fl L 2400000.5 (flEpj2d fl deqx)) e.vb i / 86400)⟩ := by
      change flEvp fl L epv00 date deqx = _
      unfold flEvp
      dsimp only
      rw [if_pos hp]
    rw [ex, eo]
    refine ⟨fun h => (ro _ h).trans (by linarith), fun h => (ro _ h).trans (by linarith), fun h => dv _ _ _ (rot_len hQ _) h (ro _ h), fun h => dv _ _ _ (rot_len hQ _) h (ro _ h), rot_len hQ _, rot_len hQ _, ?_⟩
    rw [ld, rot_len hQ]
  · have ex : x = ⟨e.ph, fun i => e.vh i / 86400, e.pb, fun i => e.vb i / 86400⟩ := by
      change palEvp (iau2006 nut) epv00 date deqx = _
      unfold palEvp
      dsimp only
      rw [if_neg hp]
      rfl
    have eo : o = ⟨e.ph, fun i => fl (e.vh i / 86400), e.pb, fun i => fl (e.vb i / 86400)⟩ := by
      change flEvp fl L epv00 date deqx = _
      unfold flEvp
      dsimp only
      rw [if_neg hp]
    have z : ∀ v : Vec3, len (fun i => v i - v i) = 0 := fun v => by rw [len_eq, dot_eq]; simp
    have n : ∀ v : Vec3, 0 ≤ 9.7e-15 * len v := fun v => mul_nonneg (by norm_num) (len_nonneg v)
    rw [ex, eo]
    refine ⟨fun _ => ?_, fun _ => ?_, fun h => dv _ _ _ rfl h ?_, fun h => dv _ _ _ rfl h ?_, rfl, rfl, ld _⟩
    · rw [z]; linarith [n e.ph]
    · rw [z]; linarith [n e.pb]
    · rw [z]; linarith [n e.vh]
    · rw [z]; linarith [n e.vb]

/-- Modulus and direction in double precision of a slightly wrong vector of length about 1. -/
theorem flPn_both (R : Rounding fl) {p P : Vec3} {e : ℝ} (hp : len (fun i => p i - P i) ≤ e) (he : e ≤ 1e-12) (h1 : 0.95 ≤ len P) (h2 : len P ≤ 1.05) :
    |(flPn fl p).1 - len P| ≤ e + 6.4e-16 ∧ len (fun i => (flPn fl p).2 i - (eraPn P).2 i) ≤ 1.053 * e + 1.4e-15 := by
  have e0 := (len_nonneg _).trans hp
  have l3 := abs_le.1 ((len_rev_tri p P).trans hp)
  have p0 : 0.9499 ≤ len p := by norm_num at *; linarith
  have p0' : 0 < len p := lt_of_lt_of_le (by norm_num) p0
  have P0' : 0 < len P := lt_of_lt_of_le (by norm_num) h1
  have u := unit_close p0' P0'
  have u2 : len (fun i => p i / len p - P i / len P) ≤ 1.053 * e := by
    refine abs_le_of_sq_le_sq' (a := len (fun i => p i / len p - P i / len P)) ?_ (by positivity) |>.2
    have s1 := pow_le_pow_left₀ (len_nonneg _) hp 2
    have s2 : (0.9499 : ℝ) * 0.95 ≤ len p * len P := mul_le_mul p0 h1 (by norm_num) p0'.le
    have s3 : (0.9499 : ℝ) * 0.95 * len (fun i => p i / len p - P i / len P) ^ 2 ≤ len p * len P * len (fun i => p i / len p - P i / len P) ^ 2 := mul_le_mul_of_nonneg_right s2 (sq_nonneg _)
    have s4 : 0 ≤ e ^ 2 := sq_nonneg e
    rw [mul_pow]
    norm_num at *; linarith
  obtain ⟨n1, n2⟩ := Props.C104_dvn R p (le_trans (by norm_num) p0) (le_trans (by norm_num at *; linarith : len p ≤ 2) (by norm_num))
  have n3 := len_le_of_comp n2
  refine ⟨?_, ?_⟩
  · have := abs_sub_le (flPn fl p).1 (len p) (len P)
    have h5 := (len_rev_tri p P).trans hp
    norm_num at *; linarith
  · have ep : (eraPn P).2 = fun i => P i / len P := by rw [pn_val P0'.ne']; funext i; rw [inv_mul_eq_div]
    rw [ep]
    have := len_tri (flPn fl p).2 (fun i => p i / len p) (fun i => P i / len P)
    norm_num at *; linarith

theorem flPn_fst (p : Vec3) : (flPn fl p).1 = flPm fl p := by unfold flPn; dsimp only; split_ifs <;> rfl
theorem eraPn_fst (p : Vec3) : (eraPn p).1 = len p := by unfold eraPn; rw [pm_len]; dsimp only; split_ifs <;> rfl

/-- The aberration parameter √(1 - v²) in double precision. -/
theorem flAb1_err (R : Rounding fl) {v V : ℝ} (hv : |v - V| ≤ 1e-17) (hV : |V| ≤ 1.08e-4) :
    |fl (√(fl (1 - fl (v * v)))) - √(1 - V * V)| ≤ 1.8e-16 ∧ fl (√(fl (1 - fl (v * v)))) ≤ 1 ∧ 0.99999999 ≤ √(1 - V * V) := by
  have a1 := R.mulB 3e-21 hv hv hV hV (by norm_num) (by norm_num)
  have b1 := mul_bd hV hV
  have a2 := (R.subB 1.12e-16 (noerr 1) a1 (by norm_num : |(1 : ℝ)| ≤ 1) b1 (by norm_num) (by norm_num)).1
  have b1' := abs_le.1 b1
  have a2' := abs_le.1 a2
  have one : fl 1 = 1 := by have := R.keep 1 0 (by norm_num) (by norm_num) (by norm_num; exact one_le_pow₀ (by norm_num)); simpa using this
  have vv0 : 0 ≤ fl (v * v) := by
    have h1 : |v * v| ≤ 2 ^ 1000 := by
      have hv2 : |v| ≤ 1 := by have h := abs_add_le (v - V) V; rw [sub_add_cancel] at h; norm_num at *; linarith
      have := mul_bd hv2 hv2
      exact this.trans (by rw [one_mul]; exact one_le_pow₀ (by norm_num))
    have := R.mono 0 (v * v) (by rw [abs_zero]; positivity) h1 (mul_self_nonneg v)
    rwa [R.zero] at this
  have vv1 : fl (v * v) ≤ 1 := by have := (abs_le.1 a1).2; norm_num at *; linarith
  have le1 : fl (1 - fl (v * v)) ≤ 1 := by
    have h := R.mono (1 - fl (v * v)) 1 (by rw [abs_of_nonneg (by linarith)]; exact le_trans (by linarith) (one_le_pow₀ (by norm_num : (1 : ℝ) ≤ 2))) (by rw [abs_one]; exact one_le_pow₀ (by norm_num)) (by linarith)
    rwa [one] at h
  generalize fl (1 - fl (v * v)) = x at *
  have W0 := mul_self_nonneg V
  generalize V * V = W at *
  have x0 : 0.9999 ≤ x := by norm_num at *; linarith
  have s1 : 0.999 ≤ √x := Real.le_sqrt_of_sq_le (by norm_num at *; linarith)
  have s2 : 0.99999999 ≤ √(1 - W) := Real.le_sqrt_of_sq_le (by norm_num at *; linarith)
  have s3 : √x ≤ 1 := Real.sqrt_le_one.2 le1
  have d : |√x - √(1 - W)| ≤ 0.57e-16 := by
    have e : (√x - √(1 - W)) * (√x + √(1 - W)) = x - (1 - W) := by
      have := Real.mul_self_sqrt (by linarith : 0 ≤ x)
      have := Real.mul_self_sqrt (by norm_num at *; linarith : 0 ≤ 1 - W)
      linarith
    have e2 : |√x - √(1 - W)| * (√x + √(1 - W)) ≤ 1.12e-16 := by
      rw [← abs_of_pos (by norm_num at *; linarith : 0 < √x + √(1 - W)), ← abs_mul, e]; exact a2
    have := abs_nonneg (√x - √(1 - W))
    generalize |√x - √(1 - W)| = y at *
    by_contra h
    have : 0.57e-16 * 1.99 < y * (√x + √(1 - W)) := mul_lt_mul'' (not_le.1 h) (by norm_num at *; linarith) (by norm_num) (by norm_num)
    norm_num at *; linarith
  refine ⟨?_, ?_, s2⟩
  · refine R.add_err2 (B := 1) _ d ?_ (by norm_num) (by norm_num)
    rw [abs_of_nonneg (Real.sqrt_nonneg _)]
    exact Real.sqrt_le_one.2 (by linarith)
  · have h := R.mono (√x) 1 (by rw [abs_of_nonneg (Real.sqrt_nonneg _)]; exact s3.trans (one_le_pow₀ (by norm_num))) (by rw [abs_one]; exact one_le_pow₀ (by norm_num)) s3
    rwa [one] at h

/-- palMappa in double precision. -/
theorem flMappa_err (R : Rounding fl) (hL : LibmOK L) {nf nx : ℝ → ℝ → ℝ × ℝ} (epv00 : ℝ → ℝ → Epv) {eq date δ : ℝ} (h0 : |eq - 2000| ≤ 1000) (h : |date - 51544.5| ≤ 365250)
    (h1 : |(nf 2400000.5 date).1 - (nx 2400000.5 date).1| ≤ δ) (h2 : |(nf 2400000.5 date).2 - (nx 2400000.5 date).2| ≤ δ) (hδ : δ ≤ 1e-14) (b1 : |(nx 2400000.5 date).1| ≤ 1e-3) (b2 : |(nx 2400000.5 date).2| ≤ 1e-3)
    (p1 : 0.95 ≤ len (epv00 2400000.5 date).ph) (p2 : len (epv00 2400000.5 date).ph ≤ 1.05) (p3 : len (epv00 2400000.5 date).pb ≤ 1.09) (p4 : len (epv00 2400000.5 date).vb ≤ 0.0185) :
    let o := flMappa fl L nf epv00 eq date
    let x := palMappa (iau2006 nx) epv00 eq date
    |o.pmt - x.pmt| ≤ 8e-13 ∧ len (fun i => o.eb i - x.eb i) ≤ 1.06e-14 ∧ len (fun i => o.ehn i - x.ehn i) ≤ 1.25e-14 ∧ |o.gr2e - x.gr2e| ≤ 3e-22 ∧ len (fun i => o.abv i - x.abv i) ≤ 2.5e-18 ∧
    |o.ab1 - x.ab1| ≤ 1.8e-16 ∧ Small (o.mat - x.mat) (1.8e-14 + 2 * δ) ∧
    o.ab1 ≤ 1 ∧ 0.99999999 ≤ x.ab1 ∧ len x.ehn = 1 ∧ 1.85e-8 ≤ x.gr2e ∧ x.gr2e ≤ 2.08e-8 ∧ len x.abv ≤ 1.07e-4 ∧ len x.eb ≤ 1.09 := by
  intro o x
  obtain ⟨c1, c2, -, c4, l1, l2, l3⟩ := flEvp_err R hL nx epv00 (date := date) (deqx := eq) (Or.inl h0)
  have ex : x = ⟨palEpjR date - eq, (palEvp (iau2006 nx) epv00 date eq).pb, (eraPn (palEvp (iau2006 nx) epv00 date eq).ph).2, 2 * 9.87063e-9 / (eraPn (palEvp (iau2006 nx) epv00 date eq).ph).1,
      fun i => (palEvp (iau2006 nx) epv00 date eq).vb i * palCR, √(1 - (eraPn (fun i => (palEvp (iau2006 nx) epv00 date eq).vb i * palCR)).1 * (eraPn (fun i => (palEvp (iau2006 nx) epv00 date eq).vb i * palCR)).1), palPrenut (iau2006 nx) eq date⟩ := rfl
  have eo : o = ⟨fl (flEpj fl date - eq), (flEvp fl L epv00 date eq).pb, (flPn fl (flEvp fl L epv00 date eq).ph).2, fl (fl (2 * fl 9.87063e-9) / (flPn fl (flEvp fl L epv00 date eq).ph).1),
      fun i => fl ((flEvp fl L epv00 date eq).vb i * fl 499.004782), fl (√(fl (1 - fl ((flPn fl (fun i => fl ((flEvp fl L epv00 date eq).vb i * fl 499.004782))).1 * (flPn fl (fun i => fl ((flEvp fl L epv00 date eq).vb i * fl 499.004782))).1)))), flPrenut fl L nf eq date⟩ := rfl
  rw [ex, eo]
  dsimp only
  have hm := flPrenut_small R hL h0 h h1 h2 hδ b1 b2
  have t0 : (1e-190 : ℝ) ≤ 1e-40 := tiny190.2
  replace c1 := c1 (p2.trans (by norm_num))
  replace c2 := c2 (p3.trans (by norm_num))
  replace c4 := c4 (p4.trans (by norm_num))
  clear ex eo
  generalize palPrenut (iau2006 nx) eq date = MX at *
  generalize flPrenut fl L nf eq date = MO at *
  generalize flEvp fl L epv00 date eq = O at *
  generalize palEvp (iau2006 nx) epv00 date eq = X at *
  generalize epv00 2400000.5 date = E at *
  generalize (1e-190 : ℝ) = t at *
  -- heliocentric direction and distance
  have hp : len (fun i => O.ph i - X.ph i) ≤ 1.02e-14 := c1.trans (by norm_num at *; linarith)
  obtain ⟨g1, g2⟩ := flPn_both R hp (by norm_num) (by rw [l1]; exact p1) (by rw [l1]; exact p2)
  have lx : 0 < len X.ph := by rw [l1]; norm_num at *; linarith
  have gr : |fl (2 * fl 9.87063e-9) - 2 * 9.87063e-9| ≤ 5e-24 :=
    R.mulB _ (noerr (2 : ℝ)) (R.cst 9.87063e-9 (M := 9.87063e-9) (by norm_num) (by norm_num) (by norm_num)) (by norm_num : |(2 : ℝ)| ≤ 2) (by norm_num : |(9.87063e-9 : ℝ)| ≤ 9.87063e-9) (by norm_num) (by norm_num)
  have gq : |fl (fl (2 * fl 9.87063e-9) / (flPn fl O.ph).1) - 2 * 9.87063e-9 / len X.ph| ≤ 3e-22 := by
    have hd : |(flPn fl O.ph).1 - len X.ph| ≤ 1.2e-14 * |len X.ph| := by
      rw [abs_of_pos lx]; refine g1.trans ?_; rw [l1]; norm_num at *; linarith
    have q := R.quot gr hd (by norm_num) lx.ne' (by
      rw [abs_of_pos lx, l1, div_le_iff₀ (by norm_num at *; linarith)]; norm_num at *; linarith)
    refine q.trans ?_
    rw [abs_of_pos lx, l1, abs_of_pos (by norm_num : (0 : ℝ) < 2 * 9.87063e-9)]
    have z : (1 : ℝ) / 10 ^ 200 ≤ 1e-30 := by norm_num
    have : 1.0012 * (5e-24 + (1.2e-14 + 1.1104e-16) * (2 * 9.87063e-9)) / len E.ph ≤ 2.9e-22 := by
      rw [div_le_iff₀ (by norm_num at *; linarith)]; norm_num at *; linarith
    norm_num at *; linarith
  -- aberration vector
  have hcr : |fl 499.004782 - 499.004782| ≤ 5.6e-14 := (R.cst 499.004782 (M := 499.004782) (by norm_num) (by norm_num) (by norm_num)).trans (by norm_num)
  have vb : len (fun i => O.vb i - X.vb i) ≤ 2.15e-21 := c4.trans (by norm_num at *; linarith)
  have lv : len X.vb ≤ 2.1413e-7 := by rw [l3]; norm_num at *; linarith
  have ac : ∀ i, |fl (O.vb i * fl 499.004782) - X.vb i * palCR| ≤ 1.2e-18 := fun i =>
    R.mulB _ ((comp_le_len _ i).trans vb) hcr ((comp_le_len _ i).trans lv) (by norm_num : |(499.004782 : ℝ)| ≤ 499.004782) (by norm_num) (by norm_num)
  have al := len_le_of_comp ac
  have la : len (fun i => X.vb i * palCR) ≤ 1.07e-4 := by
    have : (fun i => X.vb i * palCR) = fun i => palCR * X.vb i := by funext i; ring
    rw [this, len_smul, abs_of_pos (by unfold palCR; norm_num)]
    unfold palCR
    norm_num at *; linarith
  have hv : |(flPn fl (fun i => fl (O.vb i * fl 499.004782))).1 - (eraPn (fun i => X.vb i * palCR)).1| ≤ 1e-17 := by
    rw [flPn_fst, eraPn_fst]
    have r := (len_rev_tri _ _).trans al
    have r' := abs_le.1 r
    have m := (flPm_err R (fun i => fl (O.vb i * fl 499.004782)) (by norm_num at *; linarith)).2
    have z : (1 : ℝ) / 10 ^ 96 ≤ 1e-30 := by norm_num
    generalize (1 : ℝ) / 10 ^ 96 = w at *
    have := abs_sub_le (flPm fl (fun i => fl (O.vb i * fl 499.004782))) (len (fun i => fl (O.vb i * fl 499.004782))) (len (fun i => X.vb i * palCR))
    norm_num at *; linarith
  have hV : |(eraPn (fun i => X.vb i * palCR)).1| ≤ 1.08e-4 := by rw [eraPn_fst, abs_of_nonneg (len_nonneg _)]; exact la.trans (by norm_num)
  obtain ⟨k1, k2, k3⟩ := flAb1_err R hv hV
  -- proper motion interval
  obtain ⟨j1, j2⟩ := flEpj_near R h
  have pm : |fl (flEpj fl date - eq) - (palEpjR date - eq)| ≤ 8e-13 := by
    refine R.add_err2 (δ := 5.6e-13) (B := 2000) _ (by rw [sub_sub_sub_cancel_right]; exact j1) ?_ (by norm_num) (by norm_num)
    have := abs_sub (palEpjR date - 2000) (eq - 2000)
    rw [sub_sub_sub_cancel_right] at this
    linarith
  have un : len (eraPn X.ph).2 = 1 := by
    rw [pn_val lx.ne', len_smul, abs_of_pos (inv_pos.2 lx), inv_mul_cancel₀ lx.ne']
  rw [eraPn_fst]
  refine ⟨pm, c2.trans (by norm_num at *; linarith), g2.trans (by norm_num), gq, al.trans (by norm_num), k1, hm, k2, k3, un, ?_, ?_, la, by rw [l2]; exact p3⟩
  · rw [l1, le_div_iff₀ (by norm_num at *; linarith)]; norm_num at *; linarith
  · rw [l1, div_le_iff₀ (by norm_num at *; linarith)]; norm_num at *; linarith

end Pal
