import Verif.Lemmas.Cubic

/-!
# Properties C37, C38: radial distortion, polar motion
-/

namespace Pal.Props
open Pal Pal.Spec Real Matrix

/-- **C37** (distorting what was undistorted) palUnpcd always delivers a point that palPcd maps back onto the one given: for every distortion coefficient and every point. -/
theorem C37_pcd_unpcd (disco x y : ℝ) :
    let u := palUnpcd disco x y
    palPcd disco u.1 u.2 = (x, y) := by
  dsimp only
  by_cases hr : √(x * x + y * y) ≠ 0
  · by_cases hd : disco ≠ 0
    · have hf := unpcdF_root (lt_of_le_of_ne (Real.sqrt_nonneg _) (Ne.symm hr)) hd
      rw [unpcd_eq _ _ _ ⟨hr, hd⟩]
      generalize unpcdF disco (√(x * x + y * y)) = f at *
      have hs := hyp_sq x y
      unfold palPcd
      dsimp only
      generalize √(x * x + y * y) = rp at *
      have e : x * (f / rp) * (x * (f / rp)) + y * (f / rp) * (y * (f / rp)) = f ^ 2 := by
        have : x * (f / rp) * (x * (f / rp)) + y * (f / rp) * (y * (f / rp)) = (x * x + y * y) * (f / rp) ^ 2 := by ring
        rw [this, ← hs]; field_simp
      rw [e]
      have e2 : f / rp * (1 + disco * f ^ 2) = 1 := by field_simp; linarith
      rw [mul_assoc, mul_assoc, e2, mul_one, mul_one]
    · rw [not_not] at hd
      subst hd
      simp [palUnpcd, palPcd]
  · rw [not_not] at hr
    obtain ⟨rfl, rfl⟩ := hyp_eq_zero.1 hr
    simp [palUnpcd, palPcd]

/-- **C37** (undistorting what was distorted) palUnpcd exactly undoes palPcd for pincushion distortion everywhere, and for barrel distortion in the disc where the distortion is
monotonic (radius squared at most 1/(3|disco|)). -/
theorem C37_unpcd_pcd (disco x y : ℝ) (h : 0 ≤ disco ∨ -3 * disco * (x * x + y * y) ≤ 1) :
    let p := palPcd disco x y
    palUnpcd disco p.1 p.2 = (x, y) := by
  dsimp only
  by_cases hd0 : disco = 0
  · subst hd0; simp [palUnpcd, palPcd]
  by_cases hr0 : √(x * x + y * y) = 0
  · obtain ⟨rfl, rfl⟩ := hyp_eq_zero.1 hr0
    simp [palUnpcd, palPcd]
  have hr : 0 < √(x * x + y * y) := lt_of_le_of_ne (Real.sqrt_nonneg _) (Ne.symm hr0)
  have hs := hyp_sq x y
  have hf : 0 < 1 + disco * (x * x + y * y) := by
    rcases h with h | h
    · have : 0 ≤ disco * (x * x + y * y) := mul_nonneg h (add_nonneg (mul_self_nonneg _) (mul_self_nonneg _))
      linarith
    · linarith
  have hval : palPcd disco x y = (x * (1 + disco * (x * x + y * y)), y * (1 + disco * (x * x + y * y))) := rfl
  rw [hval]
  dsimp only
  have hrp : √(x * (1 + disco * (x * x + y * y)) * (x * (1 + disco * (x * x + y * y))) + y * (1 + disco * (x * x + y * y)) * (y * (1 + disco * (x * x + y * y)))) =
      √(x * x + y * y) * (1 + disco * (x * x + y * y)) := by
    have : x * (1 + disco * (x * x + y * y)) * (x * (1 + disco * (x * x + y * y))) + y * (1 + disco * (x * x + y * y)) * (y * (1 + disco * (x * x + y * y))) =
      (x * x + y * y) * ((1 + disco * (x * x + y * y)) * (1 + disco * (x * x + y * y))) := by ring
    rw [this, Real.sqrt_mul (add_nonneg (mul_self_nonneg _) (mul_self_nonneg _)), Real.sqrt_mul_self hf.le]
  have hrpp : 0 < √(x * x + y * y) * (1 + disco * (x * x + y * y)) := mul_pos hr hf
  have hroot := unpcdF_root hrpp hd0
  rw [unpcd_eq _ _ _ ⟨by rw [hrp]; exact hrpp.ne', hd0⟩, hrp]
  have hrange := fun hneg hm hroot => unpcdF_range (disco := disco) (r := √(x * x + y * y)) hrpp hneg hm hroot
  generalize unpcdF disco (√(x * x + y * y) * (1 + disco * (x * x + y * y))) = f at *
  generalize √(x * x + y * y) = r at *
  rw [← hs] at hf hroot hrange h ⊢
  have hfr : f = r := by
    rcases lt_or_gt_of_ne hd0 with hneg | hpos
    · have hm : -3 * disco * (r * r) ≤ 1 := by
        rcases h with h | h
        · linarith
        · exact h
      obtain ⟨g1, g2⟩ := hrange hneg hm (by ring)
      -- the cubic is strictly increasing between
      by_contra hne
      have e : (f - r) * (disco * (f * f + f * r + r * r) + 1) = 0 := by linear_combination hroot
      have h2 := (mul_eq_zero.1 e).resolve_left (sub_ne_zero.2 hne)
      have : (f - r) ^ 2 > 0 := by have := sub_ne_zero.2 hne; positivity
      nlinarith
    · have e : (f - r) * (disco * (f * f + f * r + r * r) + 1) = 0 := by linear_combination hroot
      have : 0 < disco * (f * f + f * r + r * r) + 1 := by
        have : 0 ≤ f * f + f * r + r * r := by nlinarith [sq_nonneg (f + r), sq_nonneg f]
        positivity
      have := (mul_eq_zero.1 e).resolve_right this.ne'
      linarith
  rw [hfr]
  have hne := hf.ne'
  have e2 : (1 + disco * (r * r)) * (r / (r * (1 + disco * (r * r)))) = 1 := by
    generalize 1 + disco * (r * r) = g at *; field_simp
  rw [mul_assoc, mul_assoc, e2, mul_one, mul_one]

example : (0 : ℝ) ≤ 147.069 ∨ -3 * (147.069 : ℝ) * (0.1 * 0.1 + 0.2 * 0.2) ≤ 1 := by left; norm_num
example : (0 : ℝ) ≤ -0.3333 ∨ -3 * (-0.3333 : ℝ) * (0.1 * 0.1 + 0.2 * 0.2) ≤ 1 := by right; norm_num

/-! ## Polar motion -/

theorem polmo_eq (elongm phim xp yp : ℝ) : palPolmo elongm phim xp yp =
    (let t := (axisY xp * axisX yp).mulVec (dir elongm phim)
     let n := (axisY xp * axisX yp).mulVec ![0, 0, 1]
     let cph := √(t 0 * t 0 + t 1 * t 1)
     if cph = 0 then none
     else some
      { elong := atan2 (t 1) (t 0)
        phi := atan2 (t 2) cph
        daz := atan2 (-(-n 0 * (t 1 / cph) + n 1 * (t 0 / cph))) (-((n 0 * (t 0 / cph) + n 1 * (t 1 / cph)) * t 2 - n 2 * cph)) }) := by
  have ht : (axisY xp * axisX yp).mulVec (dir elongm phim) =
      ![cos elongm * cos phim * cos xp - (-(sin elongm * cos phim) * sin yp + sin phim * cos yp) * sin xp,
        sin elongm * cos phim * cos yp + sin phim * sin yp,
        cos elongm * cos phim * sin xp + (-(sin elongm * cos phim) * sin yp + sin phim * cos yp) * cos xp] := by
    rw [← mulVec_mulVec]
    funext i
    fin_cases i <;> simp [axisX, axisY, dir, mulVec, dotProduct, Fin.sum_univ_three] <;> ring
  have hn : (axisY xp * axisX yp).mulVec ![0, 0, 1] = ![-sin xp * cos yp, sin yp, cos xp * cos yp] := by
    rw [← mulVec_mulVec]
    funext i
    fin_cases i <;> simp [axisX, axisY, mulVec, dotProduct, Fin.sum_univ_three]
  have ite1 : ∀ x y : ℝ, (if x ≠ 0 ∨ y ≠ 0 then atan2 y x else 0) = atan2 y x := by
    intro x y
    by_cases h : x ≠ 0 ∨ y ≠ 0
    · rw [if_pos h]
    · rw [if_neg h]
      rw [not_or, not_not, not_not] at h
      rw [h.1, h.2, atan2_zero]
  have ite2 : ∀ x y : ℝ, (if x ≠ 0 ∨ y ≠ 0 then atan2 (-y) (-x) else 0) = atan2 (-y) (-x) := by
    intro x y
    by_cases h : x ≠ 0 ∨ y ≠ 0
    · rw [if_pos h]
    · rw [if_neg h]
      rw [not_or, not_not, not_not] at h
      rw [h.1, h.2, neg_zero, atan2_zero]
  have ht0 := congrFun ht 0
  have ht1 := congrFun ht 1
  have ht2 := congrFun ht 2
  have hn0 := congrFun hn 0
  have hn1 := congrFun hn 1
  have hn2 := congrFun hn 2
  simp only [Matrix.cons_val_zero, Matrix.cons_val_one, Matrix.cons_val] at ht0 ht1 ht2 hn0 hn1 hn2
  clear ht hn
  unfold palPolmo
  dsimp only
  rw [ite1, ite2, ht0, ht1, ht2, hn0, hn1, hn2]

/-- **C38** (geometry) Unless the site is at the celestial ephemeris pole, the true longitude and latitude are those of the site vector turned by the polar motion (about the y axis
of longitude 90° by xp after a turn about the x axis by yp), and daz is the correction from celestial to terrestrial azimuth: the terrestrial pole appears at azimuth minus daz. -/
theorem C38_polmo (elongm phim xp yp : ℝ) (o : PolmoOut) (h : palPolmo elongm phim xp yp = some o) :
    dir o.elong o.phi = (axisY xp * axisX yp).mulVec (dir elongm phim) ∧ o.elong ∈ Set.Ioc (-π) π ∧ |o.phi| < π / 2 ∧
    (let n := (axisY xp * axisX yp).mulVec ![0, 0, 1]
     |cos phim| * cos o.daz = dot n (northAt o.elong o.phi) ∧ |cos phim| * sin o.daz = -dot n (eastAt o.elong)) := by
  have hR : IsRotation (axisY xp * axisX yp) := rot_mul (rot_axisY _) (rot_axisX _)
  rw [polmo_eq] at h
  have hunit := rot_unit hR (dot_dir elongm phim)
  have hnu : dot ((axisY xp * axisX yp).mulVec ![0, 0, 1]) ((axisY xp * axisX yp).mulVec ![0, 0, 1]) = 1 := by
    rw [rot_dot hR, dot_eq]; simp
  have hnt : dot ((axisY xp * axisX yp).mulVec ![0, 0, 1]) ((axisY xp * axisX yp).mulVec (dir elongm phim)) = sin phim := by
    rw [rot_dot hR, dot_eq]; simp [dir]
  dsimp only at h ⊢
  generalize (axisY xp * axisX yp).mulVec (dir elongm phim) = t at *
  generalize (axisY xp * axisX yp).mulVec ![0, 0, 1] = n at *
  have hsq := hyp_sq (t 0) (t 1)
  have hnn := hyp_nonneg (t 0) (t 1)
  have hce := hyp_cos_atan2 (t 1) (t 0)
  have hse := hyp_sin_atan2 (t 1) (t 0)
  split_ifs at h with h0
  simp only [Option.some.injEq] at h
  subst h
  dsimp only
  have hpos : 0 < √(t 0 * t 0 + t 1 * t 1) := lt_of_le_of_ne hnn (Ne.symm h0)
  have hd : dir (atan2 (t 1) (t 0)) (atan2 (t 2) (√(t 0 * t 0 + t 1 * t 1))) = t := by
    have := sph_of_cart (t 0) (t 1) (t 2) (atan2 (t 1) (t 0)) (fun _ => Or.inl rfl)
    rw [← dot_eq, hunit, Real.sqrt_one] at this
    simp only [one_mul] at this
    funext i
    refine (congrFun this i).trans ?_
    fin_cases i <;> rfl
  refine ⟨hd, atan2_mem _ _, ?_, ?_⟩
  · have hle := abs_atan2_le (y := t 2) hnn
    refine lt_of_le_of_ne hle ?_
    intro he
    have hc : cos (atan2 (t 2) (√(t 0 * t 0 + t 1 * t 1))) = 0 := by rw [← Real.cos_abs, he, Real.cos_pi_div_two]
    have h1 := congrFun hd 0
    have h2 := congrFun hd 1
    simp [dir, hc] at h1 h2
    rw [← h1, ← h2] at h0
    simp at h0
  · generalize hg : √(t 0 * t 0 + t 1 * t 1) = g at *
    have hcl : cos (atan2 (t 1) (t 0)) = t 0 / g := by rw [eq_div_iff h0]; linarith
    have hsl : sin (atan2 (t 1) (t 0)) = t 1 / g := by rw [eq_div_iff h0]; linarith
    have hcp : cos (atan2 (t 2) g) = g := by
      have := hyp_cos_atan2 (t 2) g
      rw [hsq, ← dot_eq, hunit, Real.sqrt_one, one_mul] at this
      exact this
    have hsp : sin (atan2 (t 2) g) = t 2 := by
      have := hyp_sin_atan2 (t 2) g
      rw [hsq, ← dot_eq, hunit, Real.sqrt_one, one_mul] at this
      exact this
    have hN : dot n (northAt (atan2 (t 1) (t 0)) (atan2 (t 2) g)) = -((n 0 * (t 0 / g) + n 1 * (t 1 / g)) * t 2 - n 2 * g) := by
      rw [dot_eq]; simp only [northAt, Matrix.cons_val_zero, Matrix.cons_val_one, Matrix.cons_val]; rw [hcl, hsl, hcp, hsp]; ring
    have hE : dot n (eastAt (atan2 (t 1) (t 0))) = -n 0 * (t 1 / g) + n 1 * (t 0 / g) := by
      rw [dot_eq]; simp only [eastAt, Matrix.cons_val_zero, Matrix.cons_val_one, Matrix.cons_val]; rw [hcl, hsl]; ring
    rw [← hN, ← hE]
    have hnorm : dot n (northAt (atan2 (t 1) (t 0)) (atan2 (t 2) g)) * dot n (northAt (atan2 (t 1) (t 0)) (atan2 (t 2) g)) +
        -dot n (eastAt (atan2 (t 1) (t 0))) * -dot n (eastAt (atan2 (t 1) (t 0))) = cos phim * cos phim := by
      rw [hN, hE]
      have hu1 : t 0 / g * (t 0 / g) + t 1 / g * (t 1 / g) = 1 := by
        rw [div_mul_div_comm, div_mul_div_comm, ← add_div, ← hsq, div_self (mul_self_ne_zero.2 h0)]
      have ht0 : t 0 = g * (t 0 / g) := by field_simp
      have ht1 : t 1 = g * (t 1 / g) := by field_simp
      rw [dot_eq] at hnu hnt hunit
      have hph := sin_sq_add_cos_sq phim
      rw [show cos phim * cos phim = 1 - sin phim * sin phim by linear_combination hph, ← hnt]
      generalize t 0 / g = c at *
      generalize t 1 / g = s at *
      rw [ht0, ht1] at hunit ⊢
      generalize t 2 = z at *
      have hgz : g * g + z * z = 1 := by linear_combination hunit - g ^ 2 * hu1
      clear hd hN hE ht0 ht1 hcl hsl hcp hsp hce hse hsq hg hunit hph hnt hR
      generalize n 0 = p at *
      generalize n 1 = q at *
      generalize n 2 = r at *
      linear_combination (p ^ 2 + q ^ 2) * hu1 + (p * c + q * s) ^ 2 * hgz + r ^ 2 * hgz - (p^2+q^2) * hu1 + hnu + (p ^ 2 + q ^ 2) * hu1
    have e1 := hyp_cos_atan2 (-dot n (eastAt (atan2 (t 1) (t 0)))) (dot n (northAt (atan2 (t 1) (t 0)) (atan2 (t 2) g)))
    have e2 := hyp_sin_atan2 (-dot n (eastAt (atan2 (t 1) (t 0)))) (dot n (northAt (atan2 (t 1) (t 0)) (atan2 (t 2) g)))
    rw [hnorm, Real.sqrt_mul_self_eq_abs] at e1 e2
    exact ⟨e1, e2⟩

/-- **C38** (no polar motion) With xp = yp = 0 palPolmo returns the latitude unchanged, the longitude unchanged up to whole turns, and no azimuth correction. -/
theorem C38_polmo_zero (elongm phim : ℝ) (h : |phim| < π / 2) :
    ∃ o, palPolmo elongm phim 0 0 = some o ∧ SameAngle o.elong elongm ∧ o.phi = phim ∧ o.daz = 0 := by
  have hR : axisY 0 * axisX 0 = 1 := by
    ext i j; fin_cases i <;> fin_cases j <;> simp [axisX, axisY, Matrix.mul_apply, Fin.sum_univ_three]
  have hc := Real.cos_pos_of_mem_Ioo (abs_lt.1 h)
  have hsome : (palPolmo elongm phim 0 0).isSome := by
    rw [polmo_eq, hR]
    simp only [one_mulVec]
    rw [if_neg]
    · rfl
    · rw [hyp_eq_zero]
      rintro ⟨h1, h2⟩
      simp [dir, hc.ne'] at h1 h2
      have := sin_sq_add_cos_sq elongm
      rw [h1, h2] at this
      norm_num at this
  obtain ⟨o, ho⟩ := Option.isSome_iff_exists.1 hsome
  obtain ⟨h1, h2, h3, h4, h5⟩ := C38_polmo _ _ _ _ _ ho
  rw [hR, one_mulVec] at h1 h4 h5
  obtain ⟨e1, e2⟩ := dir_inj h1 h3.le h.le
  refine ⟨o, ho, e2 (by rw [e1]; exact hc.ne'), e1, ?_⟩
  rw [e1] at h4
  simp [dot_eq, northAt, eastAt, abs_of_pos hc, hc.ne'] at h4 h5
  -- daz is an atan2 value
  have hmem : o.daz ∈ Set.Ioc (-π) π := by
    rw [polmo_eq] at ho
    dsimp only at ho
    split_ifs at ho
    simp only [Option.some.injEq] at ho
    rw [← ho]; exact atan2_mem _ _
  have hs : SameAngle o.daz 0 := sincos_same (by rw [h5, sin_zero]) (by rw [h4, cos_zero])
  have hp := Real.pi_pos
  exact hs.eq_of_Ioc (c := -π) ⟨hmem.1, by linarith [hmem.2]⟩ ⟨by linarith, by linarith⟩

/-- **C38** (failure) palPolmo divides by zero exactly for a site at the celestial ephemeris pole, for instance at the terrestrial pole without polar motion. -/
theorem C38_polmo_pole (elongm phim xp yp : ℝ) :
    (palPolmo elongm phim xp yp = none ↔ ∃ s : ℝ, (axisY xp * axisX yp).mulVec (dir elongm phim) = ![0, 0, s]) ∧
    palPolmo elongm (π / 2) 0 0 = none := by
  have key : ∀ phim xp yp, palPolmo elongm phim xp yp = none ↔ ∃ s : ℝ, (axisY xp * axisX yp).mulVec (dir elongm phim) = ![0, 0, s] := by
    intro phim xp yp
    rw [polmo_eq]
    dsimp only
    generalize (axisY xp * axisX yp).mulVec (dir elongm phim) = t
    constructor
    · intro h
      split_ifs at h with h0
      obtain ⟨h1, h2⟩ := hyp_eq_zero.1 h0
      exact ⟨t 2, by funext i; fin_cases i <;> simp [h1, h2]⟩
    · rintro ⟨s, rfl⟩
      rw [if_pos]
      simp
  refine ⟨key _ _ _, (key _ _ _).2 ⟨1, ?_⟩⟩
  have hR : axisY 0 * axisX 0 = 1 := by
    ext i j; fin_cases i <;> fin_cases j <;> simp [axisX, axisY, Matrix.mul_apply, Fin.sum_univ_three]
  rw [hR, one_mulVec]
  funext i; fin_cases i <;> simp [dir]

end Pal.Props
