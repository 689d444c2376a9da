import Verif.Model.FlMapAll
import Verif.Lemmas.MapSens3
import Verif.Props.MapInv

/-!
# Mean to apparent place and back, from catalogue place and date, in double precision

Here the parameter block is the one palMappa computes in double precision, and the reference is exact arithmetic throughout.
-/

namespace Pal.Props
open Real Pal.Spec Matrix

variable {fl : ℝ → ℝ} {L : Libm}

/-- The inputs the bounds are for: an equinox and a date within 1000 years of 2000, nutation angles of at most 1e-3 radians that the library gives to δ ≤ 1e-14, and an Earth between 0.95 and 1.05 AU from the Sun, at most 1.09 AU from the barycentre and no faster than
0.0185 AU a day. -/
structure DateOK (nf nx : ℝ → ℝ → ℝ × ℝ) (epv00 : ℝ → ℝ → Epv) (eq date δ : ℝ) : Prop where
  eq_range : |eq - 2000| ≤ 1000
  date_range : |date - 51544.5| ≤ 365250
  dpsi : |(nf 2400000.5 date).1 - (nx 2400000.5 date).1| ≤ δ
  deps : |(nf 2400000.5 date).2 - (nx 2400000.5 date).2| ≤ δ
  err : δ ≤ 1e-14
  dpsi_range : |(nx 2400000.5 date).1| ≤ 1e-3
  deps_range : |(nx 2400000.5 date).2| ≤ 1e-3
  near : 0.95 ≤ len (epv00 2400000.5 date).ph
  far : len (epv00 2400000.5 date).ph ≤ 1.05
  bary : len (epv00 2400000.5 date).pb ≤ 1.09
  speed : len (epv00 2400000.5 date).vb ≤ 0.0185

theorem DateOK.block (R : Rounding fl) (hL : LibmOK L) {nf nx : ℝ → ℝ → ℝ × ℝ} {epv00 : ℝ → ℝ → Epv} {eq date δ : ℝ} (h : DateOK nf nx epv00 eq date δ) :
    BlockClose (flMappa fl L nf epv00 eq date) (palMappa (iau2006 nx) epv00 eq date) (1.8e-14 + 2 * δ) := by
  obtain ⟨a1, a2, a3, a4, a5, a6, a7, a8, a9, a10, a11, a12, a13, a14⟩ := flMappa_err R hL epv00 h.eq_range h.date_range h.dpsi h.deps h.err h.dpsi_range h.deps_range h.near h.far h.bary h.speed
  have e := h.err
  refine ⟨a1, a2, a3, a4, a5, a6, a7, a8, a9, ?_, a10, a11, a12, a13, a14, ((C97_rotations nx).2.2 eq date).2.1, by norm_num at *; linarith⟩
  refine Real.sqrt_le_one.2 ?_
  have := mul_self_nonneg (eraPn (fun i => (palEvp (iau2006 nx) epv00 date eq).vb i * palCR)).1
  linarith

/-- C139: palMappa followed by palMapqkz in double precision: the apparent place of a star without proper motion and parallax is that of exact arithmetic to 5.3e-14 + 2.1δ radians, for every mean place, with the right ascension between 0 and 2π. -/
theorem C139_mapqkz (R : Rounding fl) (hL : LibmOK L) (nz : Bool) (nf nx : ℝ → ℝ → ℝ × ℝ) (epv00 : ℝ → ℝ → Epv) (eq date δ : ℝ) (h : DateOK nf nx epv00 eq date δ) (rm dm : ℝ) :
    let o := flMapqkz fl L nz rm dm (flMappa fl L nf epv00 eq date)
    let x := palMapqkz rm dm (palMappa (iau2006 nx) epv00 eq date)
    0 ≤ o.1 ∧ o.1 ≤ flD2PI fl ∧ |o.2| ≤ π / 2 + 4.5e-16 ∧ len (fun i => dir o.1 o.2 i - dir x.1 x.2 i) ≤ 5.3e-14 + 2.1 * δ := by
  intro o x
  have δ0 := (abs_nonneg _).trans h.dpsi
  have B := h.block R hL
  have eo : o = flMapqkz fl L nz rm dm (flMappa fl L nf epv00 eq date) := rfl
  have ex : x = palMapqkz rm dm (palMappa (iau2006 nx) epv00 eq date) := rfl
  rw [eo, ex]
  clear eo ex
  generalize flMappa fl L nf epv00 eq date = am at *
  generalize palMappa (iau2006 nx) epv00 eq date = ax at *
  obtain ⟨a, b, c, d⟩ := C123_mapqkz R hL nz am B.he B.hg.1 B.hg.2 (B.hv.trans (by norm_num)) (B.ha.trans' (by norm_num)) B.ab1o (fun i j => (B.horth i j).1) rm dm
  refine ⟨a, b, c, ?_⟩
  have s := B.chain (len_dir rm dm) (len_dir rm dm) (a := 0) (by simp [len]) (by norm_num) (Or.inl ⟨rfl, rfl⟩)
  have e : ∀ y : Amprms, palMapqkz rm dm y = mapFinish y.mat (fun i => y.ab1 * defl0 y.gr2e y.ehn (dir rm dm) i + (1 + dot (defl0 y.gr2e y.ehn (dir rm dm)) y.abv / (y.ab1 + 1)) * y.abv i) := mapqkz_eq rm dm
  have s' : len (fun i => dir (palMapqkz rm dm am).1 (palMapqkz rm dm am).2 i - dir (palMapqkz rm dm ax).1 (palMapqkz rm dm ax).2 i) ≤ 1.964 * 0 + 1.23e-14 + 1.003 * (1.8e-14 + 2 * δ) := by
    rw [e am, e ax]; exact s
  have t := len_tri (dir (flMapqkz fl L nz rm dm am).1 (flMapqkz fl L nz rm dm am).2) (dir (palMapqkz rm dm am).1 (palMapqkz rm dm am).2) (dir (palMapqkz rm dm ax).1 (palMapqkz rm dm ax).2)
  refine t.trans ((add_le_add d s').trans ?_)
  norm_num; linarith

/-- C139: palMap in double precision, for a star with proper motions of at most 3e-4 rad/year, a parallax of at most 1 arcsec and a radial velocity of at most 300 km/s, at most 99.9 years from the equinox (which is also the epoch of the place): the apparent place is that of
exact arithmetic to 9.5e-14 + 2.1δ radians. -/
theorem C139_map (R : Rounding fl) (hL : LibmOK L) (nz : Bool) (nf nx : ℝ → ℝ → ℝ × ℝ) (epv00 : ℝ → ℝ → Epv) (eq date δ : ℝ) (h : DateOK nf nx epv00 eq date δ) (ht : |palEpjR date - eq| ≤ 99.9)
    (rm dm pr pd px rv : ℝ) (hpr : |pr| ≤ 3e-4) (hpd : |pd| ≤ 3e-4) (hpx : |px| ≤ 1) (hrv : |rv| ≤ 300) :
    let o := flMap fl L nz nf epv00 rm dm pr pd px rv eq date
    let x := palMap (iau2006 nx) epv00 rm dm pr pd px rv eq date
    0 ≤ o.1 ∧ o.1 ≤ flD2PI fl ∧ |o.2| ≤ π / 2 + 4.5e-16 ∧ len (fun i => dir o.1 o.2 i - dir x.1 x.2 i) ≤ 9.5e-14 + 2.1 * δ := by
  intro o x
  have δ0 := (abs_nonneg _).trans h.dpsi
  have B := h.block R hL
  have ht' : |(palMappa (iau2006 nx) epv00 eq date).pmt| ≤ 99.9 := ht
  have eo : o = flMapqk fl L nz rm dm pr pd px rv (flMappa fl L nf epv00 eq date) := rfl
  have ex : x = palMapqk rm dm pr pd px rv (palMappa (iau2006 nx) epv00 eq date) := rfl
  rw [eo, ex]
  clear eo ex
  generalize flMappa fl L nf epv00 eq date = am at *
  generalize palMappa (iau2006 nx) epv00 eq date = ax at *
  have htm : |am.pmt| ≤ 100 := by
    have := abs_sub_abs_le_abs_sub am.pmt ax.pmt
    have := B.pmt
    norm_num at *; linarith
  obtain ⟨a, b, c, d⟩ := C123_mapqk R hL nz am B.he B.hg.1 B.hg.2 (B.hv.trans (by norm_num)) (B.ha.trans' (by norm_num)) B.ab1o (fun i j => (B.horth i j).1) htm B.heb rm dm pr pd px rv hpr hpd hpx hrv
  refine ⟨a, b, c, ?_⟩
  have e : ∀ y : Amprms, palMapqk rm dm pr pd px rv y = mapFinish y.mat (fun i => y.ab1 * defl0 y.gr2e y.ehn (eraPn (space0 rm dm pr pd px rv y)).2 i + (1 + dot (space0 rm dm pr pd px rv y) y.abv / (y.ab1 + 1)) * y.abv i) := fun y => by
    unfold palMapqk
    dsimp only
    rw [eraS2c_eq, eraPdp_eq, eraPdp_eq]
    rfl
  have ebx : ∀ i, |ax.eb i| ≤ 1.1 := fun i => (comp_le_len ax.eb i).trans (B.ebx.trans (by norm_num))
  have hs := B.space rm dm hpr hpd hpx hrv
  have n1 := len_le_of_comp (fun i => (flSpace_err R hL (am := am) rm dm pr pd px rv hpr hpd hpx hrv htm B.heb i).2)
  have n2 := len_le_of_comp (fun i => (flSpace_err R hL (am := ax) rm dm pr pd px rv hpr hpd hpx hrv (ht'.trans (by norm_num)) ebx i).2)
  have l1 := abs_le.1 ((len_rev_tri (space0 rm dm pr pd px rv am) (dir rm dm)).trans n1)
  have l2 := abs_le.1 ((len_rev_tri (space0 rm dm pr pd px rv ax) (dir rm dm)).trans n2)
  have s : len (fun i => dir (palMapqk rm dm pr pd px rv am).1 (palMapqk rm dm pr pd px rv am).2 i - dir (palMapqk rm dm pr pd px rv ax).1 (palMapqk rm dm pr pd px rv ax).2 i) ≤ 1.964 * 1e-15 + 1.23e-14 + 1.003 * (1.8e-14 + 2 * δ) := by
    rw [e am, e ax]
    rw [len_dir] at l1 l2
    have p0 : 0.84 ≤ len (space0 rm dm pr pd px rv am) := by norm_num at *; linarith
    have P0 : 0.84 ≤ len (space0 rm dm pr pd px rv ax) := by norm_num at *; linarith
    have P1 : len (space0 rm dm pr pd px rv ax) ≤ 1.2 := by norm_num at *; linarith
    generalize space0 rm dm pr pd px rv am = p at *
    generalize space0 rm dm pr pd px rv ax = P at *
    have p0' : 0 < len p := lt_of_lt_of_le (by norm_num) p0
    have P0' : 0 < len P := lt_of_lt_of_le (by norm_num) P0
    have u1 : len (eraPn p).2 = 1 := by rw [pn_val p0'.ne', len_smul, abs_of_pos (inv_pos.2 p0'), inv_mul_cancel₀ p0'.ne']
    have u2 : len (eraPn P).2 = 1 := by rw [pn_val P0'.ne', len_smul, abs_of_pos (inv_pos.2 P0'), inv_mul_cancel₀ P0'.ne']
    refine B.chain u1 u2 ?_ (by norm_num) (Or.inr ⟨P1, hs.trans (by norm_num)⟩)
    rw [pn_val p0'.ne', pn_val P0'.ne']
    have u := unit_close p0' P0'
    have ee : (fun i => (len p)⁻¹ * p i - (len P)⁻¹ * P i) = fun i => p i / len p - P i / len P := by funext i; rw [inv_mul_eq_div, inv_mul_eq_div]
    rw [ee]
    refine abs_le_of_sq_le_sq' (a := len (fun i => p i / len p - P i / len P)) ?_ (by norm_num) |>.2
    have s1 := pow_le_pow_left₀ (len_nonneg _) hs 2
    have s2 : (0.84 : ℝ) * 0.84 ≤ len p * len P := mul_le_mul p0 P0 (by norm_num) p0'.le
    have s3 : (0.84 : ℝ) * 0.84 * len (fun i => p i / len p - P i / len P) ^ 2 ≤ len p * len P * len (fun i => p i / len p - P i / len P) ^ 2 := mul_le_mul_of_nonneg_right s2 (sq_nonneg _)
    clear hs n1 n2 e ee
    norm_num at *; linarith
  have t := len_tri (dir (flMapqk fl L nz rm dm pr pd px rv am).1 (flMapqk fl L nz rm dm pr pd px rv am).2) (dir (palMapqk rm dm pr pd px rv am).1 (palMapqk rm dm pr pd px rv am).2) (dir (palMapqk rm dm pr pd px rv ax).1 (palMapqk rm dm pr pd px rv ax).2)
  refine t.trans ((add_le_add d s).trans ?_)
  norm_num; linarith

/-- C139: palAmp in double precision, for an apparent place at least 3.8 degrees from the Sun: the mean place is that of exact arithmetic, with the same number of passes, to 6.6e-14 + 2.1δ radians. -/
theorem C139_amp (R : Rounding fl) (hL : LibmOK L) (nz : Bool) (nf nx : ℝ → ℝ → ℝ × ℝ) (epv00 : ℝ → ℝ → Epv) (eq date δ : ℝ) (h : DateOK nf nx epv00 eq date δ) (ra da : ℝ)
    (hs : -0.9979 ≤ dot ((palMappa (iau2006 nx) epv00 eq date).mat.transpose *ᵥ dir ra da) (palMappa (iau2006 nx) epv00 eq date).ehn) :
    let o := flAmp fl L nz nf epv00 ra da date eq
    let x := palAmp (iau2006 nx) epv00 ra da date eq
    0 ≤ o.1 ∧ o.1 ≤ flD2PI fl ∧ |o.2| ≤ π / 2 + 4.5e-16 ∧ len (fun i => dir o.1 o.2 i - dir x.1 x.2 i) ≤ 6.6e-14 + 2.1 * δ := by
  intro o x
  have δ0 := (abs_nonneg _).trans h.dpsi
  have B := h.block R hL
  obtain ⟨k1, k2⟩ := B.ampqk R ra da hs
  have eo : o = flAmpqk fl L nz ra da (flMappa fl L nf epv00 eq date) := rfl
  have ex : x = palAmpqk ra da (palMappa (iau2006 nx) epv00 eq date) := rfl
  rw [eo, ex]
  clear eo ex
  generalize flMappa fl L nf epv00 eq date = am at *
  generalize palMappa (iau2006 nx) epv00 eq date = ax at *
  obtain ⟨a, b, c, d⟩ := C123_ampqk R hL nz am B.he B.hg.1 B.hg.2 (B.hv.trans (by norm_num)) B.ha B.ab1o (fun i j => (B.horth i j).2) ra da k1
  refine ⟨a, b, c, ?_⟩
  have t := len_tri (dir (flAmpqk fl L nz ra da am).1 (flAmpqk fl L nz ra da am).2) (dir (palAmpqk ra da am).1 (palAmpqk ra da am).2) (dir (palAmpqk ra da ax).1 (palAmpqk ra da ax).2)
  refine t.trans ((add_le_add d k2).trans ?_)
  norm_num; linarith

/-- C139: in double precision palAmp undoes palMapqkz to 5.5e-11 radians for every star at least about 8 degrees from the Sun (the error is that of the method, C46: the rounding of both conversions together is 300 times smaller). -/
theorem C139_round_trip (R : Rounding fl) (hL : LibmOK L) (nz : Bool) (nf nx : ℝ → ℝ → ℝ × ℝ) (epv00 : ℝ → ℝ → Epv) (eq date δ : ℝ) (h : DateOK nf nx epv00 eq date δ) (rm dm : ℝ)
    (hs : -0.99 ≤ dot (dir rm dm) (palMappa (iau2006 nx) epv00 eq date).ehn) :
    let a := flMapqkz fl L nz rm dm (flMappa fl L nf epv00 eq date)
    let b := flAmp fl L nz nf epv00 a.1 a.2 date eq
    len (fun i => dir b.1 b.2 i - dir rm dm i) ≤ 5.5e-11 := by
  intro a b
  have δ0 := (abs_nonneg _).trans h.dpsi
  have δ1 := h.err
  have B := h.block R hL
  obtain ⟨-, -, -, q⟩ := C139_mapqkz R hL nz nf nx epv00 eq date δ h rm dm
  have pn := B.place_near rm dm
  have hs2 : -0.997 ≤ dot ((palMappa (iau2006 nx) epv00 eq date).mat.transpose *ᵥ dir (palMapqkz rm dm (palMappa (iau2006 nx) epv00 eq date)).1 (palMapqkz rm dm (palMappa (iau2006 nx) epv00 eq date)).2) (palMappa (iau2006 nx) epv00 eq date).ehn := by
    have z : len (fun i => (palMappa (iau2006 nx) epv00 eq date).ehn i - (palMappa (iau2006 nx) epv00 eq date).ehn i) ≤ 0 := by simp [len]
    have := (abs_le.1 (dot_diff pn z (B.ehnx.le) (len_dir rm dm).le)).1
    norm_num at *; linarith
  obtain ⟨k1, k2⟩ := B.ampqk_place R (q : len (fun i => dir a.1 a.2 i - dir _ _ i) ≤ _) (by norm_num at *; linarith) hs2
  obtain ⟨-, -, -, d⟩ := C139_amp R hL nz nf nx epv00 eq date δ h a.1 a.2 k1
  have rot := B.rot
  have e1 := B.ehnx
  have v1 := B.abvx
  have g0 := B.grx
  have g1 := B.grx'
  have m := C46_amp_inverts_map rm dm (palMappa (iau2006 nx) epv00 eq date) rot e1 (v1.trans (by norm_num)) (by
      change √(1 - (eraPn (palMappa (iau2006 nx) epv00 eq date).abv).1 * (eraPn (palMappa (iau2006 nx) epv00 eq date).abv).1) = _
      rw [pn_eq]) (le_trans (by norm_num) g0) (g1.trans (by norm_num)) (by norm_num at *; linarith)
  dsimp only at m
  have e : dir b.1 b.2 = dir b.1 b.2 := rfl
  have t1 := len_tri (dir b.1 b.2) (dir (palAmpqk a.1 a.2 (palMappa (iau2006 nx) epv00 eq date)).1 (palAmpqk a.1 a.2 (palMappa (iau2006 nx) epv00 eq date)).2) (dir rm dm)
  have d' : len (fun i => dir b.1 b.2 i - dir (palAmpqk a.1 a.2 (palMappa (iau2006 nx) epv00 eq date)).1 (palAmpqk a.1 a.2 (palMappa (iau2006 nx) epv00 eq date)).2 i) ≤ 6.6e-14 + 2.1 * δ := d
  clear d e pn q hs2 k1 B rot
  generalize palMappa (iau2006 nx) epv00 eq date = ax at *
  have t2 := len_tri (dir (palAmpqk a.1 a.2 ax).1 (palAmpqk a.1 a.2 ax).2) (dir (palAmpqk (palMapqkz rm dm ax).1 (palMapqkz rm dm ax).2 ax).1 (palAmpqk (palMapqkz rm dm ax).1 (palMapqkz rm dm ax).2 ax).2) (dir rm dm)
  have c0 : 0.01 ≤ 1 + dot (dir rm dm) ax.ehn := by norm_num at *; linarith
  have W0 : 0 ≤ ax.gr2e / (1 + dot (dir rm dm) ax.ehn) := div_nonneg (le_trans (by norm_num) g0) (le_trans (by norm_num) c0)
  have W1 : ax.gr2e / (1 + dot (dir rm dm) ax.ehn) ≤ 2.08e-6 := by
    rw [div_le_iff₀ (lt_of_lt_of_le (by norm_num) c0)]; norm_num at *; linarith
  generalize ax.gr2e / (1 + dot (dir rm dm) ax.ehn) = W at *
  have W2 := pow_le_pow_left₀ W0 W1 2
  have v3 := pow_le_pow_left₀ (len_nonneg _) v1 3
  norm_num at *; linarith

/-- Every unit vector is the direction of some place. -/
theorem dir_of_unit {v : Vec3} (h : len v = 1) : ∃ rm dm, dir rm dm = v := by
  refine ⟨eraAnp (eraC2s v).1, (eraC2s v).2, ?_⟩
  have := c2s_dir v
  rw [← len_eq, h] at this
  simpa using this

/-- With IEEE doubles, correctly rounded library functions and the nutation angles of one date, from the equinox of 1984 to the year 2026. -/
theorem demo_date : DateOK (fun _ _ => (-3e-5, 4e-5)) (fun _ _ => (-3e-5, 4e-5)) demoEpv 1984 61362 0 := by
  obtain ⟨d1, d2, d3⟩ := demoEpv_ok 2400000.5 61362
  exact ⟨by norm_num, by norm_num [abs_le], noerr _, noerr _, by norm_num, by norm_num, by norm_num [abs_le], by rw [d1]; norm_num, by rw [d1]; norm_num, by rw [d2]; norm_num, by rw [d3]; norm_num⟩

example (rm dm : ℝ) :
    let o := flMap ieee roundedLibm false (fun _ _ => (-3e-5, 4e-5)) demoEpv rm dm 1e-5 (-1e-5) 0.5 (-100) 1984 61362
    let x := palMap (iau2006 fun _ _ => (-3e-5, 4e-5)) demoEpv rm dm 1e-5 (-1e-5) 0.5 (-100) 1984 61362
    len (fun i => dir o.1 o.2 i - dir x.1 x.2 i) ≤ 9.5e-14 + 2.1 * 0 :=
  (C139_map ieee_rounding roundedLibm_ok false _ _ demoEpv 1984 61362 0 demo_date (by norm_num [palEpjR, rMJD0, abs_le]) rm dm 1e-5 (-1e-5) 0.5 (-100) (by norm_num [abs_le]) (by norm_num [abs_le]) (by norm_num [abs_le]) (by norm_num [abs_le])).2.2.2

/-- A star opposite to the Sun, and an apparent place opposite to the Sun. -/
example : (∃ rm dm, -0.99 ≤ dot (dir rm dm) (palMappa (iau2006 fun _ _ => (-3e-5, 4e-5)) demoEpv 1984 61362).ehn) ∧
    ∃ ra da, -0.9979 ≤ dot ((palMappa (iau2006 fun _ _ => (-3e-5, 4e-5)) demoEpv 1984 61362).mat.transpose *ᵥ dir ra da) (palMappa (iau2006 fun _ _ => (-3e-5, 4e-5)) demoEpv 1984 61362).ehn := by
  have B := demo_date.block ieee_rounding roundedLibm_ok
  generalize palMappa (iau2006 fun _ _ => (-3e-5, 4e-5)) demoEpv 1984 61362 = ax at *
  obtain ⟨r, d, e⟩ := dir_of_unit B.ehnx
  obtain ⟨r', d', e'⟩ := dir_of_unit (v := ax.mat *ᵥ ax.ehn) (by rw [rot_len B.rot, B.ehnx])
  have k : dot ax.ehn ax.ehn = 1 := dot_of_len B.ehnx
  refine ⟨⟨r, d, by rw [e, k]; norm_num⟩, r', d', ?_⟩
  rw [e', mulVec_mulVec, rot_trans_mul B.rot, one_mulVec, k]; norm_num

end Pal.Props
