import Verif.Lemmas.Vec

/-!
# Properties C27, C28, C30–C34, C73: angles, horizon coordinates, vectors, tangent plane, Euler rotations
-/

namespace Pal.Props
open Pal Pal.Spec Real

/-- **C27** palDrange normalises every angle into [-π, π], palDranrm and palRanorm into [0, 2π), changing it by whole turns only and leaving angles that are already in
range alone. -/
theorem C27_range (a : ℝ) :
    (-π ≤ palDrange a ∧ palDrange a ≤ π ∧ SameAngle (palDrange a) a ∧ (-π ≤ a → a ≤ π → palDrange a = a)) ∧
    (0 ≤ palDranrm a ∧ palDranrm a < 2 * π ∧ SameAngle (palDranrm a) a ∧ (0 ≤ a → a < 2 * π → palDranrm a = a)) ∧
    palRanorm a = palDranrm a := by
  obtain ⟨h1, h2⟩ := palDrange_spec a
  obtain ⟨h3, h4⟩ := eraAnp_spec a
  rw [abs_le] at h1
  exact ⟨⟨h1.1, h1.2, h2, fun h h' => palDrange_eq (abs_le.2 ⟨h, h'⟩)⟩, ⟨h3.1, h3.2, h4, fun h h' => eraAnp_eq ⟨h, h'⟩⟩, rfl⟩

example : palDrange (3 * π / 2) = -(π / 2) := by
  have hp := Real.pi_pos
  obtain ⟨⟨h1, h2, h3, _⟩, _⟩ := C27_range (3 * π / 2)
  obtain ⟨k, hk⟩ := h3
  have a1 : (k : ℝ) < 0 := by by_contra h; push Not at h; nlinarith
  have a2 : (-2 : ℝ) < k := by by_contra h; push Not at h; nlinarith
  have : k = -1 := by
    have b1 : k < 0 := by exact_mod_cast a1
    have b2 : -2 < k := by exact_mod_cast a2
    omega
  rw [hk, this]; push_cast; ring

/-- **C28** (geometry) The azimuth and elevation delivered by palDe2h describe the direction whose components along north, east and zenith are those of
the given hour angle and declination; azimuth is in [0,2π) and elevation in [-π/2,π/2]. -/
theorem C28_de2h_geometry (ha dec phi : ℝ) :
    let r := palDe2h ha dec phi
    dir r.1 r.2 = ![dot (northAxis phi) (dir ha dec), dot eastAxis (dir ha dec), dot (zenithAxis phi) (dir ha dec)] ∧
    (0 ≤ r.1 ∧ r.1 < 2 * π) ∧ -(π / 2) ≤ r.2 ∧ r.2 ≤ π / 2 := by
  intro r
  obtain ⟨e1, e2, e3⟩ := horizon_vec ha dec phi
  obtain ⟨r1, r2⟩ := de2h_range ha dec phi
  exact ⟨by rw [← e1, ← e2, ← e3]; exact de2h_dir ha dec phi, r1, abs_le.1 r2⟩

/-- **C28** (inverse) Converting with palDe2h and back with palDh2e, or the other way round, returns the same direction, for every latitude; hour angle is
in (-π,π] and declination in [-π/2,π/2]. -/
theorem C28_de2h_dh2e (a b phi : ℝ) :
    (let r := palDe2h a b phi; let s := palDh2e r.1 r.2 phi; dir s.1 s.2 = dir a b) ∧
    (let r := palDh2e a b phi; let s := palDe2h r.1 r.2 phi; dir s.1 s.2 = dir a b) ∧
    (let r := palDh2e a b phi; -π < r.1 ∧ r.1 ≤ π ∧ -(π / 2) ≤ r.2 ∧ r.2 ≤ π / 2) := by
  have h3 := sin_sq_add_cos_sq phi
  have key : ∀ u v : ℝ, dir u v = ![-cos a * cos b * sin phi + sin b * cos phi, -sin a * cos b, cos a * cos b * cos phi + sin b * sin phi] →
      ![-cos u * cos v * sin phi + sin v * cos phi, -sin u * cos v, cos u * cos v * cos phi + sin v * sin phi] = dir a b := by
    intro u v h
    have h0 := congrFun h 0
    have h1 := congrFun h 1
    have h2 := congrFun h 2
    simp [dir] at h0 h1 h2
    funext i
    fin_cases i
    · simp [dir]; grind
    · simp [dir]; grind
    · simp [dir]; grind
  refine ⟨?_, ?_, ?_⟩
  · dsimp only
    rw [dh2e_dir]
    exact key _ _ (de2h_dir a b phi)
  · dsimp only
    rw [de2h_dir]
    exact key _ _ (dh2e_dir a b phi)
  · obtain ⟨r1, r2⟩ := dh2e_range a b phi
    exact ⟨r1.1, r1.2, abs_le.1 r2⟩

/-- **C28** (exact values) With the arguments in their standard ranges and away from the poles the round trips return exactly the same numbers. -/
theorem C28_roundtrip_exact (a b phi : ℝ) (hb : -(π / 2) < b) (hb' : b < π / 2) :
    (-π < a → a ≤ π → (let r := palDe2h a b phi; palDh2e r.1 r.2 phi) = (a, b)) ∧
    (0 ≤ a → a < 2 * π → (let r := palDh2e a b phi; palDe2h r.1 r.2 phi) = (a, b)) := by
  have hp := Real.pi_pos
  obtain ⟨h1, h2, _⟩ := C28_de2h_dh2e a b phi
  have hc : cos b ≠ 0 := (Real.cos_pos_of_mem_Ioo ⟨hb, hb'⟩).ne'
  have hbb : |b| ≤ π / 2 := abs_le.2 ⟨hb.le, hb'.le⟩
  refine ⟨fun ha ha' => ?_, fun ha ha' => ?_⟩
  · dsimp only at h1 ⊢
    obtain ⟨r1, r2⟩ := dh2e_range (palDe2h a b phi).1 (palDe2h a b phi).2 phi
    obtain ⟨e1, e2⟩ := dir_inj h1.symm hbb r2
    refine Prod.ext ?_ e1.symm
    exact (e2 hc).symm.eq_of_Ioc (c := -π) ⟨r1.1, by linarith [r1.2]⟩ ⟨ha, by linarith⟩
  · dsimp only at h2 ⊢
    obtain ⟨r1, r2⟩ := de2h_range (palDh2e a b phi).1 (palDh2e a b phi).2 phi
    obtain ⟨e1, e2⟩ := dir_inj h2.symm hbb r2
    refine Prod.ext ?_ e1.symm
    exact (e2 hc).symm.eq_of_Ico (c := 0) ⟨r1.1, by linarith [r1.2]⟩ ⟨ha, by linarith⟩

/-- An object on the northern horizon of an equatorial observer: it is at the celestial pole. -/
example : (palDe2h 1 (π / 2) 0) = (0, 0) := by
  unfold palDe2h
  have h1 : atan2 0 1 = 0 := atan2_zero_pos zero_le_one
  simp [h1]

/-- **C30** (to Cartesian) palDcs2c gives the unit vector of the direction. -/
theorem C30_dcs2c (a b : ℝ) : palDcs2c a b = dir a b ∧ len (palDcs2c a b) = 1 := by
  refine ⟨eraS2c_eq a b, ?_⟩
  rw [len_eq, show palDcs2c a b = dir a b from eraS2c_eq a b, dot_dir, Real.sqrt_one]

/-- **C30** (to spherical) Every vector is its length times the unit vector of the direction delivered by palDcc2s; for a non-zero vector palDcs2c of palDcc2s is
the unit vector delivered by palDvn. -/
theorem C30_dcc2s (v : Vec3) :
    (∀ i, v i = len v * dir (palDcc2s v).1 (palDcc2s v).2 i) ∧
    (v ≠ 0 → palDcs2c (palDcc2s v).1 (palDcc2s v).2 = (palDvn v).1 ∧ (palDvn v).2 = len v ∧ len (palDvn v).1 = 1) ∧
    (-π < (palDcc2s v).1 ∧ (palDcc2s v).1 ≤ π ∧ -(π / 2) ≤ (palDcc2s v).2 ∧ (palDcc2s v).2 ≤ π / 2) := by
  have hs := eraC2s_spec v
  obtain ⟨r1, r2⟩ := eraC2s_range v
  have hl : eraPm v = len v := by rw [eraPm_eq, len_eq]
  refine ⟨fun i => ?_, fun hv => ?_, r1.1, r1.2, (abs_le.1 r2).1, (abs_le.1 r2).2⟩
  · have := congrFun hs i
    rw [hl] at this
    exact this.symm
  · have hpos : eraPm v ≠ 0 := by
      rw [eraPm_eq]
      intro h
      rw [Real.sqrt_eq_zero (dot_self_nonneg v)] at h
      exact hv (dot_self_eq_zero.1 h)
    have e1 : palDcs2c (palDcc2s v).1 (palDcc2s v).2 = (palDvn v).1 := by
      rw [(C30_dcs2c _ _).1]
      unfold palDvn eraPn
      dsimp only
      rw [if_neg hpos]
      funext i
      dsimp only
      have : eraPm v * dir (eraC2s v).1 (eraC2s v).2 i = v i := congrFun hs i
      rw [← this]
      unfold palDcc2s
      field_simp
    refine ⟨e1, ?_, ?_⟩
    · unfold palDvn eraPn; dsimp only; rw [if_neg hpos]; exact hl
    · rw [← e1]; exact (C30_dcs2c _ _).2

/-- **C30** (round trip) palDcc2s of palDcs2c returns the direction; with arguments in range and away from the poles it returns the same numbers. -/
theorem C30_roundtrip (a b : ℝ) :
    (let r := palDcc2s (palDcs2c a b); dir r.1 r.2 = dir a b) ∧
    (-π < a → a ≤ π → -(π / 2) < b → b < π / 2 → palDcc2s (palDcs2c a b) = (a, b)) := by
  have h1 : (let r := palDcc2s (palDcs2c a b); dir r.1 r.2 = dir a b) := by
    dsimp only
    have : dir (eraC2s (eraS2c a b)).1 (eraC2s (eraS2c a b)).2 = eraS2c a b := eraC2s_unit _ (by rw [eraS2c_eq]; exact dir_unit a b)
    unfold palDcc2s palDcs2c
    rw [this, eraS2c_eq]
  refine ⟨h1, fun ha ha' hb hb' => ?_⟩
  have hp := Real.pi_pos
  obtain ⟨r1, r2⟩ := eraC2s_range (palDcs2c a b)
  obtain ⟨e1, e2⟩ := dir_inj h1.symm (abs_le.2 ⟨hb.le, hb'.le⟩) r2
  have hc : cos b ≠ 0 := (Real.cos_pos_of_mem_Ioo ⟨hb, hb'⟩).ne'
  refine Prod.ext ?_ e1.symm
  have r1' : (palDcc2s (palDcs2c a b)).1 ∈ Set.Ioc (-π) π := r1
  exact (e2 hc).symm.eq_of_Ioc (c := -π) ⟨r1'.1, by linarith [r1'.2]⟩ ⟨ha, by linarith⟩

example : palDcc2s ![0, 0, -2] = (0, -(π / 2)) := by
  unfold palDcc2s eraC2s
  have : atan2 (-2) 0 = -(π / 2) := by
    apply atan2_eq_of (r := 2) (by norm_num) ⟨by linarith [Real.pi_pos], by linarith [Real.pi_pos]⟩ <;> simp
  simp [this]

/-- **C31** (vectors) palDsepv is symmetric, lies in [0,π], has the cosine given by the scalar product, and is invariant under rotating both vectors with palDmxv. -/
theorem C31_dsepv (v w : Vec3) :
    palDsepv v w = palDsepv w v ∧ 0 ≤ palDsepv v w ∧ palDsepv v w ≤ π ∧
    len v * len w * cos (palDsepv v w) = dot v w ∧
    ∀ m : Mat3, IsRotation m → palDsepv (palDmxv m v) (palDmxv m w) = palDsepv v w := by
  unfold palDsepv palDmxv
  refine ⟨?_, (sepp_range v w).1, (sepp_range v w).2, ?_, fun m hm => ?_⟩
  · rw [sepp_val, sepp_val, dot_comm w v, mul_comm (dot v v)]
  · rw [len_eq, len_eq]; exact sepp_cos v w
  · rw [sepp_val, sepp_val, eraRxp_eq, eraRxp_eq, rot_dot hm, rot_dot hm, rot_dot hm]

/-- **C31** (directions) palDsep is a metric on directions: symmetric, in [0,π], zero exactly for equal directions, satisfies the triangle inequality, and its cosine is the
scalar product of the unit vectors. -/
theorem C31_dsep (a1 b1 a2 b2 a3 b3 : ℝ) :
    palDsep a1 b1 a2 b2 = palDsep a2 b2 a1 b1 ∧ 0 ≤ palDsep a1 b1 a2 b2 ∧ palDsep a1 b1 a2 b2 ≤ π ∧
    cos (palDsep a1 b1 a2 b2) = dot (dir a1 b1) (dir a2 b2) ∧
    (palDsep a1 b1 a2 b2 = 0 ↔ dir a1 b1 = dir a2 b2) ∧
    palDsep a1 b1 a3 b3 ≤ palDsep a1 b1 a2 b2 + palDsep a2 b2 a3 b3 := by
  have hne : ∀ a b, dir a b ≠ 0 := by
    intro a b h
    have := dot_dir a b
    rw [h] at this
    simp [dot] at this
  have hs : ∀ a b c d, palDsep a b c d = palDsepv (dir a b) (dir c d) := by
    intro a b c d; unfold palDsep eraSeps palDsepv; rw [eraS2c_eq, eraS2c_eq]
  rw [hs, hs, hs, hs]
  obtain ⟨h1, h2, h3, h4, _⟩ := C31_dsepv (dir a1 b1) (dir a2 b2)
  have h5 : cos (palDsepv (dir a1 b1) (dir a2 b2)) = dot (dir a1 b1) (dir a2 b2) := by
    rw [len_eq, len_eq, dot_dir, dot_dir, Real.sqrt_one] at h4
    linarith
  refine ⟨h1, h2, h3, h5, ?_, ?_⟩
  · constructor
    · intro h
      rw [h, Real.cos_zero] at h5
      have hz : dot (fun i => dir a1 b1 i - dir a2 b2 i) (fun i => dir a1 b1 i - dir a2 b2 i) = 0 := by
        have u1 := dot_dir a1 b1
        have u2 := dot_dir a2 b2
        rw [dot_eq] at u1 u2 h5 ⊢
        linear_combination u1 + u2 + 2 * h5
      have := dot_self_eq_zero.1 hz
      funext i
      exact sub_eq_zero.1 (congrFun this i)
    · intro h
      rw [h, dot_dir] at h5
      rw [h]
      exact Real.injOn_cos ⟨(C31_dsepv _ _).2.1, (C31_dsepv _ _).2.2.1⟩ ⟨le_rfl, Real.pi_pos.le⟩ (by rw [h5, Real.cos_zero])
  · unfold palDsepv
    rw [sepp_angle _ _ (hne _ _) (hne _ _), sepp_angle _ _ (hne _ _) (hne _ _), sepp_angle _ _ (hne _ _) (hne _ _)]
    exact InnerProductGeometry.angle_le_angle_add_angle _ _ _

example : palDsep 0 0 (π / 2) 0 = π / 2 := by
  have h := (C31_dsep 0 0 (π / 2) 0 0 0).2.2.2.1
  have h2 := (C31_dsep 0 0 (π / 2) 0 0 0).2
  have h0 : dot (dir 0 0) (dir (π / 2) 0) = 0 := by simp [dot_eq, dir]
  rw [h0] at h
  exact Real.injOn_cos ⟨h2.1, h2.2.1⟩ ⟨by positivity, by linarith [Real.pi_pos]⟩ (by rw [h, Real.cos_pi_div_two])

private theorem dot_dirs (ra dec raz decz : ℝ) :
    dot (dir ra dec) (dir raz decz) = sin dec * sin decz + cos dec * cos decz * cos (ra - raz) ∧
    dot (dir ra dec) (eastAt raz) = cos dec * sin (ra - raz) ∧
    dot (dir ra dec) (northAt raz decz) = sin dec * cos decz - cos dec * sin decz * cos (ra - raz) := by
  simp only [dot_eq, dir, eastAt, northAt, Matrix.cons_val_zero, Matrix.cons_val_one, Matrix.cons_val]
  rw [cos_sub, sin_sub]
  refine ⟨by ring, by ring, by ring⟩

/-- **C32** (status) palDs2tp reports 0, 1, 2, 3 according to the cosine of the distance between star and tangent point: above 1e-6, between 0 and 1e-6, between -1e-6 and 0,
at most -1e-6. -/
theorem C32_ds2tp_status (ra dec raz decz : ℝ) :
    let c := dot (dir ra dec) (dir raz decz)
    let j := (palDs2tp ra dec raz decz).2.2
    (j = 0 ↔ 1 / 10 ^ 6 < c) ∧ (j = 1 ↔ 0 ≤ c ∧ c ≤ 1 / 10 ^ 6) ∧
    (j = 2 ↔ -(1 / 10 ^ 6) < c ∧ c < 0) ∧ (j = 3 ↔ c ≤ -(1 / 10 ^ 6)) := by
  intro c j
  have hc : c = sin dec * sin decz + cos dec * cos decz * cos (ra - raz) := (dot_dirs ra dec raz decz).1
  have hj : j = (if c > 1 / 10 ^ 6 then ((0 : ℤ), c) else if c ≥ 0 then (1, 1 / 10 ^ 6)
    else if c > -(1 / 10 ^ 6) then (2, -(1 / 10 ^ 6)) else (3, c)).1 := by rw [hc]; rfl
  rw [hj]
  clear_value c
  have : (0 : ℝ) < 1 / 10 ^ 6 := by norm_num
  split_ifs with h1 h2 h3
  · refine ⟨⟨fun _ => h1, fun _ => rfl⟩, ?_, ?_, ?_⟩ <;> constructor <;> intro h <;> first | (exfalso; revert h; decide) | (exfalso; linarith [h.1, h.2]) | (exfalso; linarith)
  · push Not at h1
    refine ⟨?_, ⟨fun _ => ⟨h2, h1⟩, fun _ => rfl⟩, ?_, ?_⟩ <;> constructor <;> intro h <;> first | (exfalso; revert h; decide) | (exfalso; linarith [h.1, h.2]) | (exfalso; linarith)
  · push Not at h1 h2
    refine ⟨?_, ?_, ⟨fun _ => ⟨h3, h2⟩, fun _ => rfl⟩, ?_⟩ <;> constructor <;> intro h <;> first | (exfalso; revert h; decide) | (exfalso; linarith [h.1, h.2]) | (exfalso; linarith)
  · push Not at h1 h2 h3
    refine ⟨?_, ?_, ?_, ⟨fun _ => h3, fun _ => rfl⟩⟩ <;> constructor <;> intro h <;> first | (exfalso; revert h; decide) | (exfalso; linarith [h.1, h.2]) | (exfalso; linarith)

/-- **C32** (projection) With status 0 palDs2tp delivers the gnomonic projection of the star. -/
theorem C32_ds2tp_projects (ra dec raz decz : ℝ) (h : (palDs2tp ra dec raz decz).2.2 = 0) :
    Projects ra dec raz decz (palDs2tp ra dec raz decz).1 (palDs2tp ra dec raz decz).2.1 := by
  have hc := (C32_ds2tp_status ra dec raz decz).1.1 h
  obtain ⟨d1, d2, d3⟩ := dot_dirs ra dec raz decz
  have hpos : 0 < dot (dir ra dec) (dir raz decz) := lt_trans (by norm_num) hc
  have e : palDs2tp ra dec raz decz = (cos dec * sin (ra - raz) / dot (dir ra dec) (dir raz decz),
      (sin dec * cos decz - cos dec * sin decz * cos (ra - raz)) / dot (dir ra dec) (dir raz decz), 0) := by
    unfold palDs2tp
    dsimp only
    rw [← d1, if_pos hc]
  rw [e]
  refine ⟨hpos, ?_, ?_⟩
  · rw [d2]; field_simp
  · rw [d3]; field_simp

/-- **C32** (deprojection) palDtp2s delivers, for every pair of tangent-plane coordinates, the direction that projects there, with RA in [0,2π) and Dec in [-π/2,π/2]. -/
theorem C32_dtp2s_projects (xi eta raz decz : ℝ) :
    let s := palDtp2s xi eta raz decz
    Projects s.1 s.2 raz decz xi eta ∧ 0 ≤ s.1 ∧ s.1 < 2 * π ∧ -(π / 2) ≤ s.2 ∧ s.2 ≤ π / 2 := by
  intro s
  have hz := sin_sq_add_cos_sq decz
  obtain ⟨r1, r2⟩ := eraAnp_spec (atan2 xi (cos decz - eta * sin decz) + raz)
  have hd : s.2 = atan2 (sin decz + eta * cos decz) (√(xi * xi + (cos decz - eta * sin decz) * (cos decz - eta * sin decz))) := rfl
  have ha : s.1 = eraAnp (atan2 xi (cos decz - eta * sin decz) + raz) := rfl
  have hrng : |s.2| ≤ π / 2 := by rw [hd]; exact abs_atan2_le (Real.sqrt_nonneg _)
  refine ⟨?_, by rw [ha]; exact r1.1, by rw [ha]; exact r1.2, (abs_le.1 hrng).1, (abs_le.1 hrng).2⟩
  have hsame : SameAngle (s.1 - raz) (atan2 xi (cos decz - eta * sin decz)) := by
    obtain ⟨k, hk⟩ := r2
    exact ⟨k, by rw [ha, hk]; ring⟩
  have hv := sph_of_cart (cos decz - eta * sin decz) xi (sin decz + eta * cos decz) (s.1 - raz) (fun _ => Or.inr hsame)
  rw [add_comm ((cos decz - eta * sin decz) * (cos decz - eta * sin decz)) (xi * xi), ← hd] at hv
  have hN : xi * xi + (cos decz - eta * sin decz) * (cos decz - eta * sin decz) + (sin decz + eta * cos decz) * (sin decz + eta * cos decz)
      = 1 + xi * xi + eta * eta := by linear_combination (1 + eta * eta) * hz
  rw [hN] at hv
  have hT : 0 < √(1 + xi * xi + eta * eta) := Real.sqrt_pos.2 (by nlinarith [mul_self_nonneg xi, mul_self_nonneg eta])
  generalize √(1 + xi * xi + eta * eta) = T at hv hT
  have v0 := congrFun hv 0
  have v1 := congrFun hv 1
  have v2 := congrFun hv 2
  simp [dir] at v0 v1 v2
  obtain ⟨d1, d2, d3⟩ := dot_dirs s.1 s.2 raz decz
  have e1 : T * dot (dir s.1 s.2) (dir raz decz) = 1 := by
    rw [d1]; linear_combination sin decz * v2 + cos decz * v0 + hz
  have e2 : T * dot (dir s.1 s.2) (eastAt raz) = xi := by rw [d2]; exact v1
  have e3 : T * dot (dir s.1 s.2) (northAt raz decz) = eta := by
    rw [d3]; linear_combination cos decz * v2 - sin decz * v0 + eta * hz
  refine ⟨?_, ?_, ?_⟩
  · by_contra hneg
    push Not at hneg
    have := mul_nonpos_of_nonneg_of_nonpos hT.le hneg
    linarith
  · apply mul_left_cancel₀ hT.ne'; rw [e2]; linear_combination xi * e1
  · apply mul_left_cancel₀ hT.ne'; rw [e3]; linear_combination eta * e1

/-- Components along the tangent, east and north directions determine a vector. -/
private theorem frame_decomp (v : Vec3) (raz decz : ℝ) :
    v = fun i => dot v (dir raz decz) * dir raz decz i + dot v (eastAt raz) * eastAt raz i + dot v (northAt raz decz) * northAt raz decz i := by
  have hz := sin_sq_add_cos_sq decz
  have hr := sin_sq_add_cos_sq raz
  funext i
  simp only [dot_eq]
  fin_cases i
  · simp [dir, eastAt, northAt]; grind
  · simp [dir, eastAt, northAt]; grind
  · simp [dir, eastAt, northAt]; grind

private theorem projects_norm {ra dec raz decz xi eta : ℝ} (h : Projects ra dec raz decz xi eta) :
    dot (dir ra dec) (dir raz decz) * dot (dir ra dec) (dir raz decz) * (1 + xi * xi + eta * eta) = 1 := by
  obtain ⟨p, x, e⟩ := h
  have u := dot_dir ra dec
  have hz := sin_sq_add_cos_sq decz
  have hr := sin_sq_add_cos_sq raz
  have key : ∀ v : Vec3, dot v v = dot v (dir raz decz) ^ 2 + dot v (eastAt raz) ^ 2 + dot v (northAt raz decz) ^ 2 := by
    intro v
    simp only [dot_eq, dir, eastAt, northAt, Matrix.cons_val_zero, Matrix.cons_val_one, Matrix.cons_val]
    generalize v 0 = a; generalize v 1 = b; generalize v 2 = c
    grind
  rw [key, ← x, ← e] at u
  linear_combination u

/-- A star is determined by its projection. -/
private theorem projects_inj {ra dec ra' dec' raz decz xi eta : ℝ} (h : Projects ra dec raz decz xi eta) (h' : Projects ra' dec' raz decz xi eta) :
    dir ra dec = dir ra' dec' := by
  have n := projects_norm h
  have n' := projects_norm h'
  obtain ⟨p, x, e⟩ := h
  obtain ⟨p', x', e'⟩ := h'
  have hK : 0 < 1 + xi * xi + eta * eta := by nlinarith [mul_self_nonneg xi, mul_self_nonneg eta]
  have ht : dot (dir ra dec) (dir raz decz) = dot (dir ra' dec') (dir raz decz) := by
    have : dot (dir ra dec) (dir raz decz) ^ 2 = dot (dir ra' dec') (dir raz decz) ^ 2 := by
      apply mul_right_cancel₀ hK.ne'; linear_combination n - n'
    exact (pow_left_inj₀ p.le p'.le two_ne_zero).1 this
  rw [frame_decomp (dir ra dec) raz decz, frame_decomp (dir ra' dec') raz decz, ← x, ← e, ← x', ← e', ht]

/-- **C32** (round trips) palDtp2s of palDs2tp with status 0 returns the star (the same direction), and palDs2tp of palDtp2s returns the tangent-plane coordinates with status 0
whenever they are not too far out (1+xi²+eta² < 10^12). -/
theorem C32_roundtrip (ra dec raz decz xi eta : ℝ) :
    ((palDs2tp ra dec raz decz).2.2 = 0 →
      (let t := palDs2tp ra dec raz decz; let s := palDtp2s t.1 t.2.1 raz decz; dir s.1 s.2 = dir ra dec)) ∧
    (1 + xi ^ 2 + eta ^ 2 < 10 ^ 12 →
      (let s := palDtp2s xi eta raz decz; palDs2tp s.1 s.2 raz decz = (xi, eta, 0))) := by
  constructor
  · intro h
    exact projects_inj (C32_dtp2s_projects _ _ raz decz).1 (C32_ds2tp_projects ra dec raz decz h)
  · intro h
    dsimp only
    have hp := (C32_dtp2s_projects xi eta raz decz).1
    have n := projects_norm hp
    have hpos := hp.1
    set s := palDtp2s xi eta raz decz
    have hc : 1 / 10 ^ 6 < dot (dir s.1 s.2) (dir raz decz) := by
      by_contra hcon
      push Not at hcon
      have h2 : dot (dir s.1 s.2) (dir raz decz) * dot (dir s.1 s.2) (dir raz decz) ≤ 1 / 10 ^ 6 * (1 / 10 ^ 6) :=
        mul_le_mul hcon hcon hpos.le (by norm_num)
      have h3 : 0 < 1 + xi * xi + eta * eta := by nlinarith [mul_self_nonneg xi, mul_self_nonneg eta]
      have h4 := mul_le_mul_of_nonneg_right h2 h3.le
      rw [n] at h4
      have h5 : 1 + xi * xi + eta * eta < 10 ^ 12 := by rw [← sq, ← sq]; exact h
      linarith
    have hj := (C32_ds2tp_status s.1 s.2 raz decz).1.2 hc
    obtain ⟨_, x, e⟩ := C32_ds2tp_projects s.1 s.2 raz decz hj
    obtain ⟨_, x', e'⟩ := hp
    refine Prod.ext ?_ (Prod.ext ?_ hj)
    · apply mul_right_cancel₀ hpos.ne'; rw [x, x']
    · apply mul_right_cancel₀ hpos.ne'; rw [e, e']

example : (palDs2tp 0.1 0.2 0.1 0.2).2.2 = 0 := by
  refine (C32_ds2tp_status 0.1 0.2 0.1 0.2).1.2 ?_
  rw [dot_dir]; norm_num

/-- A star projects to (xi, eta) from the tangent point exactly if these equations hold. -/
private theorem projects_iff (ra dec raz decz xi eta T : ℝ) (hT : 0 < T) (hT2 : T * T = 1 + xi * xi + eta * eta) :
    Projects ra dec raz decz xi eta ↔
      T * sin dec = sin decz + eta * cos decz ∧ T * (cos dec * cos (ra - raz)) = cos decz - eta * sin decz ∧ T * (cos dec * sin (ra - raz)) = xi := by
  have hz := sin_sq_add_cos_sq decz
  constructor
  · intro h
    have n := projects_norm h
    obtain ⟨p, x, e⟩ := h
    obtain ⟨d1, d2, d3⟩ := dot_dirs ra dec raz decz
    have hTd : T * dot (dir ra dec) (dir raz decz) = 1 := by
      have h1 : (T * dot (dir ra dec) (dir raz decz)) ^ 2 = 1 ^ 2 := by rw [← hT2] at n; linear_combination n
      exact (pow_left_inj₀ (mul_pos hT p).le zero_le_one two_ne_zero).1 h1
    rw [d2] at x
    rw [d3] at e
    have e1 : T * (sin dec * sin decz + cos dec * cos decz * cos (ra - raz)) = 1 := by rw [← d1]; exact hTd
    have e2 : T * (sin dec * cos decz - cos dec * sin decz * cos (ra - raz)) = eta := by
      rw [← e]; linear_combination eta * hTd
    refine ⟨?_, ?_, ?_⟩
    · linear_combination sin decz * e1 + cos decz * e2 - T * sin dec * hz
    · linear_combination cos decz * e1 - sin decz * e2 - T * cos dec * cos (ra - raz) * hz
    · rw [← x]; linear_combination xi * hTd
  · rintro ⟨h1, h2, h3⟩
    obtain ⟨d1, d2, d3⟩ := dot_dirs ra dec raz decz
    have hTd : T * dot (dir ra dec) (dir raz decz) = 1 := by rw [d1]; linear_combination sin decz * h1 + cos decz * h2 + hz
    refine ⟨?_, ?_, ?_⟩
    · by_contra hneg
      push Not at hneg
      have := mul_nonpos_of_nonneg_of_nonpos hT.le hneg
      linarith
    · rw [d2]; apply mul_left_cancel₀ hT.ne'; linear_combination xi * hTd - h3
    · rw [d3]; apply mul_left_cancel₀ hT.ne'; linear_combination eta * hTd - cos decz * h1 + sin decz * h2 - eta * hz

/-- One of the two algebraic solutions, for a given root `r` of r² = T²cos²dec - xi². -/
private theorem dtps2c_solution {xi eta ra dec T r : ℝ} (hT : 0 < T) (hT2 : T * T = 1 + xi * xi + eta * eta)
    (hr : r * r = cos dec * cos dec * (eta * eta + 1) - sin dec * sin dec * (xi * xi)) (r' : ℝ) (hr' : r' = r ∨ (xi = 0 ∧ r = 0)) :
    Projects ra dec (eraAnp (ra - atan2 xi r')) (atan2 (sin dec * T - eta * r) (sin dec * T * eta + r)) xi eta ∨ cos dec < 0 := by
  by_cases hcd : cos dec < 0
  · exact Or.inr hcd
  left
  push Not at hcd
  rw [projects_iff _ _ _ _ _ _ T hT hT2]
  have hd := sin_sq_add_cos_sq dec
  set s := sin dec * T - eta * r
  set c := sin dec * T * eta + r
  have hK : 0 < 1 + eta * eta := by nlinarith [mul_self_nonneg eta]
  have hsc : c * c + s * s = (1 + eta * eta) * (1 + eta * eta) := by
    simp only [s, c]; linear_combination (1 + eta * eta) * (sin dec * sin dec * hT2 + hr) + (1 + eta * eta) * (1 + eta * eta) * hd
  have hc1 := hyp_cos_atan2 s c
  have hs1 := hyp_sin_atan2 s c
  rw [hsc, Real.sqrt_mul_self hK.le] at hc1 hs1
  have hang : SameAngle (ra - eraAnp (ra - atan2 xi r')) (atan2 xi r') := by
    obtain ⟨k, hk⟩ := (eraAnp_spec (ra - atan2 xi r')).2
    exact ⟨-k, by rw [hk]; push_cast; ring⟩
  rw [hang.cos, hang.sin]
  have hxr : r * r + xi * xi = (T * cos dec) * (T * cos dec) := by
    linear_combination hr - cos dec * cos dec * hT2 - xi * xi * hd
  have hTc : 0 ≤ T * cos dec := mul_nonneg hT.le hcd
  have hroot : √(r * r + xi * xi) = T * cos dec := by rw [hxr, Real.sqrt_mul_self hTc]
  have hcx : T * cos dec * cos (atan2 xi r') = r ∧ T * cos dec * sin (atan2 xi r') = xi := by
    rcases hr' with rfl | ⟨h0, h1⟩
    · have h1 := hyp_cos_atan2 xi r'
      have h2 := hyp_sin_atan2 xi r'
      rw [hroot] at h1 h2
      exact ⟨h1, h2⟩
    · rw [h0, h1] at hroot
      simp at hroot
      have : T * cos dec = 0 := by rcases hroot with h | h <;> simp [h]
      rw [this, h0, h1]; simp
  refine ⟨?_, ?_, ?_⟩
  · apply mul_left_cancel₀ hK.ne'
    simp only [s, c] at hc1 hs1 ⊢
    linear_combination -hs1 - eta * hc1
  · apply mul_left_cancel₀ hK.ne'
    rw [← mul_assoc T, hcx.1]
    simp only [s, c] at hc1 hs1 ⊢
    linear_combination -hc1 + eta * hs1
  · rw [← mul_assoc]; exact hcx.2

/-- Unfolded form of palDtps2c. -/
private theorem dtps2c_eq (xi eta ra dec : ℝ) :
    let T := √(xi * xi + 1 + eta * eta)
    let r2 := cos dec * cos dec * (eta * eta + 1) - sin dec * sin dec * (xi * xi)
    let r' := if xi = 0 ∧ √r2 = 0 then 1 else √r2
    palDtps2c xi eta ra dec = if r2 ≥ 0 then
      (if |sin dec * T| < 1 then 1 else 2,
       some ((eraAnp (ra - atan2 xi r'), atan2 (sin dec * T - eta * √r2) (sin dec * T * eta + √r2)),
             (eraAnp (ra - atan2 xi (-r')), atan2 (sin dec * T - eta * -r') (sin dec * T * eta + -r'))))
      else (0, none) := rfl

/-- **C33** (genuine) Every tangent point delivered by palDtps2c projects the star to the given coordinates; the exception for the second solution is a star exactly at a
pole with xi = 0.  RAs are in [0,2π). -/
theorem C33_dtps2c_genuine_partial (xi eta ra dec : ℝ) (h1 : -(π / 2) ≤ dec) (h2 : dec ≤ π / 2) (n : ℤ) (p q : ℝ × ℝ)
    (h : palDtps2c xi eta ra dec = (n, some (p, q))) :
    Projects ra dec p.1 p.2 xi eta ∧ (xi ≠ 0 ∨ cos dec ≠ 0 → Projects ra dec q.1 q.2 xi eta) ∧
    (0 ≤ p.1 ∧ p.1 < 2 * π) ∧ (0 ≤ q.1 ∧ q.1 < 2 * π) ∧ (n = 1 ∨ n = 2) := by
  have hcd : ¬ cos dec < 0 := not_lt.2 (Real.cos_nonneg_of_mem_Icc ⟨h1, h2⟩)
  rw [dtps2c_eq] at h
  have hpos : (0 : ℝ) < xi * xi + 1 + eta * eta := by nlinarith [mul_self_nonneg xi, mul_self_nonneg eta]
  have hT := Real.sqrt_pos.2 hpos
  have hT2 : √(xi * xi + 1 + eta * eta) * √(xi * xi + 1 + eta * eta) = 1 + xi * xi + eta * eta := by
    rw [Real.mul_self_sqrt hpos.le]; ring
  generalize √(xi * xi + 1 + eta * eta) = T at *
  generalize hr2 : cos dec * cos dec * (eta * eta + 1) - sin dec * sin dec * (xi * xi) = r2 at *
  split_ifs at h with hge hs hx hx
  all_goals (try (simp at h; done))
  all_goals
    simp only [Prod.mk.injEq, Option.some.injEq] at h
    obtain ⟨hn, hp, hq⟩ := h
    subst hp hq
    have hrr : √r2 * √r2 = r2 := Real.mul_self_sqrt hge
    refine ⟨?_, fun hne => ?_, (eraAnp_spec _).1, (eraAnp_spec _).1, ?_⟩
  all_goals first
    | exact Or.inl hn.symm
    | exact Or.inr hn.symm
    | skip
  · exact (dtps2c_solution hT hT2 (by rw [hrr, hr2]) 1 (Or.inr hx)).resolve_right hcd
  · exfalso
    have h0 : r2 = 0 := by rw [← hrr, hx.2]; simp
    rw [h0, hx.1] at hr2
    have : cos dec = 0 := by
      have hK : 0 < eta * eta + 1 := by nlinarith [mul_self_nonneg eta]
      have : cos dec * cos dec = 0 := by
        apply mul_right_cancel₀ hK.ne'; linear_combination hr2
      exact mul_self_eq_zero.1 this
    rcases hne with h | h
    · exact h hx.1
    · exact h this
  · exact (dtps2c_solution hT hT2 (by rw [hrr, hr2]) (√r2) (Or.inl rfl)).resolve_right hcd
  · exact (dtps2c_solution hT hT2 (by rw [neg_mul_neg, hrr, hr2]) (-√r2) (Or.inl rfl)).resolve_right hcd
  · exact (dtps2c_solution hT hT2 (by rw [hrr, hr2]) 1 (Or.inr hx)).resolve_right hcd
  · exfalso
    have h0 : r2 = 0 := by rw [← hrr, hx.2]; simp
    rw [h0, hx.1] at hr2
    have : cos dec = 0 := by
      have hK : 0 < eta * eta + 1 := by nlinarith [mul_self_nonneg eta]
      have : cos dec * cos dec = 0 := by
        apply mul_right_cancel₀ hK.ne'; linear_combination hr2
      exact mul_self_eq_zero.1 this
    rcases hne with h | h
    · exact h hx.1
    · exact h this
  · exact (dtps2c_solution hT hT2 (by rw [hrr, hr2]) (√r2) (Or.inl rfl)).resolve_right hcd
  · exact (dtps2c_solution hT hT2 (by rw [neg_mul_neg, hrr, hr2]) (-√r2) (Or.inl rfl)).resolve_right hcd

/-- **C33** (n = 0) palDtps2c reports no solution exactly when no tangent point whatsoever projects the star to the given coordinates. -/
theorem C33_dtps2c_none (xi eta ra dec : ℝ) (h1 : -(π / 2) ≤ dec) (h2 : dec ≤ π / 2) :
    (palDtps2c xi eta ra dec).1 = 0 ↔ ¬ ∃ raz decz, Projects ra dec raz decz xi eta := by
  have hpos : (0 : ℝ) < xi * xi + 1 + eta * eta := by nlinarith [mul_self_nonneg xi, mul_self_nonneg eta]
  constructor
  · rintro h ⟨raz, decz, hp⟩
    have hT := Real.sqrt_pos.2 hpos
    have hT2 : √(xi * xi + 1 + eta * eta) * √(xi * xi + 1 + eta * eta) = 1 + xi * xi + eta * eta := by
      rw [Real.mul_self_sqrt hpos.le]; ring
    rw [projects_iff _ _ _ _ _ _ _ hT hT2] at hp
    obtain ⟨e1, e2, e3⟩ := hp
    have hd := sin_sq_add_cos_sq dec
    have hc := sin_sq_add_cos_sq (ra - raz)
    have hr2 : cos dec * cos dec * (eta * eta + 1) - sin dec * sin dec * (xi * xi) = (cos decz - eta * sin decz) ^ 2 := by
      rw [← e2]
      generalize √(xi * xi + 1 + eta * eta) = T at *
      have : xi * xi = (T * (cos dec * sin (ra - raz))) ^ 2 := by rw [e3]; ring
      linear_combination -cos dec * cos dec * hT2 - xi * xi * hd - this - T * T * cos dec * cos dec * hc
    rw [dtps2c_eq] at h
    rw [if_pos (by rw [hr2]; exact sq_nonneg _)] at h
    dsimp only at h
    split_ifs at h
    · simp at h
    · simp at h
  · intro h
    by_contra hn
    rw [dtps2c_eq] at hn
    split_ifs at hn with hge
    all_goals first | exact absurd rfl hn | skip
    all_goals
      apply h
      exact ⟨_, _, (C33_dtps2c_genuine_partial xi eta ra dec h1 h2 _ _ _ (by rw [dtps2c_eq]; rw [if_pos hge])).1⟩

/-- **C33** (n = 1) The first solution is the useful one (within ±90°), the second is over the pole. -/
theorem C33_dtps2c_one (xi eta ra dec : ℝ) (p q : ℝ × ℝ) (h : palDtps2c xi eta ra dec = (1, some (p, q))) :
    |p.2| < π / 2 ∧ π / 2 < |q.2| := by
  rw [dtps2c_eq] at h
  have hpos : (0 : ℝ) < xi * xi + 1 + eta * eta := by nlinarith [mul_self_nonneg xi, mul_self_nonneg eta]
  have hT := Real.sqrt_pos.2 hpos
  have hT2 : √(xi * xi + 1 + eta * eta) * √(xi * xi + 1 + eta * eta) = 1 + xi * xi + eta * eta := by
    rw [Real.mul_self_sqrt hpos.le]; ring
  generalize √(xi * xi + 1 + eta * eta) = T at *
  generalize hr2 : cos dec * cos dec * (eta * eta + 1) - sin dec * sin dec * (xi * xi) = r2 at *
  by_cases hge : r2 ≥ 0
  swap
  · rw [if_neg hge] at h; simp at h
  rw [if_pos hge] at h
  by_cases hs : |sin dec * T| < 1
  · have hd := sin_sq_add_cos_sq dec
    -- the square root is larger than |sdf eta|
    have hK : 0 < 1 + eta * eta := by nlinarith [mul_self_nonneg eta]
    have hlt : (sin dec * T * eta) ^ 2 < r2 := by
      have : r2 - (sin dec * T * eta) ^ 2 = (1 + eta * eta) * (1 - (sin dec * T) ^ 2) := by
        rw [← hr2]; linear_combination (eta * eta + 1) * hd + sin dec * sin dec * hT2
      have h1 : (sin dec * T) ^ 2 < 1 := by rw [sq_lt_one_iff_abs_lt_one]; exact hs
      have := mul_pos hK (by linarith : 0 < 1 - (sin dec * T) ^ 2)
      linarith
    have habs : |sin dec * T * eta| < √r2 := by
      rw [← Real.sqrt_sq_eq_abs]; exact Real.sqrt_lt_sqrt (sq_nonneg _) hlt
    have hr0 : √r2 ≠ 0 := (lt_of_le_of_lt (abs_nonneg _) habs).ne'
    rw [if_pos hs, if_neg (fun h => hr0 h.2)] at h
    simp only [Prod.mk.injEq, Option.some.injEq, true_and] at h
    obtain ⟨hp, hq⟩ := h
    subst hp hq
    rw [abs_lt] at habs
    constructor
    · exact Complex.abs_arg_lt_pi_div_two_iff.2 (Or.inl (by show 0 < sin dec * T * eta + √r2; linarith))
    · by_contra hcon
      push Not at hcon
      have := Complex.abs_arg_le_pi_div_two_iff.1 hcon
      have h3 : 0 ≤ sin dec * T * eta + -√r2 := this
      linarith
  · rw [if_neg hs] at h; simp at h

/-- **C33** (refuted at the pole) For a star exactly at a pole with xi = eta = 0 palDtps2c reports two solutions, but the second one is not a solution. -/
theorem C33_dtps2c_pole_refuted (ra : ℝ) :
    ∃ p q, palDtps2c 0 0 ra (π / 2) = (2, some (p, q)) ∧ Projects ra (π / 2) p.1 p.2 0 0 ∧ ¬ Projects ra (π / 2) q.1 q.2 0 0 := by
  have e : palDtps2c 0 0 ra (π / 2) = (2, some ((eraAnp (ra - atan2 0 1), atan2 1 0), (eraAnp (ra - atan2 0 (-1)), atan2 1 (-1)))) := by
    rw [dtps2c_eq]; simp
  refine ⟨_, _, e, ?_, ?_⟩
  · exact (C33_dtps2c_genuine_partial 0 0 ra (π / 2) (by linarith [Real.pi_pos]) le_rfl _ _ _ e).1
  · intro h
    obtain ⟨h1, h2, h3⟩ := h
    obtain ⟨_, _, d3⟩ := dot_dirs ra (π / 2) (eraAnp (ra - atan2 0 (-1))) (atan2 1 (-1))
    dsimp only at h3
    rw [d3] at h3
    simp at h3
    have := hyp_cos_atan2 1 (-1)
    rw [← h3] at this
    norm_num at this

/-- **C73** (refuted) "n = 2: both solutions are useful" fails: for a star at declination 60° and eta = -1 two solutions are reported although both have declinations beyond the
pole, and no tangent point with declination within ±90° exists at all. -/
theorem C73_dtps2c_useful_refuted (ra : ℝ) :
    (∃ p q, palDtps2c 0 (-1) ra (π / 3) = (2, some (p, q)) ∧ π / 2 < |p.2| ∧ π / 2 < |q.2|) ∧
    ¬ ∃ raz decz, -(π / 2) ≤ decz ∧ decz ≤ π / 2 ∧ Projects ra (π / 3) raz decz 0 (-1) := by
  have h2 : √(2 : ℝ) * √2 = 2 := Real.mul_self_sqrt (by norm_num)
  have h3 : √(3 : ℝ) * √3 = 3 := Real.mul_self_sqrt (by norm_num)
  have p2 : 0 < √(2 : ℝ) := Real.sqrt_pos.2 (by norm_num)
  have p3 : 0 < √(3 : ℝ) := Real.sqrt_pos.2 (by norm_num)
  have q3 : (17 : ℝ) / 10 < √3 := Real.lt_sqrt_of_sq_lt (by norm_num)
  have q2 : (14 : ℝ) / 10 < √2 := Real.lt_sqrt_of_sq_lt (by norm_num)
  have hhalf : √(1 / 2 * (1 / 2) * (1 + 1) : ℝ) = √2 / 2 := by
    rw [show (1 / 2 * (1 / 2) * (1 + 1) : ℝ) = (√2 / 2) * (√2 / 2) by linear_combination -h2 / 4]
    exact Real.sqrt_mul_self (by positivity)
  have hne : √2 / 2 ≠ 0 := by positivity
  have e : palDtps2c 0 (-1) ra (π / 3) = (2, some ((eraAnp (ra - atan2 0 (√2 / 2)), atan2 (√3 / 2 * √2 + √2 / 2) (-(√3 / 2 * √2) + √2 / 2)),
      (eraAnp (ra - atan2 0 (-(√2 / 2))), atan2 (√3 / 2 * √2 - √2 / 2) (-(√3 / 2 * √2) - √2 / 2)))) := by
    rw [dtps2c_eq]
    rw [cos_pi_div_three, sin_pi_div_three]
    have e2 : (0 : ℝ) * 0 + 1 + -1 * -1 = 2 := by norm_num
    have e3 : (1 / 2 * (1 / 2) * (-1 * -1 + 1) - √3 / 2 * (√3 / 2) * (0 * 0) : ℝ) = 1 / 2 * (1 / 2) * (1 + 1) := by ring
    have e4 : ¬ |√3 / 2 * √2| < 1 := by rw [not_lt, abs_of_pos (by positivity)]; nlinarith
    have e5 : ¬ ((0 : ℝ) = 0 ∧ √2 / 2 = 0) := fun h => hne h.2
    rw [e2, e3, hhalf, if_pos (by norm_num), if_neg e4, if_neg e5]
    congr 3
    · congr 2 <;> ring
    · congr 2 <;> ring
  refine ⟨⟨_, _, e, ?_, ?_⟩, ?_⟩
  · by_contra hcon
    push Not at hcon
    have h4 : 0 ≤ -(√3 / 2 * √2) + √2 / 2 := Complex.abs_arg_le_pi_div_two_iff.1 hcon
    nlinarith
  · by_contra hcon
    push Not at hcon
    have h4 : 0 ≤ -(√3 / 2 * √2) - √2 / 2 := Complex.abs_arg_le_pi_div_two_iff.1 hcon
    nlinarith
  · rintro ⟨raz, decz, hl, hu, hp⟩
    have hT : 0 < √(2 : ℝ) := p2
    rw [projects_iff _ _ _ _ _ _ (√2) hT (by rw [h2]; norm_num)] at hp
    obtain ⟨e1, _, _⟩ := hp
    rw [sin_pi_div_three] at e1
    have hc := Real.cos_nonneg_of_mem_Icc ⟨hl, hu⟩
    have hs := Real.sin_le_one decz
    nlinarith

/-- **C73** (partial) If n = 2 and eta has the sign of the declination, both solutions are useful, i.e. within ±90°. -/
theorem C73_dtps2c_useful_partial (xi eta ra dec : ℝ) (p q : ℝ × ℝ) (h : palDtps2c xi eta ra dec = (2, some (p, q))) (hne : xi ≠ 0 ∨ cos dec ≠ 0)
    (hpos : 0 < eta * sin dec) : |p.2| ≤ π / 2 ∧ |q.2| ≤ π / 2 := by
  rw [dtps2c_eq] at h
  have hpos' : (0 : ℝ) < xi * xi + 1 + eta * eta := by nlinarith [mul_self_nonneg xi, mul_self_nonneg eta]
  have hT := Real.sqrt_pos.2 hpos'
  have hT2 : √(xi * xi + 1 + eta * eta) * √(xi * xi + 1 + eta * eta) = 1 + xi * xi + eta * eta := by
    rw [Real.mul_self_sqrt hpos'.le]; ring
  generalize √(xi * xi + 1 + eta * eta) = T at *
  generalize hr2 : cos dec * cos dec * (eta * eta + 1) - sin dec * sin dec * (xi * xi) = r2 at *
  have hK : 0 < 1 + eta * eta := by nlinarith [mul_self_nonneg eta]
  have hd := sin_sq_add_cos_sq dec
  split_ifs at h with hge hs hx hx
  · simp at h
  · simp at h
  · exfalso
    have hrr : √r2 * √r2 = r2 := Real.mul_self_sqrt hge
    have h0 : r2 = 0 := by rw [← hrr, hx.2]; simp
    rw [h0, hx.1] at hr2
    have : cos dec * cos dec = 0 := by
      apply mul_right_cancel₀ hK.ne'; linear_combination hr2
    rcases hne with h | h
    · exact h hx.1
    · exact h (mul_self_eq_zero.1 this)
  · have hle : r2 ≤ (sin dec * T * eta) ^ 2 := by
      have : r2 - (sin dec * T * eta) ^ 2 = (1 + eta * eta) * (1 - (sin dec * T) ^ 2) := by
        rw [← hr2]; linear_combination (eta * eta + 1) * hd + sin dec * sin dec * hT2
      have h1 : 1 ≤ (sin dec * T) ^ 2 := by rw [one_le_sq_iff_one_le_abs]; exact not_lt.1 hs
      have := mul_nonneg hK.le (by linarith : 0 ≤ (sin dec * T) ^ 2 - 1)
      linarith
    have hse : 0 < sin dec * T * eta := by
      have := mul_pos hpos hT
      linarith [this, show sin dec * T * eta = eta * sin dec * T by ring]
    have hroot : √r2 ≤ sin dec * T * eta := Real.sqrt_le_iff.2 ⟨hse.le, hle⟩
    simp only [Prod.mk.injEq, Option.some.injEq, true_and] at h
    obtain ⟨hp, hq⟩ := h
    subst hp hq
    have hn := Real.sqrt_nonneg r2
    exact ⟨abs_atan2_le (by linarith), abs_atan2_le (by linarith)⟩
  · simp at h

example (ra : ℝ) : ∃ p q, palDtps2c 0 0 ra 0 = (1, some (p, q)) := by
  rw [dtps2c_eq]; simp

/-- **C34** palDeuler is the product, in the order written, of the rotations about the axes named by the first three characters, up to the first character that does not name
an axis; upper case, lower case and digits are equivalent; the result is always a proper rotation. -/
theorem C34_deuler (order : List Char) (phi theta psi : ℝ) :
    palDeuler order phi theta psi = eulerFactor order 2 psi * eulerFactor order 1 theta * eulerFactor order 0 phi ∧
    IsRotation (palDeuler order phi theta psi) := by
  have hf : ∀ i t, IsRotation (eulerFactor order i t) := by
    intro i t
    unfold eulerFactor axisOf
    split
    · exact rot_one
    · split
      · exact rot_one
      · rename_i R hR
        split_ifs
        · split_ifs at hR <;> simp at hR <;> subst hR
          · exact rot_axisX t
          · exact rot_axisY t
          · exact rot_axisZ t
        · exact rot_one
  have h : palDeuler order phi theta psi = eulerFactor order 2 psi * eulerFactor order 1 theta * eulerFactor order 0 phi := by
    have hstep : ∀ (rot : ℕ → ℝ) (i : ℕ) (m : Mat3), i < 3 → deulerLoop order rot i m =
        match order[i]? with
        | none => m
        | some c => match axisOf c with
          | none => m
          | some R => deulerLoop order rot (i + 1) (R (rot i) * m) := by
      intro rot i m hi
      rw [deulerLoop, if_pos hi]
      cases order[i]? with
      | none => rfl
      | some c =>
        simp only [axisOf, List.mem_cons, List.not_mem_nil, or_false, eraRx_eq, eraRy_eq, eraRz_eq]
        split_ifs <;> rfl
    have hend : ∀ (rot : ℕ → ℝ) (m : Mat3), deulerLoop order rot 3 m = m := by
      intro rot m; rw [deulerLoop, if_neg (lt_irrefl 3)]
    unfold palDeuler
    rw [eraIr_eq]
    rcases order with _ | ⟨a, _ | ⟨b, _ | ⟨c, t⟩⟩⟩
    · simp [hstep, eulerFactor]
    · cases ha : axisOf a <;> simp [hstep, eulerFactor, ha]
    · cases ha : axisOf a <;> cases hb : axisOf b <;> simp [hstep, eulerFactor, ha, hb]
    · cases ha : axisOf a <;> cases hb : axisOf b <;> cases hc : axisOf c <;>
        simp [hstep, hend, eulerFactor, ha, hb, hc, Matrix.mul_assoc]
  refine ⟨h, ?_⟩
  rw [h]
  exact rot_mul (rot_mul (hf _ _) (hf _ _)) (hf _ _)

example : palDeuler ['z', 'Q', 'x'] 1 2 3 = axisZ 1 := by
  rw [(C34_deuler _ _ _ _).1]; simp [eulerFactor, axisOf]

end Pal.Props
