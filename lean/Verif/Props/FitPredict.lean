import Verif.Props.OrbitPv
import Verif.Props.KeplerEl
import Verif.Props.KeplerHyp
import Verif.Lemmas.ConicMotion
import Verif.Lemmas.Map

/-!
# C113: elements fitted by palPv2el, given to palPlanel, predict the motion of the body

A state vector is turned into osculating elements by palPv2el, and palPlanel is asked where the body is at another date.  The claims compare palPlanel's answer with the
two-body motion (Newton's equation of motion, unit of time the day) through the original state.
-/

namespace Pal.Props
open Real Pal.Spec Pal.Orbit Pal.Kepler Pal.Conic Pal.Plane

/-- The ecliptic vector on the axes of the equator. -/
noncomputable def toEqu (p : Fin 3 → ℝ) : Fin 3 → ℝ := (tilt obSE obCE).mulVec p

theorem toEqu_fromOrbit (w i o x y : ℝ) : toEqu (fromOrbit 0 1 w i o x y) = fromOrbit obSE obCE w i o x y := by
  unfold toEqu fromOrbit
  rw [Matrix.mulVec_mulVec]
  congr 1
  have : tilt 0 1 = 1 := by
    unfold tilt; ext i j; fin_cases i <;> fin_cases j <;> simp
  rw [this]
  simp only [Matrix.one_mul, Matrix.mul_assoc]

theorem fromOrbit_same {w w' i o : ℝ} (s c x y : ℝ) (h : SameAngle w w') : fromOrbit s c w i o x y = fromOrbit s c w' i o x y := by
  obtain ⟨k, hk⟩ := h
  have : axisZ (-w) = axisZ (-w') := by
    unfold axisZ
    rw [Real.cos_neg, Real.cos_neg, Real.sin_neg, Real.sin_neg, hk, Real.cos_add_int_mul_two_pi, Real.sin_add_int_mul_two_pi]
  unfold fromOrbit; rw [this]

theorem ellipse_turn {a e n M M' x y xd yd : ℝ} (h : KeplerEllipse a e n M x y xd yd) (hM : SameAngle M' M) : KeplerEllipse a e n M' x y xd yd := by
  obtain ⟨E, h1, h2, h3, h4, h5⟩ := h
  obtain ⟨k, hk⟩ := hM
  refine ⟨E + k * (2 * π), ?_, ?_, ?_, ?_, ?_⟩
  · rw [Real.sin_add_int_mul_two_pi, hk, h1]; ring
  · rw [Real.cos_add_int_mul_two_pi, h2]
  · rw [Real.sin_add_int_mul_two_pi, h3]
  · rw [Real.cos_add_int_mul_two_pi, Real.sin_add_int_mul_two_pi, h4]
  · rw [Real.cos_add_int_mul_two_pi, h5]

/-- Energy and size of the ellipse. -/
theorem ellipse_energy {a e n M x y xd yd mu w i o : ℝ} (h : KeplerEllipse a e n M x y xd yd) (ha : 0 < a) (he0 : 0 ≤ e) (he1 : e < 1) (hmu : n ^ 2 * a ^ 3 = mu) :
    energy mu (fromOrbit 0 1 w i o x y) (fromOrbit 0 1 w i o xd yd) = -mu / a := by
  obtain ⟨E, -, h2, h3, h4, h5⟩ := h
  have hpos : 0 < 1 - e * cos E := by nlinarith [Real.cos_le_one E]
  have hβ2 : √(1 - e ^ 2) ^ 2 = 1 - e ^ 2 := Real.sq_sqrt (sub_nonneg.2 (pow_le_one₀ he0 he1.le))
  have hsc := Real.sin_sq_add_cos_sq E
  have hr : x ^ 2 + y ^ 2 = (a * (1 - e * cos E)) ^ 2 := by rw [h2, h3, mul_pow, mul_pow, mul_pow, hβ2, mul_pow]; grind
  have hv : (xd ^ 2 + yd ^ 2) * (1 - e * cos E) ^ 2 = a ^ 2 * n ^ 2 * (1 - e * cos E) * (1 + e * cos E) := by
    have e1 : (xd ^ 2 + yd ^ 2) * (1 - e * cos E) ^ 2 = (xd * (1 - e * cos E)) ^ 2 + (yd * (1 - e * cos E)) ^ 2 := by ring
    rw [e1, h4, h5, mul_pow _ (cos E), mul_pow _ (√(1 - e ^ 2)), hβ2]; grind
  have hv' : xd ^ 2 + yd ^ 2 = a ^ 2 * n ^ 2 * (1 + e * cos E) / (1 - e * cos E) := by
    rw [eq_div_iff hpos.ne']
    exact mul_right_cancel₀ hpos.ne' (by linear_combination hv)
  unfold energy
  rw [← Real.sq_sqrt (dot_self_nonneg (fromOrbit 0 1 w i o xd yd)), ← len_eq, ecl_len, ecl_len, hr,
    Real.sq_sqrt (by positivity), Real.sqrt_sq (by positivity), hv', ← hmu]
  field_simp
  ring

/-- **C113** (ellipses) Fit elements of any form to a state at `date0` with palPv2el, and give them to palPlanel for another date.  If palPlanel succeeds, position and
velocity are those of the two-body motion through the original state, at that date: `a` is the semi-major axis that the energy of the state gives, `n` the mean motion
(radians per day).  (Forms 2 and 3 do not tell palPlanel the mass of the body, so for them the mass has to be zero.) -/
theorem C113_ellipse (pv0 : PV) (date0 pmass : ℝ) (jformr : ℤ) (el0 el : Elems) (hfit : palPv2el pv0 date0 pmass jformr el0 = some (el, 0)) (he : el.e < 1)
    (hmass : jformr = 1 ∨ pmass = 0) (date : ℝ) (u : Univ) (pv pv' : PV)
    (hpred : palPlanel date el.jform el.epoch el.orbinc el.anode el.perih el.aorq el.e el.aorl el.dm u pv = some (pv', 0))
    (mu : ℝ) (hmu : mu = (1 + pmass) * gcon ^ 2) (x v : ℝ → Fin 3 → ℝ) (hm : TwoBody mu x v) (hx : x date0 = eclPos pv0) (hv : v date0 = eclVel pv0)
    (a n N κ : ℝ) (ha : a = -mu / energy mu (x date0) (v date0)) (hn : n = √(mu / a ^ 3)) (hbig : 1 + pmass ≤ 10 ^ 18 * a)
    (hN : N = (1 + √((1 + pmass) / a)) * (1 + 2 * π + n * |date - date0|)) (hκ : κ = √((1 + el.e) / (1 - el.e))) :
    len (fun i => pv'.p i - toEqu (x date) i) ≤ 4e-11 * N * κ * a ∧
    (1e-11 * N ≤ 1 - el.e → len (fun i => 86400 * pv'.v i - toEqu (v date) i) ≤ 4e-11 * N * κ * (n * a) / (1 - el.e) ^ 2) := by
  obtain ⟨argph, a', n', M, x0, y0, xd0, yd0, hp0, hv0, hK, ha', hn', hna, hMpi, -, -, he0, hpe, hj, f1, f2, f3⟩ := C86_ellipse pv0 date0 pmass jformr el0 el hfit he
  obtain ⟨hm0, hjs, -⟩ := pv2el_ok hfit
  have hg := gcon_pos
  have h1e : 0 < 1 - el.e := by linarith
  have hmu0 : 0 < mu := by rw [hmu]; positivity
  have haa : a = a' := by
    rw [ha, hx, hv, hp0, hv0, ellipse_energy hK ha' he0 he (hna.trans hmu.symm)]
    field_simp
  subst haa
  have hnn : n = n' := by
    rw [hn, hmu, ← hna, mul_div_cancel_right₀ _ (by positivity), Real.sqrt_sq hn']
  subst hnn
  have hn0 : 0 < n := by rw [hn]; exact Real.sqrt_pos.2 (by positivity)
  -- the motion
  obtain ⟨X, V, hTB, hXV⟩ := ellipse_motion argph el.orbinc el.anode ha' he0 he (hna.trans hmu.symm) M date0
  obtain ⟨b1, b2⟩ := hXV date0 x0 y0 xd0 yd0 (by rw [sub_self, mul_zero, add_zero]; exact hK)
  obtain ⟨rfl, rfl⟩ := motion_unique hm hTB (t0 := date0) (by rw [hx, hp0, b1]) (by rw [hv, hv0, b2])
  -- what palPlanel makes of the elements
  obtain ⟨pht, w, q, m, hs, hq, hw, hm1, hMs, hMb⟩ : ∃ pht w q m, standardForm el.jform el.epoch el.anode el.perih el.aorq el.e el.aorl el.dm = (pht, w, q, m) ∧
      q = a * (1 - el.e) ∧ SameAngle w argph ∧ m = 1 + pmass ∧ SameAngle (n * (date - pht)) (M + n * (date - date0)) ∧ |n * (date0 - pht)| ≤ 2 * π := by
    have hm1 : n ^ 2 * a ^ 3 / gcon ^ 2 = 1 + pmass := by rw [hna]; field_simp
    rw [hj]
    rcases hjs with rfl | rfl | rfl
    · obtain ⟨g1, g2, g3, g4, g5, hal⟩ := f1 rfl
      refine ⟨_, _, _, _, by unfold standardForm; rw [if_pos rfl], by rw [g3], ?_, by rw [g3, g5]; exact hm1, ?_, ?_⟩
      · obtain ⟨k, hk⟩ := g2
        exact ⟨k, by rw [hk]; ring⟩
      · obtain ⟨k, hk⟩ := g4
        refine ⟨k, ?_⟩
        rw [g1, g5, hk]; field_simp; ring
      · rw [g1, g5, show n * (date0 - (date0 - (el.aorl - el.perih) / n)) = el.aorl - el.perih by field_simp; ring]
        exact (abs_sub_lt_of_nonneg_of_lt hal.1 hal.2 hpe.1 hpe.2).le
    · obtain ⟨g1, g2, g3, g4, -, hal⟩ := f2 rfl
      have hp : pmass = 0 := by rcases hmass with h | h; exact absurd h (by norm_num); exact h
      have hng : n = gcon / √(el.aorq ^ 3) := by
        rw [hn, hmu, hp, g3, add_zero, one_mul, Real.sqrt_div' _ (by positivity), Real.sqrt_sq hg.le]
      refine ⟨_, _, _, _, by unfold standardForm; rw [if_neg (by norm_num), if_pos rfl], by rw [g3], g2, by rw [hp, add_zero], ?_, ?_⟩
      · obtain ⟨k, hk⟩ := g4
        refine ⟨k, ?_⟩
        rw [← hng, g1, hk]; field_simp; ring
      · rw [← hng, g1, show n * (date0 - (date0 - el.aorl / n)) = el.aorl by field_simp; ring]
        rw [abs_of_nonneg hal.1]; exact hal.2.le
    · obtain ⟨g1, g2, g3, -, -⟩ := f3 rfl
      have hp : pmass = 0 := by rcases hmass with h | h; exact absurd h (by norm_num); exact h
      refine ⟨_, _, _, _, by unfold standardForm; rw [if_neg (by norm_num), if_neg (by norm_num)], g3, g2, by rw [hp, add_zero], ?_, ?_⟩
      · refine ⟨0, ?_⟩
        rw [g1]; field_simp; push_cast; ring
      · rw [g1, show n * (date0 - (date0 - M / n)) = M by field_simp; ring]
        linarith [Real.pi_pos]
  obtain ⟨x1, y1, xd1, yd1, hK1, hp1, hv1⟩ := C112_ellipse_partial date el.jform el.epoch el.orbinc el.anode el.perih el.aorq el.e el.aorl el.dm u pv pv' hpred he pht w q m hs
    a n (n * (date - pht)) _ κ (by rw [hq]; field_simp) (by
      rw [hn, hmu, hm1, mul_div_right_comm, mul_comm, Real.sqrt_mul' _ (by positivity), Real.sqrt_sq hg.le]) rfl (by rw [hm1]; exact hbig) rfl hκ
  have hN' : (1 + √(m / a)) * (1 + |n * (date - pht)|) ≤ N := by
    rw [hN, hm1]
    have h1 : |n * (date - pht)| ≤ 2 * π + n * |date - date0| := by
      rw [show n * (date - pht) = n * (date0 - pht) + n * (date - date0) by ring]
      refine (abs_add_le _ _).trans ?_
      rw [abs_mul n (date - date0), abs_of_pos hn0]; linarith
    exact mul_le_mul_of_nonneg_left (by linarith) (by positivity)
  obtain ⟨c1, c2⟩ := hXV date x1 y1 xd1 yd1 (ellipse_turn hK1 (by obtain ⟨k, hk⟩ := hMs; exact ⟨-k, by rw [hk]; push_cast; ring⟩))
  have hκ0 : 0 ≤ κ := by rw [hκ]; exact Real.sqrt_nonneg _
  rw [fromOrbit_same _ _ _ _ hw, ← toEqu_fromOrbit, ← c1] at hp1
  rw [fromOrbit_same _ _ _ _ hw, ← toEqu_fromOrbit, ← c2] at hv1
  refine ⟨hp1.trans ?_, fun h => (hv1 ?_).trans ?_⟩
  · gcongr
  · exact (mul_le_mul_of_nonneg_left hN' (by norm_num)).trans h
  · gcongr

theorem hyperbola_energy {a e n M x y xd yd mu w i o : ℝ} (h : KeplerHyperbola a e n M x y xd yd) (ha : 0 < a) (he1 : 1 < e) (hmu : n ^ 2 * a ^ 3 = mu) :
    energy mu (fromOrbit 0 1 w i o x y) (fromOrbit 0 1 w i o xd yd) = mu / a := by
  obtain ⟨E, -, h2, h3, h4, h5⟩ := h
  have hpos : 0 < e * cosh E - 1 := by nlinarith [Real.one_le_cosh E]
  have hβ2 : √(e ^ 2 - 1) ^ 2 = e ^ 2 - 1 := Real.sq_sqrt (by nlinarith)
  have hsc := Real.cosh_sq E
  have hr : x ^ 2 + y ^ 2 = (a * (e * cosh E - 1)) ^ 2 := by rw [h2, h3, mul_pow, mul_pow, mul_pow, hβ2, mul_pow]; grind
  have hv : (xd ^ 2 + yd ^ 2) * (e * cosh E - 1) ^ 2 = a ^ 2 * n ^ 2 * (e * cosh E - 1) * (e * cosh E + 1) := by
    have e1 : (xd ^ 2 + yd ^ 2) * (e * cosh E - 1) ^ 2 = (xd * (e * cosh E - 1)) ^ 2 + (yd * (e * cosh E - 1)) ^ 2 := by ring
    rw [e1, h4, h5, mul_pow _ (cosh E), mul_pow _ (√(e ^ 2 - 1)), hβ2]; grind
  have hv' : xd ^ 2 + yd ^ 2 = a ^ 2 * n ^ 2 * (e * cosh E + 1) / (e * cosh E - 1) := by
    rw [eq_div_iff hpos.ne']
    exact mul_right_cancel₀ hpos.ne' (by linear_combination hv)
  unfold energy
  rw [← Real.sq_sqrt (dot_self_nonneg (fromOrbit 0 1 w i o xd yd)), ← len_eq, ecl_len, ecl_len, hr,
    Real.sq_sqrt (by positivity), Real.sqrt_sq (by positivity), hv', ← hmu]
  field_simp
  ring

/-- **C113** (hyperbolas, near perihelion) The same for a body of negligible mass on a hyperbola, with the accuracy of `C112_hyperbola_partial`: `a` is the semi-axis and `n`
the mean motion that the energy of the state gives, `M` the mean anomaly at the date asked for.  Far from perihelion the bound becomes useless (see
`C112_hyperbola_refuted`). -/
theorem C113_hyperbola (pv0 : PV) (date0 : ℝ) (jformr : ℤ) (el0 el : Elems) (hfit : palPv2el pv0 date0 0 jformr el0 = some (el, 0)) (he : 1 < el.e)
    (date : ℝ) (u : Univ) (pv pv' : PV)
    (hpred : palPlanel date el.jform el.epoch el.orbinc el.anode el.perih el.aorq el.e el.aorl el.dm u pv = some (pv', 0))
    (x v : ℝ → Fin 3 → ℝ) (hm : TwoBody (gcon ^ 2) x v) (hx : x date0 = eclPos pv0) (hv : v date0 = eclVel pv0)
    (a n M N Z κ : ℝ) (ha : a = gcon ^ 2 / energy (gcon ^ 2) (x date0) (v date0)) (hn : n = √(gcon ^ 2 / a ^ 3)) (hM : M = n * (date - el.epoch))
    (hZ : Z = el.e * |M| / (el.e - 1)) (hN : N = (1 + √(1 / a)) * (1 + Z) ^ 3) (hκ : κ = √((el.e + 1) / (el.e - 1))) :
    len (fun i => pv'.p i - toEqu (x date) i) ≤ 8e-13 * N * κ * (a * (el.e * cosh Z - 1)) ∧
    (Z ≤ 10 ^ 6 → len (fun i => 86400 * pv'.v i - toEqu (v date) i) ≤ 1e-12 * N * κ * (n * a * (el.e * cosh Z - 1)) * (el.e / (el.e - 1) ^ 2)) := by
  obtain ⟨argph, a', n', M0, x0, y0, xd0, yd0, hp0, hv0, hK, ha', hn', hna, -, -, -, hj, hT, hw, hq, -, -⟩ := C86_hyperbola pv0 date0 0 jformr el0 el hfit he
  have hg := gcon_pos
  rw [add_zero, one_mul] at hna
  have haa : a = a' := by
    rw [ha, hx, hv, hp0, hv0, hyperbola_energy hK ha' he hna]
    field_simp
  subst haa
  have hnn : n = n' := by
    rw [hn, ← hna, mul_div_cancel_right₀ _ (by positivity), Real.sqrt_sq hn']
  subst hnn
  have hn0 : 0 < n := by rw [hn]; exact Real.sqrt_pos.2 (by positivity)
  obtain ⟨X, V, hTB, hXV⟩ := hyperbola_motion argph el.orbinc el.anode ha' he hna M0 date0
  obtain ⟨b1, b2⟩ := hXV date0 x0 y0 xd0 yd0 (by rw [sub_self, mul_zero, add_zero]; exact hK)
  obtain ⟨rfl, rfl⟩ := motion_unique hm hTB (t0 := date0) (by rw [hx, hp0, b1]) (by rw [hv, hv0, b2])
  have h1e : 0 < el.e - 1 := by linarith
  obtain ⟨x1, y1, xd1, yd1, hK1, hp1, hv1⟩ := C112_hyperbola_partial date el.jform el.epoch el.orbinc el.anode el.perih el.aorq el.e el.aorl el.dm u pv pv' hpred he el.epoch
    el.perih el.aorq 1 (by rw [hj]; unfold standardForm; rw [if_neg (by norm_num), if_neg (by norm_num)])
    a n M N Z κ (by rw [hq]; field_simp) (by
      rw [hn, Real.sqrt_div' _ (by positivity), Real.sqrt_div' _ (by positivity), Real.sqrt_sq hg.le, Real.sqrt_one, mul_one_div]) hM hZ hN hκ
  have hM' : M = M0 + n * (date - date0) := by rw [hM, hT]; field_simp; ring
  rw [hM'] at hK1
  obtain ⟨c1, c2⟩ := hXV date x1 y1 xd1 yd1 hK1
  rw [fromOrbit_same _ _ _ _ hw, ← toEqu_fromOrbit, ← c1] at hp1
  rw [fromOrbit_same _ _ _ _ hw, ← toEqu_fromOrbit, ← c2] at hv1
  exact ⟨hp1, hv1⟩

/-- **C113** (parabolas) For a body of negligible mass on an exact parabola, palPv2el (form 3) and palPlanel together are exact: whatever the date, unless the body is
then within 0.001 AU of the Sun or slower than 0.001 AU per canonical day, palPlanel succeeds and returns the state on the two-body motion. -/
theorem C113_parabola (pv0 : PV) (date0 : ℝ) (el0 : Elems) (hr0 : 1 / 10 ^ 3 ≤ len (eclPos pv0)) (hs0 : 1 / 10 ^ 8 ≤ len (eclVel pv0))
    (x v : ℝ → Fin 3 → ℝ) (hm : TwoBody (gcon ^ 2) x v) (hx : x date0 = eclPos pv0) (hv : v date0 = eclVel pv0)
    (hen : energy (gcon ^ 2) (x date0) (v date0) = 0) (hh : cross (x date0) (v date0) ≠ 0)
    (date : ℝ) (hr : 1 / 10 ^ 3 ≤ len (toEqu (x date))) (hs : gcon / 10 ^ 3 ≤ len (toEqu (v date))) (u : Univ) (pv : PV) :
    ∃ el, palPv2el pv0 date0 0 3 el0 = some (el, 0) ∧
      palPlanel date el.jform el.epoch el.orbinc el.anode el.perih el.aorq el.e el.aorl el.dm u pv = some (⟨toEqu (x date), fun i => toEqu (v date) i / 86400⟩, 0) := by
  rw [hx, hv] at hen hh
  have hg := gcon_pos
  obtain ⟨el, hfit, he, hj, argph, x0, y0, xd0, yd0, hp0, hv0, hK, hq, -, -, -, hw⟩ := C86_parabola pv0 date0 0 el0 le_rfl hr0 hs0 hh (gcon ^ 2) (by ring) hen
  refine ⟨el, hfit, ?_⟩
  obtain ⟨X, V, hTB, hXV⟩ := parabola_motion argph el.orbinc el.anode hq (pow_pos hg 2) el.epoch
  obtain ⟨b1, b2⟩ := hXV date0 x0 y0 xd0 yd0 hK
  obtain ⟨rfl, rfl⟩ := motion_unique hm hTB (t0 := date0) (by rw [hx, hp0, b1]) (by rw [hv, hv0, b2])
  obtain ⟨x1, y1, xd1, yd1, hK1, hpl⟩ := C112_parabola_partial date el.epoch el.orbinc el.anode el.perih el.aorq el.aorl el.dm u pv hq
  have hK2 : KeplerParabola el.aorq (gcon ^ 2) (date - el.epoch) x1 y1 (gcon * xd1) (gcon * yd1) := by
    obtain ⟨D, k1, k2, k3, k4, k5⟩ := hK1
    have s1 : √(2 * el.aorq ^ 3 / gcon ^ 2) = √(2 * el.aorq ^ 3 / 1) / gcon := by rw [div_one, Real.sqrt_div (by positivity), Real.sqrt_sq hg.le]
    have s2 : √(2 * gcon ^ 2 / el.aorq) = gcon * √(2 * 1 / el.aorq) := by
      rw [show 2 * gcon ^ 2 / el.aorq = gcon ^ 2 * (2 * 1 / el.aorq) by ring, Real.sqrt_mul (by positivity), Real.sqrt_sq hg.le]
    refine ⟨D, ?_, k2, k3, ?_, ?_⟩
    · rw [s1, div_mul_eq_mul_div, ← k1]; field_simp
    · rw [s2]; linear_combination gcon * k4
    · rw [s2]; linear_combination gcon * k5
  obtain ⟨c1, c2⟩ := hXV date x1 y1 _ _ hK2
  have hvs : toEqu (v date) = fun i => gcon * fromOrbit obSE obCE el.perih el.orbinc el.anode xd1 yd1 i := by
    rw [c2, toEqu_fromOrbit, ← fromOrbit_same _ _ _ _ hw]
    funext i
    have := fromOrbit_sub el.perih el.orbinc el.anode gcon xd1 yd1 0 0 i
    have z : fromOrbit obSE obCE el.perih el.orbinc el.anode 0 0 i = 0 := by
      rw [← orbitToEqu_eq]; fin_cases i <;> simp [orbitToEqu]
    rw [z, sub_zero, sub_zero, sub_zero] at this
    exact this.symm
  have hxs : toEqu (x date) = fromOrbit obSE obCE el.perih el.orbinc el.anode x1 y1 := by
    rw [c1, toEqu_fromOrbit, ← fromOrbit_same _ _ _ _ hw]
  rw [hj, he, hpl (by rw [← hxs]; exact hr) ?_, hxs, hvs]
  · unfold cd2s spd
    congr 4
    funext i; ring
  · have hl : len (toEqu (v date)) = gcon * len (fromOrbit obSE obCE el.perih el.orbinc el.anode xd1 yd1) := by
      rw [hvs]
      unfold len
      rw [← Real.sqrt_sq hg.le, ← Real.sqrt_mul (by positivity), Real.sqrt_sq hg.le, Finset.mul_sum]
      congr 1
      exact Finset.sum_congr rfl fun i _ => by ring
    rw [hl] at hs
    refine le_of_mul_le_mul_left ?_ hg
    linarith

/-- The two-body motion through a state with an elliptical orbit exists. -/
theorem fit_motion {pv0 : PV} {date0 pmass : ℝ} {jformr : ℤ} {el0 el : Elems} (hfit : palPv2el pv0 date0 pmass jformr el0 = some (el, 0)) (he : el.e < 1) :
    ∃ x v, TwoBody ((1 + pmass) * gcon ^ 2) x v ∧ x date0 = eclPos pv0 ∧ v date0 = eclVel pv0 := by
  obtain ⟨argph, a, n, M, x0, y0, xd0, yd0, hp0, hv0, hK, ha, hn, hna, -, -, -, he0, -⟩ := C86_ellipse pv0 date0 pmass jformr el0 el hfit he
  obtain ⟨X, V, hTB, hXV⟩ := ellipse_motion argph el.orbinc el.anode ha he0 he hna M date0
  obtain ⟨b1, b2⟩ := hXV date0 x0 y0 xd0 yd0 (by rw [sub_self, mul_zero, add_zero]; exact hK)
  exact ⟨X, V, hTB, by rw [hp0, b1], by rw [hv0, b2]⟩

/-- Going to the ecliptic and back. -/
theorem toEqu_back (p : Vec3) : len (fun i => toEqu ((tilt obSE obCE).transpose.mulVec p) i - p i) ≤ 1e-16 * len p := by
  have h : (fun i => toEqu ((tilt obSE obCE).transpose.mulVec p) i - p i) = fun i => ![0, (obScale - 1) * p 1, (obScale - 1) * p 2] i := by
    unfold toEqu
    rw [Matrix.mulVec_mulVec]
    funext i
    unfold obScale
    fin_cases i <;> simp [tilt, Matrix.mulVec, dotProduct, Fin.sum_univ_three, Matrix.mul_apply] <;> ring
  have ho : |obScale - 1| ≤ 1e-16 := by unfold obScale obCE obSE; norm_num [abs_le]
  have h2 : (obScale - 1) ^ 2 ≤ (1e-16) ^ 2 := by rw [← sq_abs]; exact pow_le_pow_left₀ (abs_nonneg _) ho 2
  rw [h, len_eq, len_eq, ← Real.sqrt_sq (by norm_num : (0 : ℝ) ≤ 1e-16), ← Real.sqrt_mul (by positivity), dot_eq, dot_eq]
  refine Real.sqrt_le_sqrt ?_
  simp only [Matrix.cons_val_zero, Matrix.cons_val_one, Matrix.cons_val]
  nlinarith [mul_self_nonneg (p 0), mul_le_mul_of_nonneg_right h2 (mul_self_nonneg (p 1)), mul_le_mul_of_nonneg_right h2 (mul_self_nonneg (p 2))]

/-- **C113** (round trip) The elements that palPv2el makes of a state on an ellipse, evaluated by palPlanel for the same date, give back the state. -/
theorem C113_round_trip (pv0 : PV) (date pmass : ℝ) (jformr : ℤ) (el0 el : Elems) (hfit : palPv2el pv0 date pmass jformr el0 = some (el, 0)) (he : el.e < 1)
    (hmass : jformr = 1 ∨ pmass = 0) (u : Univ) (pv pv' : PV)
    (hpred : palPlanel date el.jform el.epoch el.orbinc el.anode el.perih el.aorq el.e el.aorl el.dm u pv = some (pv', 0))
    (mu a n N κ : ℝ) (hmu : mu = (1 + pmass) * gcon ^ 2) (ha : a = -mu / energy mu (eclPos pv0) (eclVel pv0)) (hn : n = √(mu / a ^ 3)) (hbig : 1 + pmass ≤ 10 ^ 18 * a)
    (hN : N = (1 + √((1 + pmass) / a)) * (1 + 2 * π)) (hκ : κ = √((1 + el.e) / (1 - el.e))) :
    len (fun i => pv'.p i - pv0.p i) ≤ 4e-11 * N * κ * a + 1e-16 * len pv0.p ∧
    (1e-11 * N ≤ 1 - el.e → len (fun i => 86400 * pv'.v i - 86400 * pv0.v i) ≤ 4e-11 * N * κ * (n * a) / (1 - el.e) ^ 2 + 1e-16 * len (fun i => 86400 * pv0.v i)) := by
  obtain ⟨x, v, hm, hx, hv⟩ := fit_motion hfit he
  obtain ⟨h1, h2⟩ := C113_ellipse pv0 date pmass jformr el0 el hfit he hmass date u pv pv' hpred mu hmu x v (hmu ▸ hm) hx hv a n N κ (by rw [hx, hv]; exact ha) hn hbig
    (by rw [hN, sub_self, abs_zero, mul_zero, add_zero]) hκ
  rw [hx] at h1
  rw [hv] at h2
  refine ⟨?_, fun h => ?_⟩
  · have := len_add_le (fun i => pv'.p i - toEqu (eclPos pv0) i) (fun i => toEqu (eclPos pv0) i - pv0.p i)
    simp only [sub_add_sub_cancel] at this
    exact this.trans (add_le_add h1 (toEqu_back _))
  · have := len_add_le (fun i => 86400 * pv'.v i - toEqu (eclVel pv0) i) (fun i => toEqu (eclVel pv0) i - 86400 * pv0.v i)
    simp only [sub_add_sub_cancel] at this
    refine this.trans (add_le_add (h2 h) ?_)
    have hb := toEqu_back (fun i => 86400 * pv0.v i)
    have e1 : eclVel pv0 = (tilt obSE obCE).transpose.mulVec (fun i => 86400 * pv0.v i) := by
      unfold eclVel; rw [← Matrix.mulVec_smul]; rfl
    rw [e1]; exact hb

/-- A body at its perihelion, one astronomical unit from the Sun in the plane of the ecliptic, with speed w times that of a circular orbit. -/
noncomputable def periPV (w : ℝ) : PV := ⟨![1, 0, 0], ![0, w * gcon * obCE / obScale / 86400, w * gcon * obSE / obScale / 86400]⟩

theorem peri_ecl (w : ℝ) : eclPos (periPV w) = ![1, 0, 0] ∧ eclVel (periPV w) = ![0, w * gcon, 0] := by
  have h := obScale_pos
  constructor
  · rw [eclPos, ← equToEcl_eq]; unfold equToEcl periPV; funext i; fin_cases i <;> simp
  · rw [← eclVel_eq]; unfold equToEcl periPV spd; funext i; fin_cases i
    · simp
    · simp; field_simp; unfold obScale; ring
    · simp; field_simp; ring

theorem peri_fit {w : ℝ} (hw : 1 ≤ w) (h2 : |w ^ 2 - 1 - 1| < 1 / 10 ^ 8 → w ^ 2 = 2) (el0 : Elems) :
    palPv2el (periPV w) 0 0 3 el0 = some (⟨3, 0, 0, 0, 0, 1, w ^ 2 - 1, el0.aorl, el0.dm⟩, 0) := by
  obtain ⟨h1, h3⟩ := peri_ecl w
  have hg := gcon_pos
  have hwg : 0 < w * gcon := by positivity
  have hw2 : 1 ≤ w ^ 2 := one_le_pow₀ hw
  have hl1 : len (eclPos (periPV w)) = 1 := by rw [h1, len_eq, dot_eq]; simp
  have hl2 : len (eclVel (periPV w)) = w * gcon := by rw [h3, len_eq, dot_eq]; simp [Real.sqrt_mul_self hwg.le]
  have hq : orbitQ (eclPos (periPV w)) (eclVel (periPV w)) 0 = ⟨gcon ^ 2, w ^ 2 * gcon ^ 2, 2 - w ^ 2, 0, 0, w ^ 2 - 1, 0, 0⟩ := by
    rw [h1, h3]
    unfold orbitQ
    have e1 : atan2 0 (w * gcon) = 0 := atan2_zero_pos hwg.le
    have e2 : atan2 0 1 = 0 := atan2_zero_pos zero_le_one
    have e3 : atan2 0 (w ^ 2 * gcon ^ 2 - gcon ^ 2) = 0 := atan2_zero_pos (by nlinarith [pow_pos hg 2])
    have e4 : √(max (1 - (2 - w ^ 2) * (w ^ 2 * gcon ^ 2) / gcon ^ 2) 0) = w ^ 2 - 1 := by
      rw [show 1 - (2 - w ^ 2) * (w ^ 2 * gcon ^ 2) / gcon ^ 2 = (w ^ 2 - 1) ^ 2 by field_simp; ring, max_eq_left (sq_nonneg _), Real.sqrt_sq (by linarith)]
    have e5 : (if |w ^ 2 - 1 - 1| < 1 / 10 ^ 8 then 1 else w ^ 2 - 1) = w ^ 2 - 1 := by
      split
      · rename_i h; rw [h2 h]; norm_num
      · rfl
    have e6 : w * gcon * (w * gcon) = w ^ 2 * gcon ^ 2 := by ring
    have e7 : gcon * gcon = gcon ^ 2 := by ring
    have e8 : w ^ 2 * gcon ^ 2 / gcon ^ 2 = w ^ 2 := by field_simp
    simp only [Matrix.cons_val_zero, Matrix.cons_val_one, Matrix.cons_val, mul_zero, zero_mul, add_zero, zero_add, one_mul, mul_one, sub_zero, sub_self, Real.sqrt_one, e1, e6, e7,
      Real.sqrt_zero, ne_eq, not_true_eq_false, or_self, if_false, Real.sin_zero, Real.cos_zero, neg_zero, e2, div_one, e4, e5, false_or, e3, ite_self, e8]
  rw [pv2el_valid _ _ _ _ _ le_rfl (by norm_num) (by rw [hl1]; norm_num) (by rw [hl2]; unfold gcon at *; linarith), hq]
  have e3 : eraAnp 0 = 0 := eraAnp_eq ⟨le_rfl, by positivity⟩
  have e4 : (orbitTp ⟨gcon ^ 2, w ^ 2 * gcon ^ 2, 2 - w ^ 2, 0, 0, w ^ 2 - 1, 0, 0⟩ 0) = 0 := by
    unfold orbitTp orbitMean
    dsimp only
    split_ifs <;> simp [atan2_zero_pos]
  have e5 : w ^ 2 * gcon ^ 2 / (gcon ^ 2 * w ^ 2) = 1 := by
    field_simp
  simp [e3, e4, e5]

/-- The hypotheses of C113_ellipse and C113_round_trip are met: the circle, fitted at date 0, is predicted half a canonical day later. -/
example : ∃ (el : Elems) (pv' : PV) (x v : ℝ → Fin 3 → ℝ), palPv2el (periPV 1) 0 0 3 ⟨0, 0, 0, 0, 0, 0, 0, 0, 0⟩ = some (el, 0) ∧ el.e < 1 ∧
    palPlanel (1 / 2 / gcon) el.jform el.epoch el.orbinc el.anode el.perih el.aorq el.e el.aorl el.dm ⟨0, 0, 0, fun _ => 0, fun _ => 0, 0, 0, 0, 0⟩ ⟨fun _ => 0, fun _ => 0⟩ =
      some (pv', 0) ∧ TwoBody ((1 + 0) * gcon ^ 2) x v ∧ x 0 = eclPos (periPV 1) ∧ v 0 = eclVel (periPV 1) ∧
    1 + 0 ≤ 10 ^ 18 * (-((1 + 0) * gcon ^ 2) / energy ((1 + 0) * gcon ^ 2) (x 0) (v 0)) := by
  obtain ⟨pv', h⟩ := circular_runs ⟨0, 0, 0, fun _ => 0, fun _ => 0, 0, 0, 0, 0⟩ ⟨fun _ => 0, fun _ => 0⟩
  have hf := peri_fit le_rfl (by norm_num [abs_lt]) ⟨0, 0, 0, 0, 0, 0, 0, 0, 0⟩
  obtain ⟨x, v, hm, hx, hv⟩ := fit_motion hf (by norm_num)
  refine ⟨_, pv', x, v, hf, by norm_num, by norm_num; exact h, hm, hx, hv, ?_⟩
  obtain ⟨h1, h2⟩ := peri_ecl 1
  have hg := gcon_pos
  rw [hx, hv, h1, h2]
  unfold energy
  rw [len_eq, dot_eq, dot_eq]
  simp
  rw [show gcon * gcon - 2 * gcon ^ 2 = -gcon ^ 2 by ring, neg_div_neg_eq, div_self (by positivity)]
  norm_num

/-- The hypotheses of C113_hyperbola are met: a hyperbola with eccentricity 2, fitted at perihelion. -/
example : ∃ (el : Elems) (date : ℝ) (pv' : PV) (x v : ℝ → Fin 3 → ℝ), 0 < date ∧ palPv2el (periPV (√3)) 0 0 3 ⟨0, 0, 0, 0, 0, 0, 0, 0, 0⟩ = some (el, 0) ∧ 1 < el.e ∧
    palPlanel date el.jform el.epoch el.orbinc el.anode el.perih el.aorq el.e el.aorl el.dm ⟨0, 0, 0, fun _ => 0, fun _ => 0, 0, 0, 0, 0⟩ ⟨fun _ => 0, fun _ => 0⟩ =
      some (pv', 0) ∧ TwoBody (gcon ^ 2) x v ∧ x 0 = eclPos (periPV (√3)) ∧ v 0 = eclVel (periPV (√3)) := by
  have hg := gcon_pos
  obtain ⟨pv', h⟩ := hyperbola_runs ⟨0, 0, 0, fun _ => 0, fun _ => 0, 0, 0, 0, 0⟩ ⟨fun _ => 0, fun _ => 0⟩
  have h3 : √3 ^ 2 = (3 : ℝ) := Real.sq_sqrt (by norm_num)
  have hf := peri_fit (w := √3) (Real.one_le_sqrt.2 (by norm_num)) (by rw [h3]; norm_num) ⟨0, 0, 0, 0, 0, 0, 0, 0, 0⟩
  rw [h3] at hf
  obtain ⟨argph, a, n, M, x0, y0, xd0, yd0, hp0, hv0, hK, ha, hn, hna, -⟩ := C86_hyperbola _ _ _ _ _ _ hf (by norm_num)
  obtain ⟨X, V, hTB, hXV⟩ := hyperbola_motion argph 0 0 ha (by norm_num : (1 : ℝ) < 3 - 1) hna M 0
  obtain ⟨b1, b2⟩ := hXV 0 x0 y0 xd0 yd0 (by rw [sub_self, mul_zero, add_zero]; exact hK)
  refine ⟨_, _, pv', X, V, ?_, hf, by norm_num, by norm_num at h ⊢; exact h, by rw [add_zero, one_mul] at hTB; exact hTB, by rw [hp0, b1], by rw [hv0, b2]⟩
  positivity

/-- The hypotheses of C113_parabola are met, at the date of the state itself. -/
example : ∃ (x v : ℝ → Fin 3 → ℝ), 1 / 10 ^ 3 ≤ len (eclPos (periPV (√2))) ∧ 1 / 10 ^ 8 ≤ len (eclVel (periPV (√2))) ∧ TwoBody (gcon ^ 2) x v ∧
    x 0 = eclPos (periPV (√2)) ∧ v 0 = eclVel (periPV (√2)) ∧ energy (gcon ^ 2) (x 0) (v 0) = 0 ∧ cross (x 0) (v 0) ≠ 0 ∧
    1 / 10 ^ 3 ≤ len (toEqu (x 0)) ∧ gcon / 10 ^ 3 ≤ len (toEqu (v 0)) := by
  have hg := gcon_pos
  have h2 : √2 ^ 2 = (2 : ℝ) := Real.sq_sqrt (by norm_num)
  have h20 : 1 ≤ √2 := Real.one_le_sqrt.2 (by norm_num)
  obtain ⟨h1, h3⟩ := peri_ecl (√2)
  have hl1 : len (eclPos (periPV (√2))) = 1 := by rw [h1, len_eq, dot_eq]; simp
  have hl2 : len (eclVel (periPV (√2))) = √2 * gcon := by rw [h3, len_eq, dot_eq]; simp [Real.sqrt_mul_self (by positivity : 0 ≤ √2 * gcon)]
  have hx : cross (eclPos (periPV (√2))) (eclVel (periPV (√2))) ≠ 0 := by
    intro h
    have := congrFun h 2
    rw [h1, h3] at this
    simp [cross, hg.ne'] at this
  have hen : energy (gcon ^ 2) (eclPos (periPV (√2))) (eclVel (periPV (√2))) = 0 := by
    unfold energy; rw [hl1, h3, dot_eq]; simp; linear_combination gcon ^ 2 * h2
  have hb1 : 1 / 10 ^ 3 ≤ len (eclPos (periPV (√2))) := by rw [hl1]; norm_num
  have hb2 : 1 / 10 ^ 8 ≤ len (eclVel (periPV (√2))) := by rw [hl2]; unfold gcon at *; linarith
  obtain ⟨el, -, -, -, argph, x0, y0, xd0, yd0, hp0, hv0, hK, hq, -⟩ := C86_parabola (periPV (√2)) 0 0 ⟨0, 0, 0, 0, 0, 0, 0, 0, 0⟩ le_rfl hb1 hb2 hx (gcon ^ 2) (by ring) hen
  obtain ⟨X, V, hTB, hXV⟩ := parabola_motion argph el.orbinc el.anode hq (pow_pos hg 2) el.epoch
  obtain ⟨b1, b2⟩ := hXV 0 x0 y0 xd0 yd0 hK
  have ho : (99 : ℝ) / 100 ≤ obCE ^ 2 + obSE ^ 2 := by unfold obCE obSE; norm_num
  refine ⟨X, V, hb1, hb2, hTB, by rw [hp0, b1], by rw [hv0, b2], by rw [b1, b2, ← hp0, ← hv0]; exact hen, by rw [b1, b2, ← hp0, ← hv0]; exact hx, ?_, ?_⟩
  · rw [b1, ← hp0, h1]
    refine Real.le_sqrt_of_sq_le ?_
    simp [toEqu, tilt, Matrix.mulVec, dotProduct, Fin.sum_univ_three]
    norm_num
  · rw [b2, ← hv0, h3]
    refine Real.le_sqrt_of_sq_le ?_
    simp [toEqu, tilt, Matrix.mulVec, dotProduct, Fin.sum_univ_three]
    have : obCE * (√2 * gcon) * (obCE * (√2 * gcon)) + obSE * (√2 * gcon) * (obSE * (√2 * gcon)) = 2 * gcon ^ 2 * (obCE ^ 2 + obSE ^ 2) := by
      linear_combination gcon ^ 2 * (obCE ^ 2 + obSE ^ 2) * h2
    nlinarith [pow_pos hg 2]

end Pal.Props
