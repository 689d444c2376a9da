import Verif.Model.Orbit
import Verif.Spec.Orbit
import Verif.Lemmas.Trig
import Verif.Lemmas.Vec
import Mathlib.Tactic.LinearCombination
import Mathlib.Tactic.FieldSimp

/-!
# Helper lemmas for palPv2el
-/

namespace Pal.Kepler
open Real Pal.Spec

/-- Node and inclination from the angular momentum. -/
theorem normal_spec (hx hy hz : ℝ) :
    √(hx * hx + hy * hy + hz * hz) * (sin (atan2 (√(hx * hx + hy * hy)) hz) * sin (if hx ≠ 0 ∨ hy ≠ 0 then atan2 hx (-hy) else 0)) = hx ∧
    √(hx * hx + hy * hy + hz * hz) * (sin (atan2 (√(hx * hx + hy * hy)) hz) * cos (if hx ≠ 0 ∨ hy ≠ 0 then atan2 hx (-hy) else 0)) = -hy ∧
    √(hx * hx + hy * hy + hz * hz) * cos (atan2 (√(hx * hx + hy * hy)) hz) = hz := by
  have h1 := hyp_sin_atan2 (√(hx * hx + hy * hy)) hz
  have h2 := hyp_cos_atan2 (√(hx * hx + hy * hy)) hz
  have e : hz * hz + √(hx * hx + hy * hy) * √(hx * hx + hy * hy) = hx * hx + hy * hy + hz * hz := by rw [hyp_sq]; ring
  rw [e] at h1 h2
  have h3 := hyp_sin_atan2 hx (-hy)
  have h4 := hyp_cos_atan2 hx (-hy)
  have e2 : -hy * -hy + hx * hx = hx * hx + hy * hy := by ring
  rw [e2] at h3 h4
  rw [← mul_assoc, h1, ← mul_assoc, h1]
  refine ⟨?_, ?_, h2⟩
  · split
    · exact h3
    · rename_i h; push Not at h; rw [h.1, h.2]; simp
  · split
    · exact h4
    · rename_i h; push Not at h; rw [h.1, h.2]; simp

/-- The components of a vector at right angles to the normal of the plane with inclination i and node o. -/
theorem in_plane (x y z si ci so co : ℝ) (hi : si ^ 2 + ci ^ 2 = 1) (ho : so ^ 2 + co ^ 2 = 1) (h : x * (si * so) - y * (si * co) + z * ci = 0) :
    x = (x * co + y * so) * co - ((-x * so + y * co) * ci + z * si) * (ci * so) ∧
    y = (x * co + y * so) * so + ((-x * so + y * co) * ci + z * si) * (ci * co) ∧
    z = ((-x * so + y * co) * ci + z * si) * si := by
  refine ⟨?_, ?_, ?_⟩
  · linear_combination (si * so) * h - x * ho + (-x * so ^ 2 + y * so * co) * hi
  · linear_combination (-si * co) * h - y * ho + (x * so * co - y * co ^ 2) * hi
  · linear_combination ci * h - z * hi

/-- Position in the orbit from distance and argument of latitude. -/
theorem pos_spec (x y z si ci so co r : ℝ) (hi : si ^ 2 + ci ^ 2 = 1) (ho : so ^ 2 + co ^ 2 = 1) (h : x * (si * so) - y * (si * co) + z * ci = 0)
    (hr : r = √(x * x + y * y + z * z)) :
    r * cos (atan2 ((-x * so + y * co) * ci + z * si) (x * co + y * so)) = x * co + y * so ∧
    r * sin (atan2 ((-x * so + y * co) * ci + z * si) (x * co + y * so)) = (-x * so + y * co) * ci + z * si := by
  obtain ⟨h1, h2, h3⟩ := in_plane x y z si ci so co hi ho h
  generalize hA : x * co + y * so = A at *
  generalize hB : (-x * so + y * co) * ci + z * si = B at *
  have e : r = √(A * A + B * B) := by
    rw [hr]; congr 1
    rw [h1, h2, h3]
    linear_combination (A ^ 2 + ci ^ 2 * B ^ 2) * ho + B ^ 2 * hi
  rw [e]
  exact ⟨hyp_cos_atan2 _ _, hyp_sin_atan2 _ _⟩

/-- Components of a vector of the orbit plane, ecliptic frame. -/
theorem fromOrbit_ecl (w i o x y : ℝ) : fromOrbit 0 1 w i o x y =
    ![(x * cos w - y * sin w) * cos o - (x * sin w + y * cos w) * (cos i * sin o),
      (x * cos w - y * sin w) * sin o + (x * sin w + y * cos w) * (cos i * cos o), (x * sin w + y * cos w) * sin i] := by
  unfold fromOrbit tilt axisZ axisX
  simp only [Real.cos_neg, Real.sin_neg]
  funext j
  fin_cases j <;> simp [Matrix.mulVec, dotProduct, Fin.sum_univ_three, Matrix.mul_apply] <;> ring

/-- The velocity components along the line of nodes and at right angles to it. -/
theorem vel_scalar {P1 P2 V1 V2 r mu H e cn sn cU sU rdv : ℝ} (hr : r ≠ 0) (hH : H ≠ 0) (hU : sU ^ 2 + cU ^ 2 = 1) (hn : sn ^ 2 + cn ^ 2 = 1)
    (h1 : r * cU = P1) (h2 : r * sU = P2) (hd : P1 * V1 + P2 * V2 = rdv) (hh : P1 * V2 - P2 * V1 = H)
    (hC : r * mu * e * cn = H ^ 2 - r * mu) (hS : r * mu * e * sn = H * rdv) :
    V1 = -(mu / H) * sn * (cU * cn + sU * sn) - (mu / H) * (e + cn) * (sU * cn - cU * sn) ∧
    V2 = -(mu / H) * sn * (sU * cn - cU * sn) + (mu / H) * (e + cn) * (cU * cn + sU * sn) := by
  have e1 : r * V1 = cU * rdv - sU * H := by
    subst h1 h2; linear_combination cU * hd - sU * hh - r * V1 * hU
  have e2 : r * V2 = sU * rdv + cU * H := by
    subst h1 h2; linear_combination sU * hd + cU * hh - r * V2 * hU
  constructor
  · apply mul_left_cancel₀ hr
    rw [e1]; field_simp
    linear_combination sU * hC - cU * hS + r * mu * sU * hn
  · apply mul_left_cancel₀ hr
    rw [e2]; field_simp
    linear_combination -cU * hC - sU * hS - r * mu * cU * hn

/-- The orbit found by palPv2el when the motion is not along a straight line. -/
theorem orbitQ_conic (p v : Vec3) (pmass : ℝ) (hm : 0 ≤ pmass) (hr : 0 < p 0 * p 0 + p 1 * p 1 + p 2 * p 2)
    (hH : 0 < (orbitQ p v pmass).h2) :
    ∃ e0 H r : ℝ, 0 ≤ e0 ∧ (orbitQ p v pmass).ecc = (if |e0 - 1| < 1 / 10 ^ 8 then 1 else e0) ∧
      e0 ^ 2 = 1 - (orbitQ p v pmass).ar * (orbitQ p v pmass).h2 / (orbitQ p v pmass).gmu ∧ 0 < H ∧ H ^ 2 = (orbitQ p v pmass).h2 ∧ 0 < r ∧
      r * (orbitQ p v pmass).gmu * (1 + e0 * cos (orbitQ p v pmass).at_) = H ^ 2 ∧
      p = fromOrbit 0 1 (orbitQ p v pmass).om (orbitQ p v pmass).oi (orbitQ p v pmass).bigom (r * cos (orbitQ p v pmass).at_) (r * sin (orbitQ p v pmass).at_) ∧
      v = fromOrbit 0 1 (orbitQ p v pmass).om (orbitQ p v pmass).oi (orbitQ p v pmass).bigom
        (-((orbitQ p v pmass).gmu / H) * sin (orbitQ p v pmass).at_) ((orbitQ p v pmass).gmu / H * (e0 + cos (orbitQ p v pmass).at_)) := by
  unfold orbitQ at hH ⊢
  dsimp only at hH ⊢
  have hp : p = ![p 0, p 1, p 2] := by funext i; fin_cases i <;> rfl
  have hv : v = ![v 0, v 1, v 2] := by funext i; fin_cases i <;> rfl
  generalize p 0 = x at *
  generalize p 1 = y at *
  generalize p 2 = z at *
  generalize v 0 = xd at *
  generalize v 1 = yd at *
  generalize v 2 = zd at *
  subst hp hv
  have hmu : 0 < (1 + pmass) * gcon * gcon := by
    have : 0 < gcon := by unfold gcon; norm_num
    positivity
  generalize (1 + pmass) * gcon * gcon = mu at *
  set r := √(x * x + y * y + z * z) with hrd
  have hr0 : 0 < r := Real.sqrt_pos.2 hr
  have hr2 : r ^ 2 = x * x + y * y + z * z := Real.sq_sqrt hr.le
  obtain ⟨hx, hxd⟩ : ∃ a, a = y * zd - z * yd := ⟨_, rfl⟩
  obtain ⟨hy, hyd⟩ : ∃ a, a = z * xd - x * zd := ⟨_, rfl⟩
  obtain ⟨hz, hzd⟩ : ∃ a, a = x * yd - y * xd := ⟨_, rfl⟩
  rw [← hxd, ← hyd, ← hzd] at hH ⊢
  obtain ⟨n1, n2, n3⟩ := normal_spec hx hy hz
  set o := (if hx ≠ 0 ∨ hy ≠ 0 then atan2 hx (-hy) else 0) with ho
  set i := atan2 (√(hx * hx + hy * hy)) hz with hi
  set H := √(hx * hx + hy * hy + hz * hz) with hHd
  have hH0 : 0 < H := Real.sqrt_pos.2 hH
  have hH2 : H ^ 2 = hx * hx + hy * hy + hz * hz := Real.sq_sqrt hH.le
  have ti := sin_sq_add_cos_sq i
  have tw := sin_sq_add_cos_sq o
  have pp : x * (sin i * sin o) - y * (sin i * cos o) + z * cos i = 0 := by
    apply mul_left_cancel₀ (ne_of_gt hH0)
    have : x * hx + y * hy + z * hz = 0 := by rw [hxd, hyd, hzd]; ring
    linear_combination this + x * n1 - y * n2 + z * n3
  have pv : xd * (sin i * sin o) - yd * (sin i * cos o) + zd * cos i = 0 := by
    apply mul_left_cancel₀ (ne_of_gt hH0)
    have : xd * hx + yd * hy + zd * hz = 0 := by rw [hxd, hyd, hzd]; ring
    linear_combination this + xd * n1 - yd * n2 + zd * n3
  obtain ⟨u1, u2⟩ := pos_spec x y z (sin i) (cos i) (sin o) (cos o) r ti tw pp hrd
  obtain ⟨p1, p2, p3⟩ := in_plane x y z (sin i) (cos i) (sin o) (cos o) ti tw pp
  obtain ⟨v1, v2, v3⟩ := in_plane xd yd zd (sin i) (cos i) (sin o) (cos o) ti tw pv
  obtain ⟨P1, hP1⟩ : ∃ a, a = x * cos o + y * sin o := ⟨_, rfl⟩
  obtain ⟨P2, hP2⟩ : ∃ a, a = (-x * sin o + y * cos o) * cos i + z * sin i := ⟨_, rfl⟩
  obtain ⟨V1, hV1⟩ : ∃ a, a = xd * cos o + yd * sin o := ⟨_, rfl⟩
  obtain ⟨V2, hV2⟩ : ∃ a, a = (-xd * sin o + yd * cos o) * cos i + zd * sin i := ⟨_, rfl⟩
  rw [← hP1, ← hP2] at u1 u2 p1 p2
  rw [← hP2] at p3
  rw [← hV1, ← hV2] at v1 v2
  rw [← hV2] at v3
  rw [← hP1, ← hP2]
  obtain ⟨rdv, hrdv⟩ : ∃ a, a = x * xd + y * yd + z * zd := ⟨_, rfl⟩
  obtain ⟨vv, hvv⟩ : ∃ a, a = xd * xd + yd * yd + zd * zd := ⟨_, rfl⟩
  rw [← hrdv, ← hvv, ← hH2]
  have hdot : P1 * V1 + P2 * V2 = rdv := by
    rw [hrdv, p1, p2, p3, v1, v2, v3]
    linear_combination (-P1 * V1 - cos i ^ 2 * P2 * V2) * tw - P2 * V2 * ti
  have hcr : P1 * V2 - P2 * V1 = H := by
    have e : sin i * sin o * hx - sin i * cos o * hy + cos i * hz = H := by
      rw [← n1, show hy = -(H * (sin i * cos o)) by rw [n2]; ring]
      conv_lhs => rw [← n3]
      linear_combination (H * sin i ^ 2) * tw + H * ti
    rw [← e, hxd, hyd, hzd]
    rw [p1, p2, p3, v1, v2, v3]
    linear_combination (-(P1 * V2 - P2 * V1) * (sin i ^ 2 + cos i ^ 2)) * tw - (P1 * V2 - P2 * V1) * ti
  have hLag : H ^ 2 = r ^ 2 * vv - rdv ^ 2 := by rw [hH2, hr2, hvv, hrdv, hxd, hyd, hzd]; ring
  have hnn : (r * mu) ^ 2 * (1 - (2 / r - vv / mu) * H ^ 2 / mu) = (H * rdv) ^ 2 + (H ^ 2 - r * mu) ^ 2 := by
    field_simp
    linear_combination (-H ^ 2) * hLag
  have hk : 0 < r * mu := by positivity
  have hnn' : 0 ≤ 1 - (2 / r - vv / mu) * H ^ 2 / mu := by
    have h0 : 0 ≤ (r * mu) ^ 2 * (1 - (2 / r - vv / mu) * H ^ 2 / mu) := by rw [hnn]; positivity
    exact nonneg_of_mul_nonneg_right h0 (by positivity)
  rw [max_eq_left hnn']
  obtain ⟨e0, he0⟩ : ∃ a, a = √(1 - (2 / r - vv / mu) * H ^ 2 / mu) := ⟨_, rfl⟩
  have he0n : 0 ≤ e0 := by rw [he0]; exact Real.sqrt_nonneg _
  have he02 : e0 ^ 2 = 1 - (2 / r - vv / mu) * H ^ 2 / mu := by rw [he0]; exact Real.sq_sqrt hnn'
  rw [← he0]
  have hhyp : r * mu * e0 = √((H ^ 2 - r * mu) * (H ^ 2 - r * mu) + (H * rdv) * (H * rdv)) := by
    rw [show (H ^ 2 - r * mu) * (H ^ 2 - r * mu) + (H * rdv) * (H * rdv) = (r * mu * e0) ^ 2 by linear_combination -(r * mu) ^ 2 * he02 - hnn]
    exact (Real.sqrt_sq (by positivity)).symm
  obtain ⟨ta, hta⟩ : ∃ a, a = (if H * rdv ≠ 0 ∨ H ^ 2 - r * mu ≠ 0 then atan2 (H * rdv) (H ^ 2 - r * mu) else 0) := ⟨_, rfl⟩
  rw [← hta]
  have hC : r * mu * e0 * cos ta = H ^ 2 - r * mu := by
    rw [hhyp, hta]; split
    · exact hyp_cos_atan2 _ _
    · rename_i h; push Not at h; rw [h.1, h.2]; simp
  have hS : r * mu * e0 * sin ta = H * rdv := by
    rw [hhyp, hta]; split
    · exact hyp_sin_atan2 _ _
    · rename_i h; push Not at h; rw [h.1, h.2]; simp
  obtain ⟨U, hU⟩ : ∃ a, a = atan2 P2 P1 := ⟨_, rfl⟩
  rw [← hU] at u1 u2 ⊢
  obtain ⟨w1, w2⟩ := vel_scalar (ne_of_gt hr0) (ne_of_gt hH0) (sin_sq_add_cos_sq U) (sin_sq_add_cos_sq ta) u1 u2 hdot hcr hC hS
  have tn := sin_sq_add_cos_sq ta
  refine ⟨e0, H, r, he0n, rfl, he02, hH0, rfl, hr0, by linear_combination hC, ?_, ?_⟩
  · rw [fromOrbit_ecl, cos_sub, sin_sub]
    have a1 : r * cos ta * (cos U * cos ta + sin U * sin ta) - r * sin ta * (sin U * cos ta - cos U * sin ta) = P1 := by
      rw [← u1]; linear_combination r * cos U * tn
    have a2 : r * cos ta * (sin U * cos ta - cos U * sin ta) + r * sin ta * (cos U * cos ta + sin U * sin ta) = P2 := by
      rw [← u2]; linear_combination r * sin U * tn
    rw [a1, a2]
    funext j; fin_cases j
    · exact p1
    · exact p2
    · exact p3
  · rw [fromOrbit_ecl, cos_sub, sin_sub, ← w1, ← w2]
    funext j; fin_cases j
    · exact v1
    · exact v2
    · exact v3

/-- Eccentric anomaly from true anomaly. -/
theorem ecc_anomaly {e nu : ℝ} (he0 : 0 ≤ e) (he : e < 1) :
    (1 + e * cos nu) * cos (2 * atan2 (√(-(e - 1)) * sin (nu / 2)) (√(e + 1) * cos (nu / 2))) = e + cos nu ∧
    (1 + e * cos nu) * sin (2 * atan2 (√(-(e - 1)) * sin (nu / 2)) (√(e + 1) * cos (nu / 2))) = √(1 - e ^ 2) * sin nu := by
  have hk : √(-(e - 1)) ^ 2 = 1 - e := by rw [Real.sq_sqrt (by linarith)]; ring
  have hl : √(e + 1) ^ 2 = 1 + e := by rw [Real.sq_sqrt (by linarith)]; ring
  have hkl : √(1 - e ^ 2) = √(-(e - 1)) * √(e + 1) := by rw [← Real.sqrt_mul (by linarith)]; congr 1; ring
  have hn : nu = 2 * (nu / 2) := by ring
  have hc : cos nu = cos (nu / 2) ^ 2 - sin (nu / 2) ^ 2 := by conv_lhs => rw [hn]; rw [cos_two_mul']
  have hs : sin nu = 2 * sin (nu / 2) * cos (nu / 2) := by conv_lhs => rw [hn]; rw [sin_two_mul]
  have t := sin_sq_add_cos_sq (nu / 2)
  have h1 := hyp_cos_atan2 (√(-(e - 1)) * sin (nu / 2)) (√(e + 1) * cos (nu / 2))
  have h2 := hyp_sin_atan2 (√(-(e - 1)) * sin (nu / 2)) (√(e + 1) * cos (nu / 2))
  have h3 := hyp_sq (√(e + 1) * cos (nu / 2)) (√(-(e - 1)) * sin (nu / 2))
  rw [cos_two_mul', sin_two_mul, hkl, hs, hc]
  generalize atan2 (√(-(e - 1)) * sin (nu / 2)) (√(e + 1) * cos (nu / 2)) = A at *
  generalize √(√(e + 1) * cos (nu / 2) * (√(e + 1) * cos (nu / 2)) + √(-(e - 1)) * sin (nu / 2) * (√(-(e - 1)) * sin (nu / 2))) = h at *
  generalize √(-(e - 1)) = k at *
  generalize √(e + 1) = l at *
  generalize sin (nu / 2) = S at *
  generalize cos (nu / 2) = C at *
  have hD' : 1 + e * (C ^ 2 - S ^ 2) = h * h := by rw [h3]; linear_combination (-S ^ 2) * hk - C ^ 2 * hl - t
  rw [hD']
  constructor
  · linear_combination (h * cos A + l * C) * h1 - (h * sin A + k * S) * h2 + C ^ 2 * hl - S ^ 2 * hk + e * t
  · linear_combination 2 * (h * cos A) * h2 + 2 * k * S * h1

theorem ellipse {e nu mu H r ar : ℝ} (he0 : 0 ≤ e) (he : e < 1) (hmu : 0 < mu) (hH : 0 < H) (hr : 0 < r) (h2 : e ^ 2 = 1 - ar * H ^ 2 / mu)
    (hrr : r * mu * (1 + e * cos nu) = H ^ 2) :
    0 < ar ∧ √(mu * ar * ar * ar) ^ 2 * (1 / ar) ^ 3 = mu ∧ H ^ 2 / (mu * (e + 1)) = 1 / ar * (1 - e) ∧
    KeplerEllipse (1 / ar) e (√(mu * ar * ar * ar))
      (2 * atan2 (√(-(e - 1)) * sin (nu / 2)) (√(e + 1) * cos (nu / 2)) - e * sin (2 * atan2 (√(-(e - 1)) * sin (nu / 2)) (√(e + 1) * cos (nu / 2))))
      (r * cos nu) (r * sin nu) (-(mu / H) * sin nu) (mu / H * (e + cos nu)) := by
  have hee : 0 < 1 - e ^ 2 := by nlinarith
  have hP : ar * H ^ 2 = mu * (1 - e ^ 2) := by field_simp at h2; linear_combination h2
  have har : 0 < ar := by
    have h0 : 0 < ar * H ^ 2 := by rw [hP]; positivity
    exact pos_of_mul_pos_left h0 (by positivity)
  have hD : 0 < 1 + e * cos nu := by
    have h0 : 0 < (r * mu) * (1 + e * cos nu) := by rw [hrr]; positivity
    exact pos_of_mul_pos_right h0 (by positivity)
  have hn2 : √(mu * ar * ar * ar) ^ 2 = mu * ar ^ 3 := by rw [Real.sq_sqrt (by positivity)]; ring
  have hk2 : √(1 - e ^ 2) ^ 2 = 1 - e ^ 2 := Real.sq_sqrt hee.le
  have hk0 : 0 < √(1 - e ^ 2) := Real.sqrt_pos.2 hee
  have hn0 : 0 < √(mu * ar * ar * ar) := Real.sqrt_pos.2 (by positivity)
  have hnk : √(mu * ar * ar * ar) * H = ar * mu * √(1 - e ^ 2) := by
    rw [← Real.sqrt_sq hH.le, ← Real.sqrt_mul (by positivity), ← Real.sqrt_sq (show 0 ≤ ar * mu by positivity), ← Real.sqrt_mul (by positivity)]
    congr 1; linear_combination (mu * ar ^ 2) * hP
  obtain ⟨hc, hs⟩ := ecc_anomaly (nu := nu) he0 he
  refine ⟨har, ?_, ?_, 2 * atan2 (√(-(e - 1)) * sin (nu / 2)) (√(e + 1) * cos (nu / 2)), rfl, ?_, ?_, ?_, ?_⟩
  · rw [hn2]; field_simp
  · field_simp; linear_combination hP
  all_goals
    generalize 2 * atan2 (√(-(e - 1)) * sin (nu / 2)) (√(e + 1) * cos (nu / 2)) = E at *
    generalize √(1 - e ^ 2) = k at *
    generalize √(mu * ar * ar * ar) = n at *
    generalize cos nu = C at *
    generalize sin nu = S at *
    generalize cos E = CE at *
    generalize sin E = SE at *
    have hCE : CE = (e + C) / (1 + e * C) := by rw [eq_div_iff (ne_of_gt hD)]; linear_combination hc
    have hSE : SE = k * S / (1 + e * C) := by rw [eq_div_iff (ne_of_gt hD)]; linear_combination hs
    have hra : r * ar * (1 + e * C) = 1 - e ^ 2 := by
      apply mul_left_cancel₀ (ne_of_gt hmu)
      linear_combination ar * hrr + hP
    have hr' : r = (1 - e ^ 2) / (ar * (1 + e * C)) := by rw [eq_div_iff (by positivity)]; linear_combination hra
    have hmH : mu / H * k = n / ar := by
      rw [div_mul_eq_mul_div, div_eq_div_iff (ne_of_gt hH) (ne_of_gt har)]; linear_combination -hnk
    generalize mu / H = m at *
    have hm : m = n / ar / k := by rw [eq_div_iff (ne_of_gt hk0)]; exact hmH
    try rw [hCE]
    try rw [hSE]
    try rw [hr']
    try rw [hm]
    clear hCE hSE hr' hm hr hrr hP h2 hnk hn2 hc hs hra hmH
    have hDD : 1 - e * ((e + C) / (1 + e * C)) = k ^ 2 / (1 + e * C) := by rw [hk2]; field_simp; ring
  · field_simp
    ring
  · rw [← hk2]; field_simp
  · rw [hDD]; field_simp
  · rw [hDD]; field_simp

/-- Hyperbolic anomaly from true anomaly. -/
theorem hyp_anomaly {e nu : ℝ} (he : 1 < e) (hD : 0 < 1 + e * cos nu) :
    cos (nu / 2) ≠ 0 ∧
    (1 + e * cos nu) * cosh (log (1 + √((e - 1) / (e + 1)) * (sin (nu / 2) / cos (nu / 2))) - log (1 - √((e - 1) / (e + 1)) * (sin (nu / 2) / cos (nu / 2)))) =
      e + cos nu ∧
    (1 + e * cos nu) * sinh (log (1 + √((e - 1) / (e + 1)) * (sin (nu / 2) / cos (nu / 2))) - log (1 - √((e - 1) / (e + 1)) * (sin (nu / 2) / cos (nu / 2)))) =
      √(e ^ 2 - 1) * sin nu := by
  have hn : nu = 2 * (nu / 2) := by ring
  have hc : cos nu = cos (nu / 2) ^ 2 - sin (nu / 2) ^ 2 := by conv_lhs => rw [hn]; rw [cos_two_mul']
  have hs : sin nu = 2 * sin (nu / 2) * cos (nu / 2) := by conv_lhs => rw [hn]; rw [sin_two_mul]
  have tt := sin_sq_add_cos_sq (nu / 2)
  have hg : √((e - 1) / (e + 1)) ^ 2 = (e - 1) / (e + 1) := Real.sq_sqrt (div_nonneg (by linarith) (by linarith))
  have hg0 : 0 ≤ √((e - 1) / (e + 1)) := Real.sqrt_nonneg _
  have hk : √(e ^ 2 - 1) = (e + 1) * √((e - 1) / (e + 1)) := by
    rw [← Real.sqrt_sq (show 0 ≤ e + 1 by linarith), ← Real.sqrt_mul (by positivity), Real.sqrt_sq (show 0 ≤ e + 1 by linarith)]
    congr 1
    have : e + 1 ≠ 0 := by linarith
    field_simp; ring
  rw [hk, hs, hc]
  rw [hc] at hD
  generalize √((e - 1) / (e + 1)) = g at *
  generalize sin (nu / 2) = S at *
  generalize cos (nu / 2) = C at *
  have hC : C ≠ 0 := by
    rintro rfl
    have : S ^ 2 = 1 := by linear_combination tt
    rw [this] at hD; norm_num at hD; linarith
  refine ⟨hC, ?_⟩
  have he1 : 0 < e + 1 := by linarith
  have hD' : 1 + e * (C ^ 2 - S ^ 2) = (e + 1) * C ^ 2 * (1 - (g * (S / C)) ^ 2) := by
    rw [mul_pow, div_pow, hg]; field_simp; linear_combination -tt
  have hN : e + (C ^ 2 - S ^ 2) = (e + 1) * C ^ 2 * (1 + (g * (S / C)) ^ 2) := by
    rw [mul_pow, div_pow, hg]; field_simp; linear_combination -e * tt
  have hSC : S = S / C * C := by field_simp
  generalize S / C = T at *
  have ht1 : 0 < 1 - (g * T) ^ 2 := by
    rw [hD'] at hD
    exact pos_of_mul_pos_right hD (by positivity)
  have hab : |g * T| < 1 := by
    rw [← sq_lt_one_iff_abs_lt_one]; linarith
  obtain ⟨h1, h2⟩ := abs_lt.1 hab
  have hp : 0 < 1 + g * T := by linarith
  have hm : 0 < 1 - g * T := by linarith
  have hE : exp (log (1 + g * T) - log (1 - g * T)) = (1 + g * T) / (1 - g * T) := by rw [exp_sub, exp_log hp, exp_log hm]
  have hE' : exp (-(log (1 + g * T) - log (1 - g * T))) = (1 - g * T) / (1 + g * T) := by rw [neg_sub, exp_sub, exp_log hp, exp_log hm]
  have hm' := ne_of_gt hm
  have hp' := ne_of_gt hp
  constructor
  · rw [cosh_eq, hE, hE', hD', hN]; field_simp; ring
  · rw [sinh_eq, hE, hE', hD', hSC]; field_simp; ring

theorem hyperbola {e nu mu H r ar : ℝ} (he : 1 < e) (hmu : 0 < mu) (hH : 0 < H) (hr : 0 < r) (h2 : e ^ 2 = 1 - ar * H ^ 2 / mu)
    (hrr : r * mu * (1 + e * cos nu) = H ^ 2) :
    cos (nu / 2) ≠ 0 ∧ ar < 0 ∧ √(-(mu * ar * ar * ar)) ^ 2 * (-1 / ar) ^ 3 = mu ∧ H ^ 2 / (mu * (e + 1)) = -1 / ar * (e - 1) ∧
    KeplerHyperbola (-1 / ar) e (√(-(mu * ar * ar * ar)))
      (e * sinh (log (1 + √((e - 1) / (e + 1)) * (sin (nu / 2) / cos (nu / 2))) - log (1 - √((e - 1) / (e + 1)) * (sin (nu / 2) / cos (nu / 2)))) -
        (log (1 + √((e - 1) / (e + 1)) * (sin (nu / 2) / cos (nu / 2))) - log (1 - √((e - 1) / (e + 1)) * (sin (nu / 2) / cos (nu / 2)))))
      (r * cos nu) (r * sin nu) (-(mu / H) * sin nu) (mu / H * (e + cos nu)) := by
  have hee : 0 < e ^ 2 - 1 := by nlinarith
  have hP : -ar * H ^ 2 = mu * (e ^ 2 - 1) := by field_simp at h2; linear_combination -h2
  obtain ⟨b, hb⟩ : ∃ b, b = -ar := ⟨_, rfl⟩
  obtain rfl : ar = -b := by rw [hb]; ring
  clear hb
  rw [neg_neg] at hP
  have har : 0 < b := by
    have h0 : 0 < b * H ^ 2 := by rw [hP]; positivity
    exact pos_of_mul_pos_left h0 (by positivity)
  have hD : 0 < 1 + e * cos nu := by
    have h0 : 0 < (r * mu) * (1 + e * cos nu) := by rw [hrr]; positivity
    exact pos_of_mul_pos_right h0 (by positivity)
  have hneg : -(mu * -b * -b * -b) = mu * b * b * b := by ring
  have hdiv : -1 / -b = 1 / b := by rw [neg_div_neg_eq]
  rw [hneg, hdiv]
  have hn2 : √(mu * b * b * b) ^ 2 = mu * b ^ 3 := by rw [Real.sq_sqrt (by positivity)]; ring
  have hk2 : √(e ^ 2 - 1) ^ 2 = e ^ 2 - 1 := Real.sq_sqrt hee.le
  have hk0 : 0 < √(e ^ 2 - 1) := Real.sqrt_pos.2 hee
  have hnk : √(mu * b * b * b) * H = b * mu * √(e ^ 2 - 1) := by
    rw [← Real.sqrt_sq hH.le, ← Real.sqrt_mul (by positivity), ← Real.sqrt_sq (show 0 ≤ b * mu by positivity), ← Real.sqrt_mul (by positivity)]
    congr 1; linear_combination (mu * b ^ 2) * hP
  obtain ⟨hcn, hc, hs⟩ := hyp_anomaly he hD
  refine ⟨hcn, by linarith, ?_, ?_, _, rfl, ?_, ?_, ?_, ?_⟩
  · rw [hn2]; field_simp
  · have : e + 1 ≠ 0 := by linarith
    field_simp; linear_combination hP
  all_goals
    generalize log (1 + √((e - 1) / (e + 1)) * (sin (nu / 2) / cos (nu / 2))) - log (1 - √((e - 1) / (e + 1)) * (sin (nu / 2) / cos (nu / 2))) = E at *
    generalize √(e ^ 2 - 1) = k at *
    generalize √(mu * b * b * b) = n at *
    generalize cos nu = C at *
    generalize sin nu = S at *
    generalize cosh E = CE at *
    generalize sinh E = SE at *
    have hCE : CE = (e + C) / (1 + e * C) := by rw [eq_div_iff (ne_of_gt hD)]; linear_combination hc
    have hSE : SE = k * S / (1 + e * C) := by rw [eq_div_iff (ne_of_gt hD)]; linear_combination hs
    have hra : r * b * (1 + e * C) = e ^ 2 - 1 := by
      apply mul_left_cancel₀ (ne_of_gt hmu)
      linear_combination b * hrr + hP
    have hr' : r = (e ^ 2 - 1) / (b * (1 + e * C)) := by rw [eq_div_iff (by positivity)]; linear_combination hra
    have hmH : mu / H * k = n / b := by
      rw [div_mul_eq_mul_div, div_eq_div_iff (ne_of_gt hH) (ne_of_gt har)]; linear_combination -hnk
    generalize mu / H = m at *
    have hm : m = n / b / k := by rw [eq_div_iff (ne_of_gt hk0)]; exact hmH
    try rw [hCE]
    try rw [hSE]
    try rw [hr']
    try rw [hm]
    clear hCE hSE hr' hm hr hrr hP h2 hnk hn2 hc hs hra hmH
    have hDD : e * ((e + C) / (1 + e * C)) - 1 = k ^ 2 / (1 + e * C) := by rw [hk2]; field_simp; ring
  · field_simp
    ring
  · rw [← hk2]; field_simp
  · rw [hDD]; field_simp
  · rw [hDD]; field_simp

theorem parabola {nu mu H r : ℝ} (hmu : 0 < mu) (hH : 0 < H) (hr : 0 < r) (hrr : r * mu * (1 + cos nu) = H ^ 2) :
    cos (nu / 2) ≠ 0 ∧ 0 < H ^ 2 / (mu * 2) ∧
    KeplerParabola (H ^ 2 / (mu * 2)) mu
      (sin (nu / 2) / cos (nu / 2) * (1 + sin (nu / 2) / cos (nu / 2) * (sin (nu / 2) / cos (nu / 2)) / 3) * H * H ^ 2 / (2 * mu * mu))
      (r * cos nu) (r * sin nu) (-(mu / H) * sin nu) (mu / H * (1 + cos nu)) := by
  have hn : nu = 2 * (nu / 2) := by ring
  have hc : cos nu = cos (nu / 2) ^ 2 - sin (nu / 2) ^ 2 := by conv_lhs => rw [hn]; rw [cos_two_mul']
  have hs : sin nu = 2 * sin (nu / 2) * cos (nu / 2) := by conv_lhs => rw [hn]; rw [sin_two_mul]
  have tt := sin_sq_add_cos_sq (nu / 2)
  rw [hc] at hrr
  rw [hs, hc]
  generalize sin (nu / 2) = S at *
  generalize cos (nu / 2) = C at *
  have hrr' : 2 * r * mu * C ^ 2 = H ^ 2 := by linear_combination hrr + r * mu * tt
  have hC : C ≠ 0 := by
    rintro rfl
    have : 0 < H ^ 2 := by positivity
    rw [← hrr'] at this; simp at this
  have q1 : √(2 * (H ^ 2 / (mu * 2)) ^ 3 / mu) = H ^ 3 / (2 * mu ^ 2) := by
    rw [← Real.sqrt_sq (show 0 ≤ H ^ 3 / (2 * mu ^ 2) by positivity)]; congr 1; field_simp
  have q2 : √(2 * mu / (H ^ 2 / (mu * 2))) = 2 * mu / H := by
    rw [← Real.sqrt_sq (show 0 ≤ 2 * mu / H by positivity)]; congr 1; field_simp
  have hD : 1 + (S / C) ^ 2 = 1 / C ^ 2 := by field_simp; linear_combination tt
  refine ⟨hC, by positivity, S / C, ?_, ?_, ?_, ?_, ?_⟩
  · rw [q1]; field_simp
  · rw [← hrr']; field_simp
  · rw [← hrr']; field_simp
  · rw [q2, hD]; field_simp
  · rw [q2, hD]; field_simp; linear_combination -tt

end Pal.Kepler
