import Verif.Lemmas.Vec
import Verif.Model.Coord
import Verif.Props.Sphere
import Mathlib.Analysis.Real.Pi.Bounds

/-! # Helper lemmas for the coordinate conversions -/

namespace Pal
open Real Spec Matrix

theorem deuler_rot (o : List Char) (a b c : ℝ) : IsRotation (palDeuler o a b c) := (Props.C34_deuler o a b c).2

theorem ecmat_eq (T : Theory) (date : ℝ) : palEcmat T date = axisX (T.obl06 rMJD0 date) := by
  unfold palEcmat
  rw [(Props.C34_deuler _ _ _ _).1]; simp [eulerFactor, axisOf]

theorem rot_unit {m : Mat3} (h : IsRotation m) {v : Vec3} (hv : dot v v = 1) : dot (m.mulVec v) (m.mulVec v) = 1 := by
  rw [rot_dot h, hv]

/-- A unit vector converted to spherical coordinates and back, with the two range reductions used by PAL. -/
theorem c2s_anp (v : Vec3) (hv : dot v v = 1) :
    dir (eraAnp (eraC2s v).1) (eraC2s v).2 = v := by
  have h := eraC2s_unit v (by rw [← dot_eq]; exact hv)
  rw [← h]
  conv_lhs => rw [h]
  unfold dir
  rw [sin_eraAnp, cos_eraAnp]

theorem c2s_anp_range (v : Vec3) : 0 ≤ eraAnp (eraC2s v).1 ∧ eraAnp (eraC2s v).1 < 2 * π ∧ |(eraC2s v).2| ≤ π / 2 :=
  ⟨(eraAnp_spec _).1.1, (eraAnp_spec _).1.2, (eraC2s_range v).2⟩

theorem drange_lat (v : Vec3) : palDrange (eraC2s v).2 = (eraC2s v).2 :=
  palDrange_eq (by have := (eraC2s_range v).2; linarith [Real.pi_pos])

theorem anpm_lat (v : Vec3) : eraAnpm (eraC2s v).2 = (eraC2s v).2 :=
  eraAnpm_eq (by have := (eraC2s_range v).2; linarith [Real.pi_pos])

/-- For any non-zero vector the direction obtained is the normalised vector. -/
theorem c2s_dir (v : Vec3) : (fun i => √(dot v v) * dir (eraAnp (eraC2s v).1) (eraC2s v).2 i) = v := by
  have h := eraC2s_spec v
  rw [eraPm_eq] at h
  conv_rhs => rw [← h]
  funext i
  congr 1
  unfold dir
  rw [sin_eraAnp, cos_eraAnp]

theorem dot_smul_left (k : ℝ) (a b : Vec3) : dot (fun i => k * a i) b = k * dot a b := by
  simp only [dot_eq]; ring

theorem dot_smul_right (k : ℝ) (a b : Vec3) : dot a (fun i => k * b i) = k * dot a b := by
  simp only [dot_eq]; ring

theorem cauchy (a b : Vec3) : dot a b * dot a b ≤ dot a a * dot b b := by
  have := dot_self_nonneg (eraPxp a b)
  rw [cross_sq] at this; linarith

theorem abs_dot_le (a b : Vec3) : |dot a b| ≤ √(dot a a) * √(dot b b) := by
  rw [← Real.sqrt_mul (dot_self_nonneg a), ← Real.sqrt_mul_self_eq_abs]
  exact Real.sqrt_le_sqrt (cauchy a b)

/-- If a positive multiple of the unit vector `u` differs from the unit vector `v` by `e`, then `u` differs from `v` by at most twice the length of `e`. -/
theorem unit_near {u v : Vec3} {k E : ℝ} (hk : 0 ≤ k) (hu : dot u u = 1) (hv : dot v v = 1)
    (he : (k * u 0 - v 0) ^ 2 + (k * u 1 - v 1) ^ 2 + (k * u 2 - v 2) ^ 2 ≤ E ^ 2) :
    (u 0 - v 0) ^ 2 + (u 1 - v 1) ^ 2 + (u 2 - v 2) ^ 2 ≤ (2 * E) ^ 2 := by
  have hc := cauchy u v
  rw [hu, hv] at hc
  rw [dot_eq] at hu hv hc
  have e1 : k ^ 2 - 2 * k * (u 0 * v 0 + u 1 * v 1 + u 2 * v 2) + 1 ≤ E ^ 2 := by
    calc _ = (k * u 0 - v 0) ^ 2 + (k * u 1 - v 1) ^ 2 + (k * u 2 - v 2) ^ 2 := by linear_combination (-k ^ 2) * hu - hv
      _ ≤ _ := he
  have e2 : (u 0 - v 0) ^ 2 + (u 1 - v 1) ^ 2 + (u 2 - v 2) ^ 2 = 2 - 2 * (u 0 * v 0 + u 1 * v 1 + u 2 * v 2) := by
    linear_combination hu + hv
  rw [e2]
  generalize u 0 * v 0 + u 1 * v 1 + u 2 * v 2 = c at *
  have hc1 : -1 ≤ c ∧ c ≤ 1 := by
    constructor <;> nlinarith
  by_cases h0 : 0 ≤ c
  · nlinarith [sq_nonneg (k - c), mul_nonneg h0 (sub_nonneg.2 hc1.2)]
  · push Not at h0
    nlinarith [mul_nonneg hk (neg_nonneg.2 h0.le)]

theorem len_le {a : Vec3} {E : ℝ} (hE : 0 ≤ E) (h : a 0 ^ 2 + a 1 ^ 2 + a 2 ^ 2 ≤ E ^ 2) : len a ≤ E := by
  unfold len
  rw [Fin.sum_univ_three]
  exact Real.sqrt_le_iff.2 ⟨hE, h⟩

/-- Round trip through a nearly orthogonal matrix. -/
theorem near_orth {m : Mat3} {eps : ℝ} (hm : ∀ i j, |m i j - (1 : Mat3) i j| ≤ eps) {v : Vec3} (hv : dot v v = 1) :
    (m.mulVec v 0 - v 0) ^ 2 + (m.mulVec v 1 - v 1) ^ 2 + (m.mulVec v 2 - v 2) ^ 2 ≤ (3 * eps) ^ 2 := by
  rw [dot_eq] at hv
  have hrow : ∀ i, (m.mulVec v i - v i) ^ 2 ≤ 3 * eps ^ 2 := by
    intro i
    have e : m.mulVec v i - v i = (m i 0 - (1 : Mat3) i 0) * v 0 + (m i 1 - (1 : Mat3) i 1) * v 1 + (m i 2 - (1 : Mat3) i 2) * v 2 := by
      have : v i = (1 : Mat3) i 0 * v 0 + (1 : Mat3) i 1 * v 1 + (1 : Mat3) i 2 * v 2 := by
        revert i; intro i; fin_cases i <;> simp [Matrix.one_apply]
      rw [this]; simp only [mulVec, dotProduct, Fin.sum_univ_three]; ring
    rw [e]
    have b0 := abs_le.1 (hm i 0)
    have b1 := abs_le.1 (hm i 1)
    have b2 := abs_le.1 (hm i 2)
    generalize m i 0 - (1 : Mat3) i 0 = a at *
    generalize m i 1 - (1 : Mat3) i 1 = b at *
    generalize m i 2 - (1 : Mat3) i 2 = c at *
    have hq : a ^ 2 + b ^ 2 + c ^ 2 ≤ 3 * eps ^ 2 := by
      have := sq_le_sq' b0.1 b0.2
      have := sq_le_sq' b1.1 b1.2
      have := sq_le_sq' b2.1 b2.2
      linarith
    have hcs : (a * v 0 + b * v 1 + c * v 2) ^ 2 ≤ (a ^ 2 + b ^ 2 + c ^ 2) * (v 0 * v 0 + v 1 * v 1 + v 2 * v 2) := by
      nlinarith [sq_nonneg (a * v 1 - b * v 0), sq_nonneg (a * v 2 - c * v 0), sq_nonneg (b * v 2 - c * v 1)]
    rw [hv, mul_one] at hcs
    linarith
  have := hrow 0; have := hrow 1; have := hrow 2
  nlinarith

/-- Direction obtained by applying a matrix to a direction and converting to spherical coordinates. -/
theorem near_roundtrip {A B : Mat3} {eps : ℝ} (heps : 0 ≤ eps) (hm : ∀ i j, |(B * A) i j - (1 : Mat3) i j| ≤ eps) (lon lat : ℝ) {u1 u2 : Vec3} {k1 k2 : ℝ}
    (hk1 : 0 ≤ k1) (hk2 : 0 ≤ k2) (h1 : (fun i => k1 * u1 i) = A.mulVec (dir lon lat)) (h2 : (fun i => k2 * u2 i) = B.mulVec u1) (hu2 : dot u2 u2 = 1) :
    len (fun i => u2 i - dir lon lat i) ≤ 6 * eps := by
  have hn := near_orth hm (dot_dir lon lat)
  have e : ∀ i, (B * A).mulVec (dir lon lat) i = k1 * k2 * u2 i := by
    intro i
    rw [← mulVec_mulVec, ← h1, show (fun i => k1 * u1 i) = k1 • u1 from rfl, mulVec_smul, ← h2]
    simp; ring
  rw [e, e, e] at hn
  have := unit_near (mul_nonneg hk1 hk2) hu2 (dot_dir lon lat) hn
  refine len_le (by linarith) ?_
  calc _ ≤ _ := this
    _ = _ := by ring

end Pal
