import Verif.Lemmas.Coord
import Mathlib.LinearAlgebra.CrossProduct

/-!
# C74, C75: rotation vectors and bearings
-/

namespace Pal.Props
open Real Matrix Pal Pal.Spec

/-- Cofactor relations of a rotation matrix. -/
theorem rot_adj {m : Mat3} (h : IsRotation m) : m.adjugate = m.transpose := by
  have h1 : m * m.adjugate = 1 := by rw [Matrix.mul_adjugate, h.2, one_smul]
  have h2 : m.transpose * m = 1 := rot_trans_mul h
  calc m.adjugate = (m.transpose * m) * m.adjugate := by rw [h2, one_mul]
    _ = m.transpose := by rw [Matrix.mul_assoc, h1, mul_one]

/-- Scalar relations of a rotation matrix. -/
theorem rot_scalars {m : Mat3} (h : IsRotation m) :
    (1 + (m 0 0 + m 1 1 + m 2 2)) * (m 0 1 + m 1 0) = (m 1 2 - m 2 1) * (m 2 0 - m 0 2) ∧
    (1 + (m 0 0 + m 1 1 + m 2 2)) * (m 0 2 + m 2 0) = (m 1 2 - m 2 1) * (m 0 1 - m 1 0) ∧
    (1 + (m 0 0 + m 1 1 + m 2 2)) * (m 1 2 + m 2 1) = (m 2 0 - m 0 2) * (m 0 1 - m 1 0) ∧
    (1 + (m 0 0 + m 1 1 + m 2 2)) * (2 * m 0 0 - (m 0 0 + m 1 1 + m 2 2 - 1)) = (m 1 2 - m 2 1) * (m 1 2 - m 2 1) ∧
    (1 + (m 0 0 + m 1 1 + m 2 2)) * (2 * m 1 1 - (m 0 0 + m 1 1 + m 2 2 - 1)) = (m 2 0 - m 0 2) * (m 2 0 - m 0 2) ∧
    (1 + (m 0 0 + m 1 1 + m 2 2)) * (2 * m 2 2 - (m 0 0 + m 1 1 + m 2 2 - 1)) = (m 0 1 - m 1 0) * (m 0 1 - m 1 0) := by
  have ha := rot_adj h
  have hr := h.1
  have hc := rot_trans_mul h
  have A : ∀ i j, m.adjugate i j = m j i := fun i j => by rw [ha]; rfl
  have R : ∀ i j, (m * m.transpose) i j = (1 : Mat3) i j := fun i j => by rw [hr]
  have C : ∀ i j, (m.transpose * m) i j = (1 : Mat3) i j := fun i j => by rw [hc]
  simp only [Matrix.adjugate_fin_three] at A
  simp only [Matrix.mul_apply, Fin.sum_univ_three, Matrix.transpose_apply] at R C
  have a00 := A 0 0
  have a01 := A 0 1
  have a02 := A 0 2
  have a10 := A 1 0
  have a11 := A 1 1
  have a12 := A 1 2
  have a20 := A 2 0
  have a21 := A 2 1
  have a22 := A 2 2
  have r00 := R 0 0
  have r11 := R 1 1
  have r22 := R 2 2
  have r01 := R 0 1
  have r02 := R 0 2
  have r12 := R 1 2
  have c00 := C 0 0
  have c11 := C 1 1
  have c22 := C 2 2
  have c01 := C 0 1
  have c02 := C 0 2
  have c12 := C 1 2
  simp at a00 a01 a02 a10 a11 a12 a20 a21 a22 r00 r01 r02 r11 r12 r22 c00 c01 c02 c11 c12 c22
  clear A R C ha hr hc
  generalize m 0 0 = p00 at *
  generalize m 0 1 = p01 at *
  generalize m 0 2 = p02 at *
  generalize m 1 0 = p10 at *
  generalize m 1 1 = p11 at *
  generalize m 1 2 = p12 at *
  generalize m 2 0 = p20 at *
  generalize m 2 1 = p21 at *
  generalize m 2 2 = p22 at *
  refine ⟨?_, ?_, ?_, ?_, ?_, ?_⟩
  · linear_combination -a01 - a10 + r01 + c01
  · linear_combination -a02 - a20 + r02 + c02
  · linear_combination -a12 - a21 + r12 + c12
  · linear_combination -2 * a00 - r11 - r22 + c00
  · linear_combination -2 * a11 - r00 - r22 + c11
  · linear_combination -2 * a22 - r00 - r11 + c22

/-- The matrix of a rotation of the axes by `phi` about a unit vector. -/
theorem rv2m_polar {k : Vec3} (hk : dot k k = 1) {phi : ℝ} (h : 0 ≤ phi) :
    palDav2m (fun i => phi * k i) =
      !![k 0 * k 0 * (1 - cos phi) + cos phi, k 0 * k 1 * (1 - cos phi) + k 2 * sin phi, k 0 * k 2 * (1 - cos phi) - k 1 * sin phi;
         k 1 * k 0 * (1 - cos phi) - k 2 * sin phi, k 1 * k 1 * (1 - cos phi) + cos phi, k 1 * k 2 * (1 - cos phi) + k 0 * sin phi;
         k 2 * k 0 * (1 - cos phi) + k 1 * sin phi, k 2 * k 1 * (1 - cos phi) - k 0 * sin phi, k 2 * k 2 * (1 - cos phi) + cos phi] := by
  have hphi : √(phi * k 0 * (phi * k 0) + phi * k 1 * (phi * k 1) + phi * k 2 * (phi * k 2)) = phi := by
    rw [dot_eq] at hk
    rw [show phi * k 0 * (phi * k 0) + phi * k 1 * (phi * k 1) + phi * k 2 * (phi * k 2) = phi * phi by linear_combination phi ^ 2 * hk]
    exact Real.sqrt_mul_self h
  unfold palDav2m eraRv2m
  dsimp only
  rw [hphi]
  rcases h.eq_or_lt with h0 | hp
  · rw [← h0]; simp
  · rw [if_pos hp, if_pos hp, if_pos hp, mul_div_cancel_left₀ _ hp.ne', mul_div_cancel_left₀ _ hp.ne', mul_div_cancel_left₀ _ hp.ne']

/-- Every vector is a non-negative multiple of a unit vector. -/
theorem polar_vec (v : Vec3) : ∃ (k : Vec3), dot k k = 1 ∧ v = fun i => len v * k i := by
  by_cases h : v = 0
  · refine ⟨![1, 0, 0], by rw [dot_eq]; simp, ?_⟩
    subst h
    have : len 0 = 0 := by simp [len]
    funext i; rw [this]; simp
  · have hd : dot v v ≠ 0 := fun h' => h (dot_self_eq_zero.1 h')
    have hpos : 0 < dot v v := lt_of_le_of_ne (dot_self_nonneg v) (Ne.symm hd)
    have hl : 0 < len v := by rw [len_eq]; exact Real.sqrt_pos.2 hpos
    have hll : len v * len v = dot v v := by rw [len_eq]; exact Real.mul_self_sqrt hpos.le
    refine ⟨fun i => (len v)⁻¹ * v i, ?_, ?_⟩
    · rw [dot_smul_left, dot_smul_right, ← hll]; field_simp
    · funext i; field_simp

/-- The Rodrigues formula: the components of `u` in axes turned by the angle `phi` about the unit vector `k`. -/
theorem C74_dav2m {k : Vec3} (hk : dot k k = 1) {phi : ℝ} (h : 0 ≤ phi) (u : Vec3) :
    palDmxv (palDav2m (fun i => phi * k i)) u =
      fun i => cos phi * u i - sin phi * crossProduct k u i + (1 - cos phi) * dot k u * k i := by
  rw [rv2m_polar hk h]
  unfold palDmxv
  rw [eraRxp_eq]
  funext i
  fin_cases i <;>
    simp [mulVec, dotProduct, Fin.sum_univ_three, crossProduct, dot_eq] <;> ring

/-- **C74** (forward) palDav2m always gives a proper rotation, which leaves the rotation vector itself fixed. -/
theorem C74_rotation (v : Vec3) : IsRotation (palDav2m v) ∧ palDmxv (palDav2m v) v = v := by
  obtain ⟨k, hk, hv⟩ := polar_vec v
  have hl : 0 ≤ len v := Real.sqrt_nonneg _
  constructor
  · rw [hv, rv2m_polar hk hl]
    have hcs := sin_sq_add_cos_sq (len v)
    rw [dot_eq] at hk
    generalize sin (len v) = s at *
    generalize cos (len v) = c at *
    generalize k 0 = x at *
    generalize k 1 = y at *
    generalize k 2 = z at *
    clear hv hl
    constructor
    · ext i j
      fin_cases i <;> fin_cases j <;> simp [Matrix.mul_apply, Fin.sum_univ_three, Matrix.transpose_apply] <;> grind
    · rw [Matrix.det_fin_three]
      simp
      grind
  · have := C74_dav2m hk hl v
    rw [← hv] at this
    rw [this]
    have hd : dot k v = len v := by rw [hv, dot_smul_right, hk, mul_one]; rw [← hv]
    rw [hd]
    funext i
    have hvi := congrFun hv i
    have hcr : crossProduct k v i = 0 := by
      rw [hv]
      fin_cases i <;> simp [crossProduct] <;> ring
    rw [hcr]
    linear_combination (cos (len v) - 1) * hvi

/-- **C74** (there and back) A rotation vector of less than half a turn is recovered from its matrix. -/
theorem C74_dm2av_dav2m (v : Vec3) (h : len v < π) : palDm2av (palDav2m v) = v := by
  obtain ⟨k, hk, hv⟩ := polar_vec v
  have hl : 0 ≤ len v := Real.sqrt_nonneg _
  rw [hv, rv2m_polar hk hl]
  generalize len v = phi at *
  clear hv
  have hs : 0 ≤ sin phi := sin_nonneg_of_nonneg_of_le_pi hl h.le
  unfold palDm2av eraRm2v
  simp only [Matrix.of_apply, Matrix.cons_val', Matrix.cons_val_zero, Matrix.cons_val_one, Matrix.cons_val, Matrix.cons_val_fin_one]
  rw [dot_eq] at hk
  have ex : k 1 * k 2 * (1 - cos phi) + k 0 * sin phi - (k 2 * k 1 * (1 - cos phi) - k 0 * sin phi) = 2 * sin phi * k 0 := by ring
  have ey : k 2 * k 0 * (1 - cos phi) + k 1 * sin phi - (k 0 * k 2 * (1 - cos phi) - k 1 * sin phi) = 2 * sin phi * k 1 := by ring
  have ez : k 0 * k 1 * (1 - cos phi) + k 2 * sin phi - (k 1 * k 0 * (1 - cos phi) - k 2 * sin phi) = 2 * sin phi * k 2 := by ring
  have es : √(2 * sin phi * k 0 * (2 * sin phi * k 0) + 2 * sin phi * k 1 * (2 * sin phi * k 1) + 2 * sin phi * k 2 * (2 * sin phi * k 2)) = 2 * sin phi := by
    rw [show 2 * sin phi * k 0 * (2 * sin phi * k 0) + 2 * sin phi * k 1 * (2 * sin phi * k 1) + 2 * sin phi * k 2 * (2 * sin phi * k 2)
      = 2 * sin phi * (2 * sin phi) by linear_combination 4 * sin phi ^ 2 * hk]
    exact Real.sqrt_mul_self (by linarith)
  have ec : k 0 * k 0 * (1 - cos phi) + cos phi + (k 1 * k 1 * (1 - cos phi) + cos phi) + (k 2 * k 2 * (1 - cos phi) + cos phi) - 1 = 2 * cos phi := by
    linear_combination (1 - cos phi) * hk
  rw [ex, ey, ez, es, ec]
  rcases hl.eq_or_lt with h0 | hp
  · rw [← h0]
    simp
    funext i; fin_cases i <;> simp
  · have hsp : 0 < sin phi := sin_pos_of_pos_of_lt_pi hp h
    rw [if_pos (by linarith), atan2_polar (by norm_num : (0:ℝ) < 2) ⟨by linarith, h.le⟩]
    funext i
    fin_cases i <;> simp <;> field_simp

/-- Three squares that add up to zero. -/
theorem three_sq {a b c : ℝ} (h : a * a + b * b + c * c = 0) : a = 0 ∧ b = 0 ∧ c = 0 := by
  have ha := mul_self_nonneg a
  have hb := mul_self_nonneg b
  have hc := mul_self_nonneg c
  exact ⟨mul_self_eq_zero.1 (by linarith), mul_self_eq_zero.1 (by linarith), mul_self_eq_zero.1 (by linarith)⟩

/-- **C74** (back and there) A rotation matrix other than a half turn (trace not -1) is recovered from its rotation vector, whose length is less than half a turn. -/
theorem C74_dav2m_dm2av (m : Mat3) (h : IsRotation m) (ht : m.trace ≠ -1) :
    palDav2m (palDm2av m) = m ∧ len (palDm2av m) < π := by
  obtain ⟨h01, h02, h12, h00, h11, h22⟩ := rot_scalars h
  have htr : m.trace = m 0 0 + m 1 1 + m 2 2 := by simp [Matrix.trace, Fin.sum_univ_three]
  rw [htr] at ht
  have hT : 1 + (m 0 0 + m 1 1 + m 2 2) ≠ 0 := fun h' => ht (by linarith)
  have hS : (m 1 2 - m 2 1) * (m 1 2 - m 2 1) + (m 2 0 - m 0 2) * (m 2 0 - m 0 2) + (m 0 1 - m 1 0) * (m 0 1 - m 1 0)
      = 4 - (m 0 0 + m 1 1 + m 2 2 - 1) ^ 2 := by linear_combination -h00 - h11 - h22
  unfold palDm2av eraRm2v
  dsimp only
  have hSnn : 0 ≤ (m 1 2 - m 2 1) * (m 1 2 - m 2 1) + (m 2 0 - m 0 2) * (m 2 0 - m 0 2) + (m 0 1 - m 1 0) * (m 0 1 - m 1 0) :=
    add_nonneg (add_nonneg (mul_self_nonneg _) (mul_self_nonneg _)) (mul_self_nonneg _)
  by_cases hz : √((m 1 2 - m 2 1) * (m 1 2 - m 2 1) + (m 2 0 - m 0 2) * (m 2 0 - m 0 2) + (m 0 1 - m 1 0) * (m 0 1 - m 1 0)) > 0
  · rw [if_pos hz]
    have hsq := Real.mul_self_sqrt hSnn
    generalize √((m 1 2 - m 2 1) * (m 1 2 - m 2 1) + (m 2 0 - m 0 2) * (m 2 0 - m 0 2) + (m 0 1 - m 1 0) * (m 0 1 - m 1 0)) = s2 at *
    have hc := hyp_cos_atan2 s2 (m 0 0 + m 1 1 + m 2 2 - 1)
    have hs := hyp_sin_atan2 s2 (m 0 0 + m 1 1 + m 2 2 - 1)
    have hhyp : √((m 0 0 + m 1 1 + m 2 2 - 1) * (m 0 0 + m 1 1 + m 2 2 - 1) + s2 * s2) = 2 := by
      rw [hsq, hS, show (m 0 0 + m 1 1 + m 2 2 - 1) * (m 0 0 + m 1 1 + m 2 2 - 1) + (4 - (m 0 0 + m 1 1 + m 2 2 - 1) ^ 2) = 2 ^ 2 by ring]
      exact Real.sqrt_sq (by norm_num)
    rw [hhyp] at hc hs
    have hpn : 0 ≤ atan2 s2 (m 0 0 + m 1 1 + m 2 2 - 1) := atan2_nonneg hz.le
    have hpl : atan2 s2 (m 0 0 + m 1 1 + m 2 2 - 1) < π := by
      refine lt_of_le_of_ne (atan2_mem _ _).2 fun he => ?_
      rw [he, sin_pi] at hs
      linarith
    generalize atan2 s2 (m 0 0 + m 1 1 + m 2 2 - 1) = phi at *
    have hk : dot ![(m 1 2 - m 2 1) / s2, (m 2 0 - m 0 2) / s2, (m 0 1 - m 1 0) / s2] ![(m 1 2 - m 2 1) / s2, (m 2 0 - m 0 2) / s2, (m 0 1 - m 1 0) / s2] = 1 := by
      rw [dot_eq]
      simp only [Matrix.cons_val_zero, Matrix.cons_val_one, Matrix.cons_val]
      rw [div_mul_div_comm, div_mul_div_comm, div_mul_div_comm, ← add_div, ← add_div, ← hsq, div_self (mul_pos hz hz).ne']
    have hv : ![(m 1 2 - m 2 1) * (phi / s2), (m 2 0 - m 0 2) * (phi / s2), (m 0 1 - m 1 0) * (phi / s2)]
        = fun i => phi * (![(m 1 2 - m 2 1) / s2, (m 2 0 - m 0 2) / s2, (m 0 1 - m 1 0) / s2] : Vec3) i := by
      funext i
      fin_cases i <;> simp <;> ring
    rw [hv]
    constructor
    · rw [rv2m_polar hk hpn]
      simp only [Matrix.cons_val_zero, Matrix.cons_val_one, Matrix.cons_val]
      have hsin : sin phi = s2 / 2 := by linarith
      have hcos : cos phi = (m 0 0 + m 1 1 + m 2 2 - 1) / 2 := by linarith
      rw [hsin, hcos]
      have hs2 : s2 ≠ 0 := hz.ne'
      have key : ∀ a b q : ℝ, (1 + (m 0 0 + m 1 1 + m 2 2)) * q = a * b →
          a / s2 * (b / s2) * (1 - (m 0 0 + m 1 1 + m 2 2 - 1) / 2) = q / 2 := by
        intro a b q hq
        rw [div_mul_div_comm, ← hq]
        have : s2 * s2 = (1 + (m 0 0 + m 1 1 + m 2 2)) * (3 - (m 0 0 + m 1 1 + m 2 2)) := by rw [hsq, hS]; ring
        rw [this]
        have h3 : (3 - (m 0 0 + m 1 1 + m 2 2)) ≠ 0 := fun h3 => by
          rw [h3, mul_zero] at this
          exact hs2 (mul_self_eq_zero.1 this)
        field_simp
        ring
      have lin : ∀ a : ℝ, a / s2 * (s2 / 2) = a / 2 := fun a => by field_simp
      rw [key _ _ _ h00, key _ _ _ h11, key _ _ _ h22, key _ _ _ h01, key _ _ _ h02, key _ _ _ h12]
      rw [key (m 2 0 - m 0 2) (m 1 2 - m 2 1) (m 0 1 + m 1 0) (by rw [h01]; ring),
        key (m 0 1 - m 1 0) (m 1 2 - m 2 1) (m 0 2 + m 2 0) (by rw [h02]; ring),
        key (m 0 1 - m 1 0) (m 2 0 - m 0 2) (m 1 2 + m 2 1) (by rw [h12]; ring)]
      rw [lin, lin, lin]
      ext i j
      fin_cases i <;> fin_cases j <;> simp <;> ring
    · rw [len_eq, dot_smul_left, dot_smul_right, hk, mul_one, Real.sqrt_mul_self hpn]
      exact hpl
  · rw [if_neg hz]
    have hz0 : (m 1 2 - m 2 1) * (m 1 2 - m 2 1) + (m 2 0 - m 0 2) * (m 2 0 - m 0 2) + (m 0 1 - m 1 0) * (m 0 1 - m 1 0) = 0 := by
      by_contra hne
      exact hz (Real.sqrt_pos.2 (lt_of_le_of_ne hSnn (Ne.symm hne)))
    obtain ⟨e1, e2, e3⟩ := three_sq hz0
    have htr3 : m 0 0 + m 1 1 + m 2 2 = 3 := by
      have : (1 + (m 0 0 + m 1 1 + m 2 2)) * (3 - (m 0 0 + m 1 1 + m 2 2)) = 0 := by linear_combination hz0 - hS
      rcases mul_eq_zero.1 this with h' | h'
      · exact absurd h' hT
      · linarith
    rw [htr3] at h01 h02 h12 h00 h11 h22
    rw [e1, e2] at h01
    rw [e1, e3] at h02
    rw [e2, e3] at h12
    rw [e1] at h00
    rw [e2] at h11
    rw [e3] at h22
    clear hz hz0 hS hSnn
    constructor
    · have := rv2m_polar (k := ![1, 0, 0]) (by rw [dot_eq]; simp) (le_refl 0)
      simp only [zero_mul, Real.sin_zero, Real.cos_zero] at this
      rw [show (![0, 0, 0] : Vec3) = fun _ => 0 by funext i; fin_cases i <;> rfl, this]
      ext i j
      fin_cases i <;> fin_cases j <;> simp <;> linarith
    · have : len ![0, 0, 0] = 0 := by simp [len, Fin.sum_univ_three]
      rw [this]; exact Real.pi_pos

/-- **C74** (half turns) For a rotation by half a turn palDm2av returns the null vector, so the rotation is lost. -/
theorem C74_half_turn (m : Mat3) (h : IsRotation m) (ht : m.trace = -1) :
    palDm2av m = 0 ∧ palDav2m (palDm2av m) ≠ m := by
  obtain ⟨-, -, -, h00, h11, h22⟩ := rot_scalars h
  have htr : m.trace = m 0 0 + m 1 1 + m 2 2 := by simp [Matrix.trace, Fin.sum_univ_three]
  rw [htr] at ht
  have e0 : palDm2av m = 0 := by
    unfold palDm2av eraRm2v
    dsimp only
    rw [if_neg]
    · funext i; fin_cases i <;> rfl
    · rw [← h00, ← h11, ← h22, ht]; simp
  refine ⟨e0, fun he => ?_⟩
  rw [e0] at he
  have := rv2m_polar (k := ![1, 0, 0]) (by rw [dot_eq]; simp) (le_refl 0)
  simp only [zero_mul, Real.sin_zero, Real.cos_zero] at this
  rw [show (0 : Vec3) = fun _ => 0 by funext i; rfl, this] at he
  rw [← he] at ht
  simp at ht
  norm_num at ht

/-- Both cases of the matrix theorems occur. -/
example : IsRotation (1 : Mat3) ∧ (1 : Mat3).trace ≠ -1 ∧ IsRotation (!![-1, 0, 0; 0, -1, 0; 0, 0, 1] : Mat3) ∧
    (!![-1, 0, 0; 0, -1, 0; 0, 0, 1] : Mat3).trace = -1 := by
  refine ⟨rot_one, by simp [Matrix.trace]; norm_num, ⟨?_, ?_⟩, by simp [Matrix.trace, Fin.sum_univ_three]⟩
  · ext i j; fin_cases i <;> fin_cases j <;> simp [Matrix.mul_apply, Fin.sum_univ_three]
  · rw [Matrix.det_fin_three]; simp

/-- A rotation vector of a quarter turn meets the hypothesis of the round trip. -/
example : len ![π / 2, 0, 0] < π := by
  have hp := Real.pi_pos
  rw [len_eq, dot_eq]
  simp only [Matrix.cons_val_zero, Matrix.cons_val_one, Matrix.cons_val]
  rw [show π / 2 * (π / 2) + 0 * 0 + 0 * 0 = π / 2 * (π / 2) by ring, Real.sqrt_mul_self (by linarith)]
  linarith

/-! ## Bearings -/

/-- The bearing is an arctangent of the east and north components. -/
theorem dbear_eq (a1 b1 a2 b2 : ℝ) :
    palDbear a1 b1 a2 b2 = atan2 (dot (dir a2 b2) (eastAt a1)) (dot (dir a2 b2) (northAt a1 b1)) := by
  have he : dot (dir a2 b2) (eastAt a1) = sin (a2 - a1) * cos b2 := by
    rw [dot_eq, sin_sub]; simp [dir, eastAt]; ring
  have hn : dot (dir a2 b2) (northAt a1 b1) = sin b2 * cos b1 - cos b2 * sin b1 * cos (a2 - a1) := by
    rw [dot_eq, cos_sub]; simp [dir, northAt]; ring
  unfold palDbear eraPas
  dsimp only
  rw [he, hn]
  by_cases h : sin b2 * cos b1 - cos b2 * sin b1 * cos (a2 - a1) ≠ 0 ∨ sin (a2 - a1) * cos b2 ≠ 0
  · rw [if_pos h]
  · rw [if_neg h]
    rw [not_or, not_not, not_not] at h
    rw [h.1, h.2, atan2_zero]

/-- The local axes are orthonormal. -/
theorem frame_sq (a b : ℝ) (v : Vec3) :
    dot v (dir a b) * dot v (dir a b) + dot v (eastAt a) * dot v (eastAt a) + dot v (northAt a b) * dot v (northAt a b) = dot v v := by
  have h1 := sin_sq_add_cos_sq a
  have h2 := sin_sq_add_cos_sq b
  simp only [dot_eq, dir, eastAt, northAt, Matrix.cons_val_zero, Matrix.cons_val_one, Matrix.cons_val]
  generalize sin a = sa at *
  generalize cos a = ca at *
  generalize sin b = sb at *
  generalize cos b = cb at *
  generalize v 0 = x at *
  generalize v 1 = y at *
  generalize v 2 = z at *
  grind

/-- **C75** (geometry) The bearing palDbear gives, together with the separation palDsep, are the polar coordinates of the second point about the first: sin(separation) times the cosine
and sine of the bearing are the components of the second point towards the north and the east at the first; the bearing is in (-π, π] and zero when the points coincide or are opposite. -/
theorem C75_dbear (a1 b1 a2 b2 : ℝ) :
    sin (palDsep a1 b1 a2 b2) * cos (palDbear a1 b1 a2 b2) = dot (dir a2 b2) (northAt a1 b1) ∧
    sin (palDsep a1 b1 a2 b2) * sin (palDbear a1 b1 a2 b2) = dot (dir a2 b2) (eastAt a1) ∧
    palDbear a1 b1 a2 b2 ∈ Set.Ioc (-π) π ∧
    (sin (palDsep a1 b1 a2 b2) = 0 → palDbear a1 b1 a2 b2 = 0) := by
  have hsin : sin (palDsep a1 b1 a2 b2) =
      √(dot (dir a2 b2) (northAt a1 b1) * dot (dir a2 b2) (northAt a1 b1) + dot (dir a2 b2) (eastAt a1) * dot (dir a2 b2) (eastAt a1)) := by
    have hf := frame_sq a1 b1 (dir a2 b2)
    rw [dot_dir] at hf
    have e : palDsep a1 b1 a2 b2 = eraSepp (dir a1 b1) (dir a2 b2) := by
      unfold palDsep eraSeps
      rw [eraS2c_eq, eraS2c_eq]
    rw [e, sepp_val, dot_dir, dot_dir, dot_comm (dir a1 b1) (dir a2 b2)]
    have hnn : 0 ≤ 1 * 1 - dot (dir a2 b2) (dir a1 b1) * dot (dir a2 b2) (dir a1 b1) := by
      have := mul_self_nonneg (dot (dir a2 b2) (northAt a1 b1))
      have := mul_self_nonneg (dot (dir a2 b2) (eastAt a1))
      linarith
    have h1 := hyp_sin_atan2 (√(1 * 1 - dot (dir a2 b2) (dir a1 b1) * dot (dir a2 b2) (dir a1 b1))) (dot (dir a2 b2) (dir a1 b1))
    rw [Real.mul_self_sqrt hnn] at h1
    rw [show dot (dir a2 b2) (dir a1 b1) * dot (dir a2 b2) (dir a1 b1) + (1 * 1 - dot (dir a2 b2) (dir a1 b1) * dot (dir a2 b2) (dir a1 b1)) = 1 by ring,
      Real.sqrt_one, one_mul] at h1
    rw [h1]
    congr 1
    linarith
  rw [hsin, dbear_eq]
  refine ⟨hyp_cos_atan2 _ _, hyp_sin_atan2 _ _, atan2_mem _ _, fun h => ?_⟩
  obtain ⟨h1, h2⟩ := hyp_eq_zero.1 h
  rw [h1, h2, atan2_zero]

/-- **C75** (vector form) For a first point that is not a pole, palDpav of vectors of any length along two directions is the bearing of those directions. -/
theorem C75_dpav (a1 b1 a2 b2 k m : ℝ) (hk : 0 < k) (hm : 0 < m) (hb : 0 < cos b1) :
    palDpav (fun i => k * dir a1 b1 i) (fun i => m * dir a2 b2 i) = palDbear a1 b1 a2 b2 := by
  have pm : ∀ k a b : ℝ, 0 < k → eraPm (fun i => k * dir a b i) = k := by
    intro k a b hk
    rw [eraPm_eq, dot_smul_left, dot_smul_right, dot_dir, mul_one, Real.sqrt_mul_self hk.le]
  have pn : eraPn (fun i => k * dir a1 b1 i) = (k, dir a1 b1) := by
    unfold eraPn
    rw [pm k a1 b1 hk]
    simp only [hk.ne', if_false]
    refine Prod.ext rfl ?_
    funext i
    field_simp
  have hpos : 0 < k * k * m * cos b1 := by positivity
  have hst : eraPdp (fun i => m * dir a2 b2 i - k * dir a1 b1 i)
      (eraPxp ![-(k * dir a1 b1 0) * (k * dir a1 b1 2), -(k * dir a1 b1 1) * (k * dir a1 b1 2), k * dir a1 b1 0 * (k * dir a1 b1 0) + k * dir a1 b1 1 * (k * dir a1 b1 1)] (dir a1 b1))
      = k * k * m * cos b1 * dot (dir a2 b2) (eastAt a1) := by
    have h1 := sin_sq_add_cos_sq a1
    have h2 := sin_sq_add_cos_sq b1
    simp only [dot_eq, eraPdp, eraPxp, dir, eastAt, Matrix.cons_val_zero, Matrix.cons_val_one, Matrix.cons_val]
    generalize sin a1 = sa at *
    generalize cos a1 = ca at *
    generalize sin b1 = sb at *
    generalize cos b1 = cb at *
    generalize sin a2 = sa2 at *
    generalize cos a2 = ca2 at *
    generalize sin b2 = sb2 at *
    generalize cos b2 = cb2 at *
    grind
  have hct : eraPdp (fun i => m * dir a2 b2 i - k * dir a1 b1 i)
      ![-(k * dir a1 b1 0) * (k * dir a1 b1 2), -(k * dir a1 b1 1) * (k * dir a1 b1 2), k * dir a1 b1 0 * (k * dir a1 b1 0) + k * dir a1 b1 1 * (k * dir a1 b1 1)]
      = k * k * m * cos b1 * dot (dir a2 b2) (northAt a1 b1) := by
    have h1 := sin_sq_add_cos_sq a1
    have h2 := sin_sq_add_cos_sq b1
    simp only [dot_eq, eraPdp, dir, northAt, Matrix.cons_val_zero, Matrix.cons_val_one, Matrix.cons_val]
    generalize sin a1 = sa at *
    generalize cos a1 = ca at *
    generalize sin b1 = sb at *
    generalize cos b1 = cb at *
    generalize sin a2 = sa2 at *
    generalize cos a2 = ca2 at *
    generalize sin b2 = sb2 at *
    generalize cos b2 = cb2 at *
    grind
  unfold palDpav eraPap
  rw [pn, pm m a2 b2 hm]
  dsimp only
  rw [if_neg (by rintro (h | h) <;> linarith), hst, hct, dbear_eq]
  by_cases h0 : k * k * m * cos b1 * dot (dir a2 b2) (eastAt a1) = 0 ∧ k * k * m * cos b1 * dot (dir a2 b2) (northAt a1 b1) = 0
  · rw [if_pos h0]
    dsimp only
    rw [h0.1]
    have e1 := (mul_eq_zero.1 h0.1).resolve_left hpos.ne'
    have e2 := (mul_eq_zero.1 h0.2).resolve_left hpos.ne'
    rw [e1, e2, atan2_zero, atan2_zero_pos (by norm_num)]
  · rw [if_neg h0]
    exact atan2_scale hpos _ _

/-- **C75** (vector form at the poles) With the first point at a pole palDpav returns zero, although palDbear does not. -/
theorem C75_dpav_pole (k m a1 a2 b2 : ℝ) (h : 0 < cos b2) :
    palDpav (fun i => k * dir a1 (π / 2) i) (fun i => m * dir a2 b2 i) = 0 ∧
    SameAngle (palDbear a1 (π / 2) a2 b2) (π - (a2 - a1)) := by
  constructor
  · have e : (![-(k * dir a1 (π / 2) 0) * (k * dir a1 (π / 2) 2), -(k * dir a1 (π / 2) 1) * (k * dir a1 (π / 2) 2),
        k * dir a1 (π / 2) 0 * (k * dir a1 (π / 2) 0) + k * dir a1 (π / 2) 1 * (k * dir a1 (π / 2) 1)] : Vec3) = ![0, 0, 0] := by
      funext i; fin_cases i <;> simp [dir]
    unfold palDpav eraPap
    dsimp only
    rw [e]
    split_ifs with h1 h2
    · exact atan2_zero_pos (by norm_num)
    · dsimp only
      rw [h2.1]; exact atan2_zero_pos (by norm_num)
    · exfalso
      apply h2
      simp [eraPdp, eraPxp]
  · have hs := C75_dbear a1 (π / 2) a2 b2
    have e1 : dot (dir a2 b2) (northAt a1 (π / 2)) = cos b2 * cos (π - (a2 - a1)) := by
      rw [cos_pi_sub, dot_eq, cos_sub]; simp [dir, northAt]; ring
    have e2 : dot (dir a2 b2) (eastAt a1) = cos b2 * sin (π - (a2 - a1)) := by
      rw [sin_pi_sub, dot_eq, sin_sub]; simp [dir, eastAt]; ring
    rw [dbear_eq, e1, e2]
    obtain ⟨h1, h2⟩ := atan2_trig h (π - (a2 - a1))
    exact sincos_same h2 h1

/-- A case that is not degenerate. -/
example : (0 : ℝ) < cos (1 / 2) := cos_pos_of_mem_Ioo ⟨by linarith [Real.pi_gt_three], by linarith [Real.pi_gt_three]⟩

end Pal.Props
