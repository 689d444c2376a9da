import Verif.Lemmas.Sphere
import Mathlib.LinearAlgebra.Matrix.NonsingularInverse
import Mathlib.Geometry.Euclidean.Angle.Unoriented.TriangleInequality
import Mathlib.Analysis.InnerProductSpace.PiL2

namespace Pal
open Real Pal.Spec Matrix

theorem eraRxp_eq (r : Mat3) (p : Vec3) : eraRxp r p = r.mulVec p := by
  funext i; simp [eraRxp, mulVec, dotProduct, Fin.sum_univ_three]

theorem eraTr_eq (r : Mat3) : eraTr r = r.transpose := rfl

theorem eraTrxp_eq (r : Mat3) (p : Vec3) : eraTrxp r p = r.transpose.mulVec p := by
  unfold eraTrxp; rw [eraRxp_eq, eraTr_eq]

theorem eraRxr_eq (a b : Mat3) : eraRxr a b = a * b := by
  ext i j; simp [eraRxr, Matrix.mul_apply, Fin.sum_univ_three]

theorem eraIr_eq : eraIr = 1 := by
  ext i j; fin_cases i <;> fin_cases j <;> simp [eraIr]

theorem eraRx_eq (t : ℝ) (r : Mat3) : eraRx t r = axisX t * r := by
  ext i j; fin_cases i <;> fin_cases j <;> simp [eraRx, axisX, Matrix.mul_apply, Fin.sum_univ_three]

theorem eraRy_eq (t : ℝ) (r : Mat3) : eraRy t r = axisY t * r := by
  ext i j; fin_cases i <;> fin_cases j <;> simp [eraRy, axisY, Matrix.mul_apply, Fin.sum_univ_three] <;> ring

theorem eraRz_eq (t : ℝ) (r : Mat3) : eraRz t r = axisZ t * r := by
  ext i j; fin_cases i <;> fin_cases j <;> simp [eraRz, axisZ, Matrix.mul_apply, Fin.sum_univ_three]

theorem rot_one : IsRotation 1 := by simp [IsRotation]

theorem rot_mul {a b : Mat3} (ha : IsRotation a) (hb : IsRotation b) : IsRotation (a * b) := by
  refine ⟨?_, by rw [det_mul, ha.2, hb.2, one_mul]⟩
  rw [transpose_mul, Matrix.mul_assoc, ← Matrix.mul_assoc b, hb.1, Matrix.one_mul, ha.1]

theorem rot_trans_mul {a : Mat3} (ha : IsRotation a) : a.transpose * a = 1 := mul_eq_one_comm.1 ha.1

theorem rot_transpose {a : Mat3} (ha : IsRotation a) : IsRotation a.transpose := by
  refine ⟨?_, by rw [det_transpose, ha.2]⟩
  rw [transpose_transpose]; exact rot_trans_mul ha

theorem rot_axisX (t : ℝ) : IsRotation (axisX t) := by
  have h := sin_sq_add_cos_sq t
  constructor
  · ext i j; fin_cases i <;> fin_cases j <;> simp [axisX, Matrix.mul_apply, Fin.sum_univ_three] <;> grind
  · rw [det_fin_three]; simp [axisX]; linear_combination h

theorem rot_axisY (t : ℝ) : IsRotation (axisY t) := by
  have h := sin_sq_add_cos_sq t
  constructor
  · ext i j; fin_cases i <;> fin_cases j <;> simp [axisY, Matrix.mul_apply, Fin.sum_univ_three] <;> grind
  · rw [det_fin_three]; simp [axisY]; linear_combination h

theorem rot_axisZ (t : ℝ) : IsRotation (axisZ t) := by
  have h := sin_sq_add_cos_sq t
  constructor
  · ext i j; fin_cases i <;> fin_cases j <;> simp [axisZ, Matrix.mul_apply, Fin.sum_univ_three] <;> grind
  · rw [det_fin_three]; simp [axisZ]; linear_combination h

theorem dot_dotProduct (a b : Vec3) : dot a b = a ⬝ᵥ b := rfl

/-- Rotations preserve scalar products. -/
theorem rot_dot {m : Mat3} (h : IsRotation m) (a b : Vec3) : dot (m.mulVec a) (m.mulVec b) = dot a b := by
  rw [dot_dotProduct, dot_dotProduct, dotProduct_mulVec, vecMul_mulVec, rot_trans_mul h, vecMul_one]

theorem eraPdp_eq (a b : Vec3) : eraPdp a b = dot a b := (dot_eq a b).symm

theorem eraPm_eq (a : Vec3) : eraPm a = √(dot a a) := by unfold eraPm; rw [dot_eq]

theorem len_eq (a : Vec3) : len a = √(dot a a) := by
  unfold len dot; simp only [sq]

theorem dot_self_nonneg (a : Vec3) : 0 ≤ dot a a := Finset.sum_nonneg (fun i _ => mul_self_nonneg _)

theorem dot_self_eq_zero {a : Vec3} : dot a a = 0 ↔ a = 0 := by
  unfold dot
  rw [Finset.sum_eq_zero_iff_of_nonneg (fun i _ => mul_self_nonneg _)]
  constructor
  · intro h; funext i; exact mul_self_eq_zero.1 (h i (Finset.mem_univ i))
  · rintro rfl; simp

theorem dot_comm (a b : Vec3) : dot a b = dot b a := by simp [dot, mul_comm]

/-- Lagrange's identity. -/
theorem cross_sq (a b : Vec3) : dot (eraPxp a b) (eraPxp a b) = dot a a * dot b b - dot a b * dot a b := by
  simp only [dot_eq, eraPxp, cons_val_zero, cons_val_one, cons_val]; ring

theorem dot_dir (a b : ℝ) : dot (dir a b) (dir a b) = 1 := by rw [dot_eq]; exact dir_unit a b

theorem sepp_val (a b : Vec3) : eraSepp a b = atan2 (√(dot a a * dot b b - dot a b * dot a b)) (dot a b) := by
  unfold eraSepp
  rw [eraPdp_eq, eraPm_eq, cross_sq]
  dsimp only
  split_ifs with h
  · rfl
  · push Not at h
    rw [h.1, h.2, atan2_zero]

theorem sepp_cos (a b : Vec3) : √(dot a a) * √(dot b b) * cos (eraSepp a b) = dot a b := by
  have h0 : 0 ≤ dot a a * dot b b - dot a b * dot a b := by rw [← cross_sq]; exact dot_self_nonneg _
  have := hyp_cos_atan2 (√(dot a a * dot b b - dot a b * dot a b)) (dot a b)
  rw [Real.mul_self_sqrt h0] at this
  rw [← Real.sqrt_mul (dot_self_nonneg a), sepp_val]
  rw [show dot a b * dot a b + (dot a a * dot b b - dot a b * dot a b) = dot a a * dot b b by ring] at this
  exact this

theorem sepp_range (a b : Vec3) : 0 ≤ eraSepp a b ∧ eraSepp a b ≤ π := by
  rw [sepp_val]
  exact ⟨atan2_nonneg (Real.sqrt_nonneg _), (atan2_mem _ _).2⟩

theorem sepp_angle (a b : Vec3) (ha : a ≠ 0) (hb : b ≠ 0) :
    eraSepp a b = InnerProductGeometry.angle (WithLp.toLp 2 a : EuclideanSpace ℝ (Fin 3)) (WithLp.toLp 2 b) := by
  have hin : ∀ x y : Vec3, inner ℝ (WithLp.toLp 2 x : EuclideanSpace ℝ (Fin 3)) (WithLp.toLp 2 y) = dot x y := by
    intro x y
    simp [PiLp.inner_apply, dot, mul_comm]
  have hn : ∀ x : Vec3, ‖(WithLp.toLp 2 x : EuclideanSpace ℝ (Fin 3))‖ = √(dot x x) := by
    intro x; rw [← hin, real_inner_self_eq_norm_sq, Real.sqrt_sq (norm_nonneg _)]
  unfold InnerProductGeometry.angle
  rw [hin, hn, hn]
  have h1 := sepp_cos a b
  have pa : 0 < √(dot a a) := Real.sqrt_pos.2 (lt_of_le_of_ne (dot_self_nonneg a) (fun h => ha (dot_self_eq_zero.1 h.symm)))
  have pb : 0 < √(dot b b) := Real.sqrt_pos.2 (lt_of_le_of_ne (dot_self_nonneg b) (fun h => hb (dot_self_eq_zero.1 h.symm)))
  rw [← h1, mul_div_cancel_left₀ _ (mul_pos pa pb).ne', Real.arccos_cos (sepp_range a b).1 (sepp_range a b).2]

end Pal
