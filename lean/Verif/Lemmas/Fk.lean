import Verif.Lemmas.Map
import Mathlib.Analysis.Real.Pi.Bounds

/-! # Helper lemmas: small matrices, the E-terms, the FK4/FK5 matrices -/

namespace Pal
open Real Matrix Pal.Spec

theorem comp_le_len (a : Vec3) (i : Fin 3) : |a i| ≤ len a := by
  rw [len_eq, dot_eq]
  refine Real.abs_le_sqrt ?_
  have h0 := mul_self_nonneg (a 0)
  have h1 := mul_self_nonneg (a 1)
  have h2 := mul_self_nonneg (a 2)
  fin_cases i <;> simp <;> nlinarith

theorem sum_abs_sq (a : Vec3) : (|a 0| + |a 1| + |a 2|) ^ 2 ≤ 3 * (len a * len a) := by
  rw [len_sq, dot_eq]
  have h0 := sq_abs (a 0)
  have h1 := sq_abs (a 1)
  have h2 := sq_abs (a 2)
  generalize |a 0| = A at *
  generalize |a 1| = B at *
  generalize |a 2| = C at *
  nlinarith [sq_nonneg (A - B), sq_nonneg (B - C), sq_nonneg (A - C)]

/-- A matrix with entries at most e lengthens vectors by at most 3 e. -/
theorem len_mulVec_le {m : Mat3} {e : ℝ} (h : ∀ i j, |m i j| ≤ e) (a : Vec3) : len (m.mulVec a) ≤ 3 * e * len a := by
  have he : 0 ≤ e := (abs_nonneg _).trans (h 0 0)
  have hc : ∀ i, |m.mulVec a i| ≤ e * (|a 0| + |a 1| + |a 2|) := by
    intro i
    simp only [Matrix.mulVec, dotProduct, Fin.sum_univ_three]
    have t : |m i 0 * a 0 + m i 1 * a 1 + m i 2 * a 2| ≤ |m i 0 * a 0| + |m i 1 * a 1| + |m i 2 * a 2| := by
      exact (abs_add_le _ _).trans (add_le_add_left (abs_add_le _ _) _)
    simp only [abs_mul] at t
    have k0 := mul_le_mul_of_nonneg_right (h i 0) (abs_nonneg (a 0))
    have k1 := mul_le_mul_of_nonneg_right (h i 1) (abs_nonneg (a 1))
    have k2 := mul_le_mul_of_nonneg_right (h i 2) (abs_nonneg (a 2))
    linarith
  have hs := sum_abs_sq a
  have h0 := len_nonneg a
  rw [len_eq (m.mulVec a), dot_eq]
  refine Real.sqrt_le_iff.2 ⟨by positivity, ?_⟩
  have hq : ∀ i, m.mulVec a i * m.mulVec a i ≤ e ^ 2 * (|a 0| + |a 1| + |a 2|) ^ 2 := by
    intro i
    have := pow_le_pow_left₀ (abs_nonneg _) (hc i) 2
    rw [sq_abs] at this
    linarith [mul_pow e (|a 0| + |a 1| + |a 2|) 2, sq (m.mulVec a i)]
  have q0 := hq 0
  have q1 := hq 1
  have q2 := hq 2
  have : e ^ 2 * (|a 0| + |a 1| + |a 2|) ^ 2 ≤ e ^ 2 * (3 * (len a * len a)) := mul_le_mul_of_nonneg_left hs (sq_nonneg e)
  nlinarith

theorem dot_mulVec_le {m : Mat3} {e : ℝ} (h : ∀ i j, |m i j| ≤ e) {a : Vec3} (ha : len a = 1) : |dot a (m.mulVec a)| ≤ 3 * e := by
  have h1 := dot_le_len a (m.mulVec a)
  have h2 := len_mulVec_le h a
  rw [ha] at h1 h2
  linarith

theorem eterm_num {P T al S LL : ℝ} (hP : |P - 1| ≤ 3 / 10 ^ 10) (hT : |T - 1| ≤ 4 / 10 ^ 10) (hS : |S| ≤ 1.71 / 10 ^ 6) (hal0 : 0 ≤ al) (hal : al ≤ 1.7 / 10 ^ 6)
    (hLL : 0 ≤ LL) (h : LL * LL = P * P + T * T * (al * al) + S * S * (P * P) - 2 * T * (S * S) + 2 * S * (T - P * P)) : |LL - 1| ≤ 4 / 10 ^ 10 := by
  obtain ⟨p1, p2⟩ := abs_le.1 hP
  obtain ⟨t1, t2⟩ := abs_le.1 hT
  obtain ⟨s1, s2⟩ := abs_le.1 hS
  have hPP : |P * P - 1| ≤ 6.1 / 10 ^ 10 := by rw [abs_le]; constructor <;> nlinarith
  obtain ⟨q1, q2⟩ := abs_le.1 hPP
  have hSS0 : 0 ≤ S * S := mul_self_nonneg S
  have hSS : S * S ≤ 3 / 10 ^ 12 := by
    have := abs_mul_abs_self S
    nlinarith [abs_nonneg S]
  have hA0 : 0 ≤ al * al := mul_self_nonneg al
  have hA : al * al ≤ 3 / 10 ^ 12 := by nlinarith
  have hTT : T * T ≤ 1.1 := by nlinarith
  have hTT0 : 0 ≤ T * T := mul_self_nonneg T
  have a1 : T * T * (al * al) ≤ 1.1 * (3 / 10 ^ 12) := mul_le_mul hTT hA hA0 (by norm_num)
  have a2 : S * S * (P * P) ≤ 3 / 10 ^ 12 * 1.1 := mul_le_mul hSS (by linarith) (mul_self_nonneg P) (by norm_num)
  have a3 : T * (S * S) ≤ 1.1 * (3 / 10 ^ 12) := mul_le_mul (by linarith) hSS hSS0 (by norm_num)
  have a3' : 0 ≤ T * (S * S) := mul_nonneg (by linarith) hSS0
  have a4 : |2 * S * (T - P * P)| ≤ 2 * (1.71 / 10 ^ 6) * (1.1 / 10 ^ 9) := by
    rw [abs_mul, abs_mul, abs_of_pos (by norm_num : (0 : ℝ) < 2)]
    refine mul_le_mul (by linarith) ?_ (abs_nonneg _) (by norm_num)
    rw [abs_le]; constructor <;> linarith
  obtain ⟨b1, b2⟩ := abs_le.1 a4
  have c1 := mul_nonneg hTT0 hA0
  have c2 := mul_nonneg hSS0 (mul_self_nonneg P)
  have hl : |LL * LL - 1| ≤ 6.3 / 10 ^ 10 := by rw [h, abs_le]; constructor <;> linarith
  obtain ⟨l1, l2⟩ := abs_le.1 hl
  rw [abs_le]
  constructor <;> nlinarith

theorem eterm_len {p a : Vec3} {T : ℝ} (hp : |len p - 1| ≤ 3 / 10 ^ 10) (ha : len a ≤ 1.7 / 10 ^ 6) (hT : |T - 1| ≤ 4 / 10 ^ 10) :
    |len (fun i => p i + (a i * T - dot p a * p i)) - 1| ≤ 4 / 10 ^ 10 ∧ |dot p a| ≤ 1.71 / 10 ^ 6 := by
  have hs := dot_le_len p a
  have h0 := len_nonneg p
  have h1 := len_nonneg a
  have hs' : |dot p a| ≤ 1.71 / 10 ^ 6 := by
    obtain ⟨p1, p2⟩ := abs_le.1 hp
    refine hs.trans ?_
    calc len p * len a ≤ 1.001 * (1.7 / 10 ^ 6) := mul_le_mul (by linarith) ha h1 (by norm_num)
      _ ≤ _ := by norm_num
  refine ⟨eterm_num hp hT hs' h1 ha (len_nonneg _) ?_, hs'⟩
  rw [len_sq, len_sq, len_sq]
  have : dot (fun i => p i + (a i * T - dot p a * p i)) (fun i => p i + (a i * T - dot p a * p i)) =
      dot p p + T * T * dot a a + dot p a * dot p a * dot p p + 2 * T * dot p a - 2 * dot p a * dot p p - 2 * T * dot p a * dot p a := by
    generalize hh : dot p a = s
    have h2 : p 0 * a 0 + p 1 * a 1 + p 2 * a 2 = s := by rw [← hh, dot_eq]
    simp only [dot_eq]
    linear_combination (2 * T - 2 * T * s) * h2
  rw [this]; ring

/-- Removing and adding the E-terms: p is a vector of almost unit length, D the direction after adding the E-terms a. -/
theorem eterms {p a D : Vec3} {T : ℝ} (hp : |len p - 1| ≤ 3 / 10 ^ 10) (ha : len a ≤ 1.7 / 10 ^ 6) (hT : |T - 1| ≤ 4 / 10 ^ 10)
    (hD1 : len D = 1) (hD : (fun i => len (fun i => p i + (a i * T - dot p a * p i)) * D i) = fun i => p i + (a i * T - dot p a * p i)) :
    len (fun i => D i - a i + dot D a * D i - p i) ≤ 6 / 10 ^ 10 := by
  obtain ⟨hL, hs⟩ := eterm_len hp ha hT
  have h0 := len_nonneg p
  have h1 := len_nonneg a
  obtain ⟨p1, p2⟩ := abs_le.1 hp
  obtain ⟨t1, t2⟩ := abs_le.1 hT
  generalize hq : (fun i => p i + (a i * T - dot p a * p i)) = q at *
  have hDq : len (fun i => D i - q i) ≤ 4 / 10 ^ 10 := by
    have e : (fun i => D i - q i) = fun i => (1 - len q) * D i := by
      funext i
      have := congrFun hD i
      rw [← this]; ring
    rw [e, len_smul, hD1, mul_one, abs_sub_comm]; exact hL
  have hqp : len (fun i => q i - p i) ≤ 3.5 / 10 ^ 6 := by
    have e : (fun i => q i - p i) = fun i => T * a i - dot p a * p i := by funext i; rw [← hq]; ring
    rw [e]
    refine (len_sub_le (fun i => T * a i) (fun i => dot p a * p i)).trans ?_
    rw [len_smul, len_smul, abs_of_nonneg (by linarith : 0 ≤ T)]
    have k1 : T * len a ≤ 1.001 * (1.7 / 10 ^ 6) := mul_le_mul (by linarith) ha h1 (by norm_num)
    have k2 : |dot p a| * len p ≤ 1.71 / 10 ^ 6 * 1.001 := mul_le_mul hs (by linarith) h0 (by norm_num)
    linarith
  have hDp : len (fun i => D i - p i) ≤ 3.6 / 10 ^ 6 := (len_tri D q p).trans (by linarith)
  have e : (fun i => D i - a i + dot D a * D i - p i) = fun i => (D i - q i) + ((T - 1) * a i + (dot (fun i => D i - p i) a * D i + dot p a * (D i - p i))) := by
    funext i
    rw [dot_sub_left, ← hq]; ring
  have s1 := len_add_le (fun i => D i - q i) (fun i => (T - 1) * a i + (dot (fun i => D i - p i) a * D i + dot p a * (D i - p i)))
  have s2 := len_add_le (fun i => (T - 1) * a i) (fun i => dot (fun i => D i - p i) a * D i + dot p a * (D i - p i))
  have s3 := len_add_le (fun i => dot (fun i => D i - p i) a * D i) (fun i => dot p a * (D i - p i))
  rw [len_smul] at s2
  rw [len_smul, hD1, mul_one, len_smul (dot p a) (fun i => D i - p i)] at s3
  have k1 : |T - 1| * len a ≤ 4 / 10 ^ 10 * (1.7 / 10 ^ 6) := mul_le_mul hT ha h1 (by norm_num)
  have k2 : |dot (fun i => D i - p i) a| ≤ 3.6 / 10 ^ 6 * (1.7 / 10 ^ 6) := (dot_le_len _ _).trans (mul_le_mul hDp ha h1 (by norm_num))
  have k3 : |dot p a| * len (fun i => D i - p i) ≤ 1.71 / 10 ^ 6 * (3.6 / 10 ^ 6) := mul_le_mul hs hDp (len_nonneg _) (by norm_num)
  rw [e]
  refine s1.trans ?_
  linarith

end Pal
