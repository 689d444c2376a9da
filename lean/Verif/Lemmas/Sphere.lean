import Verif.Model.Sphere
import Verif.Lemmas.Trig

namespace Pal
open Real Pal.Spec

theorem palDrange_spec (a : ℝ) : |palDrange a| ≤ π ∧ SameAngle (palDrange a) a := by
  have hp := Real.two_pi_pos
  obtain ⟨h1, h2, h3, h4⟩ := fmod_spec a hp
  rw [abs_lt] at h1
  unfold palDrange
  dsimp only
  split_ifs with h h'
  · refine ⟨?_, ⟨-truncR (a / (2 * π)) - 1, ?_⟩⟩
    · rw [abs_le]; constructor <;> linarith
    · rw [h4]; push_cast; ring
  · refine ⟨?_, ⟨-truncR (a / (2 * π)) + 1, ?_⟩⟩
    · rw [abs_le]; constructor <;> linarith
    · rw [h4]; push_cast; ring
  · push Not at h h'
    exact ⟨abs_le.2 ⟨h', h⟩, ⟨_, h4⟩⟩

theorem palDrange_eq {a : ℝ} (h : |a| ≤ π) : palDrange a = a := by
  have hf : fmod a (2 * π) = a := fmod_small Real.two_pi_pos (by linarith [Real.pi_pos])
  unfold palDrange
  dsimp only
  rw [hf]
  rw [abs_le] at h
  rw [if_neg (by linarith [h.2]), if_neg (by linarith [h.1])]

theorem dot_eq (a b : Vec3) : dot a b = a 0 * b 0 + a 1 * b 1 + a 2 * b 2 := by
  unfold dot; rw [Fin.sum_univ_three]

/-- Both horizon conversions are the same reflection: components along north, east and zenith. -/
theorem horizon_vec (h d p : ℝ) :
    -cos h * cos d * sin p + sin d * cos p = dot (northAxis p) (dir h d) ∧
    -sin h * cos d = dot eastAxis (dir h d) ∧
    cos h * cos d * cos p + sin d * sin p = dot (zenithAxis p) (dir h d) := by
  simp only [dot_eq, northAxis, eastAxis, zenithAxis, dir, Matrix.cons_val_zero, Matrix.cons_val_one, Matrix.cons_val]
  refine ⟨by ring, by ring, by ring⟩

theorem horizon_norm (h d p : ℝ) :
    (-cos h * cos d * sin p + sin d * cos p) * (-cos h * cos d * sin p + sin d * cos p) + (-sin h * cos d) * (-sin h * cos d) +
    (cos h * cos d * cos p + sin d * sin p) * (cos h * cos d * cos p + sin d * sin p) = 1 := by
  have h1 := sin_sq_add_cos_sq h
  have h2 := sin_sq_add_cos_sq d
  have h3 := sin_sq_add_cos_sq p
  grind

theorem de2h_dir (h d p : ℝ) : dir (palDe2h h d p).1 (palDe2h h d p).2 =
    ![-cos h * cos d * sin p + sin d * cos p, -sin h * cos d, cos h * cos d * cos p + sin d * sin p] := by
  have := sph_of_cart (-cos h * cos d * sin p + sin d * cos p) (-sin h * cos d) (cos h * cos d * cos p + sin d * sin p) (palDe2h h d p).1 ?_
  · rw [horizon_norm, Real.sqrt_one] at this
    rw [← this]
    funext i
    rw [one_mul]
    rfl
  · intro hne
    right
    unfold palDe2h
    dsimp only
    have hr : ¬ √((-cos h * cos d * sin p + sin d * cos p) * (-cos h * cos d * sin p + sin d * cos p) + -sin h * cos d * (-sin h * cos d)) = 0 :=
      fun h0 => by have := hyp_eq_zero.1 h0; tauto
    rw [if_neg hr]
    split_ifs
    · exact ⟨1, by push_cast; ring⟩
    · exact SameAngle.refl _

theorem dh2e_dir (h d p : ℝ) : dir (palDh2e h d p).1 (palDh2e h d p).2 =
    ![-cos h * cos d * sin p + sin d * cos p, -sin h * cos d, cos h * cos d * cos p + sin d * sin p] := by
  have := sph_of_cart (-cos h * cos d * sin p + sin d * cos p) (-sin h * cos d) (cos h * cos d * cos p + sin d * sin p) (palDh2e h d p).1 ?_
  · rw [horizon_norm, Real.sqrt_one] at this
    rw [← this]
    funext i
    rw [one_mul]
    rfl
  · intro hne
    left
    unfold palDh2e
    dsimp only
    rw [if_neg (fun h0 => by have := hyp_eq_zero.1 h0; tauto)]

theorem de2h_range (h d p : ℝ) : (palDe2h h d p).1 ∈ Set.Ico 0 (2 * π) ∧ |(palDe2h h d p).2| ≤ π / 2 := by
  have hp := Real.pi_pos
  refine ⟨?_, abs_atan2_le (Real.sqrt_nonneg _)⟩
  unfold palDe2h
  dsimp only
  have ha := atan2_mem (-sin h * cos d) (-cos h * cos d * sin p + sin d * cos p)
  generalize atan2 (-sin h * cos d) (-cos h * cos d * sin p + sin d * cos p) = t at ha
  obtain ⟨h1, h2⟩ := ha
  by_cases h0 : √((-cos h * cos d * sin p + sin d * cos p) * (-cos h * cos d * sin p + sin d * cos p) + -sin h * cos d * (-sin h * cos d)) = 0
  · rw [if_pos h0, if_neg (lt_irrefl _)]
    exact ⟨le_rfl, by linarith⟩
  · rw [if_neg h0]
    split_ifs with h3
    · exact ⟨by linarith, by linarith⟩
    · exact ⟨by linarith, by linarith⟩

theorem dh2e_range (h d p : ℝ) : (palDh2e h d p).1 ∈ Set.Ioc (-π) π ∧ |(palDh2e h d p).2| ≤ π / 2 := by
  have hp := Real.pi_pos
  refine ⟨?_, abs_atan2_le (Real.sqrt_nonneg _)⟩
  unfold palDh2e
  dsimp only
  split_ifs
  · exact ⟨by linarith, hp.le⟩
  · exact atan2_mem _ _

end Pal
