import Verif.Lemmas.Stumpff
import Verif.Spec.Kepler
import Mathlib.Analysis.Calculus.Deriv.Inverse
import Mathlib.Analysis.Calculus.MeanValue
import Mathlib.Topology.Order.MonotoneContinuity
import Mathlib.Topology.Algebra.Order.Field

/-! # Two-body motion in terms of the universal functions -/

namespace Pal.Kepler
open Real Pal.Spec Pal.Stumpff

/-- Distance, time, position and velocity as functions of the universal anomaly. -/
noncomputable def rr (mu a r0 σ s : ℝ) : ℝ := r0 * U0 a s + σ * U1 a s + mu * U2 a s
@[inherit_doc rr] noncomputable def rd (mu a r0 σ s : ℝ) : ℝ := r0 * (a * U1 a s) + σ * U0 a s + mu * U1 a s
@[inherit_doc rr] noncomputable def tt (mu a r0 σ s : ℝ) : ℝ := r0 * U1 a s + σ * U2 a s + mu * U3 a s
@[inherit_doc rr] noncomputable def xx (mu a r0 σ : ℝ) (p v : Fin 3 → ℝ) (s : ℝ) (i : Fin 3) : ℝ :=
  (1 - mu * U2 a s / r0) * p i + (r0 * U1 a s + σ * U2 a s) * v i
@[inherit_doc rr] noncomputable def vv (mu a r0 σ : ℝ) (p v : Fin 3 → ℝ) (s : ℝ) (i : Fin 3) : ℝ :=
  -mu * U1 a s / (r0 * rr mu a r0 σ s) * p i + (1 - mu * U2 a s / rr mu a r0 σ s) * v i

variable {mu a r0 σ : ℝ} {p v : Fin 3 → ℝ}

theorem rr_deriv (s : ℝ) : HasDerivAt (rr mu a r0 σ) (rd mu a r0 σ s) s :=
  (((d0 a s).const_mul r0).add ((d1 a s).const_mul σ)).add ((d2 a s).const_mul mu)

theorem tt_deriv (s : ℝ) : HasDerivAt (tt mu a r0 σ) (rr mu a r0 σ s) s :=
  (((d1 a s).const_mul r0).add ((d2 a s).const_mul σ)).add ((d3 a s).const_mul mu)

theorem comb1 (s : ℝ) : U0 a s * rr mu a r0 σ s - U1 a s * rd mu a r0 σ s = r0 - mu * U2 a s := by
  unfold rr rd
  linear_combination r0 * pyth a s - mu * id2 a s

theorem comb2 (s : ℝ) : U1 a s * rr mu a r0 σ s - U2 a s * rd mu a r0 σ s = r0 * U1 a s + σ * U2 a s := by
  unfold rr rd
  linear_combination σ * id2 a s + r0 * U1 a s * id0 a s

theorem xx_deriv (h0 : r0 ≠ 0) {s : ℝ} (hr : rr mu a r0 σ s ≠ 0) (i : Fin 3) :
    HasDerivAt (fun s => xx mu a r0 σ p v s i) (rr mu a r0 σ s * vv mu a r0 σ p v s i) s := by
  unfold xx
  have h1 := (((((d2 a s).const_mul mu).div_const r0).const_sub 1).mul_const (p i)).add
    ((((d1 a s).const_mul r0).add ((d2 a s).const_mul σ)).mul_const (v i))
  refine h1.congr_deriv ?_
  unfold vv
  field_simp
  unfold rr
  ring

theorem vv_deriv (h0 : r0 ≠ 0) {s : ℝ} (hr : rr mu a r0 σ s ≠ 0) (i : Fin 3) :
    HasDerivAt (fun s => vv mu a r0 σ p v s i) (-mu * xx mu a r0 σ p v s i / rr mu a r0 σ s ^ 2) s := by
  unfold vv
  have h1 := ((((d1 a s).const_mul (-mu)).div ((rr_deriv (mu := mu) (a := a) (r0 := r0) (σ := σ) s).const_mul r0) (mul_ne_zero h0 hr)).mul_const (p i)).add
    (((((d2 a s).const_mul mu).div (rr_deriv (mu := mu) (a := a) (r0 := r0) (σ := σ) s) hr).const_sub 1).mul_const (v i))
  refine h1.congr_deriv ?_
  have c1 := comb1 (mu := mu) (a := a) (r0 := r0) (σ := σ) s
  have c2 := comb2 (mu := mu) (a := a) (r0 := r0) (σ := σ) s
  unfold xx
  field_simp
  linear_combination (-mu * p i) * c1 - mu * r0 * v i * c2

/-- The reference state: distance, radial velocity times distance and energy belong to the position and velocity. -/
structure Ref (mu a r0 σ : ℝ) (p v : Fin 3 → ℝ) : Prop where
  pos : 0 < r0
  pp : dot p p = r0 ^ 2
  pv : dot p v = σ
  vv : dot v v = a + 2 * mu / r0

theorem dot_self_len (x : Fin 3 → ℝ) : dot x x = len x ^ 2 := by
  rw [len, Real.sq_sqrt (Finset.sum_nonneg fun i _ => sq_nonneg _)]
  simp [dot, pow_two]

theorem xx_sq (H : Ref mu a r0 σ p v) (s : ℝ) : dot (xx mu a r0 σ p v s) (xx mu a r0 σ p v s) = rr mu a r0 σ s ^ 2 := by
  have e : dot (xx mu a r0 σ p v s) (xx mu a r0 σ p v s) =
      (1 - mu * U2 a s / r0) ^ 2 * dot p p + 2 * (1 - mu * U2 a s / r0) * (r0 * U1 a s + σ * U2 a s) * dot p v + (r0 * U1 a s + σ * U2 a s) ^ 2 * dot v v := by
    simp only [dot, xx, Fin.sum_univ_three]; ring
  have h0 := H.pos.ne'
  rw [e, H.pp, H.pv, H.vv]
  have i0 := id0 a s
  have i2 := id2 a s
  unfold rr
  generalize U0 a s = u0 at *
  generalize U1 a s = u1 at *
  generalize U2 a s = u2 at *
  subst i0
  field_simp
  grind

/-- Square of the angular momentum. -/
theorem rd_sq (h0 : r0 ≠ 0) (s : ℝ) :
    rd mu a r0 σ s ^ 2 = a * rr mu a r0 σ s ^ 2 + 2 * mu * rr mu a r0 σ s - (r0 ^ 2 * (a + 2 * mu / r0) - σ ^ 2) := by
  have i0 := id0 a s
  have i2 := id2 a s
  unfold rr rd
  generalize U0 a s = u0 at *
  generalize U1 a s = u1 at *
  generalize U2 a s = u2 at *
  subst i0
  field_simp
  grind

theorem rr_zero : rr mu a r0 σ 0 = r0 := by
  obtain ⟨h0, h1, h2, -⟩ := at0 a
  rw [rr, h0, h1, h2]; ring
theorem tt_zero : tt mu a r0 σ 0 = 0 := by
  obtain ⟨-, h1, h2, h3⟩ := at0 a
  rw [tt, h1, h2, h3]; ring
theorem xx_zero (i : Fin 3) : xx mu a r0 σ p v 0 i = p i := by
  obtain ⟨-, h1, h2, -⟩ := at0 a
  rw [xx, h1, h2]; simp
theorem vv_zero (i : Fin 3) : vv mu a r0 σ p v 0 i = v i := by
  obtain ⟨-, h1, h2, -⟩ := at0 a
  rw [vv, h1, h2]; simp

theorem rr_cont : Continuous (rr mu a r0 σ) := continuous_iff_continuousAt.2 fun s => (rr_deriv s).continuousAt
theorem tt_cont : Continuous (tt mu a r0 σ) := continuous_iff_continuousAt.2 fun s => (tt_deriv s).continuousAt

theorem rr_pos (h0 : 0 < r0) (hh : 0 < r0 ^ 2 * (a + 2 * mu / r0) - σ ^ 2) (s : ℝ) : 0 < rr mu a r0 σ s := by
  have hne : ∀ s, rr mu a r0 σ s ≠ 0 := by
    intro s h
    have := rd_sq (mu := mu) (a := a) (σ := σ) h0.ne' s
    rw [h] at this
    nlinarith [sq_nonneg (rd mu a r0 σ s)]
  by_contra hc
  push Not at hc
  have hiv := mem_range_of_exists_le_of_exists_ge (rr_cont (mu := mu) (a := a) (r0 := r0) (σ := σ)) ⟨s, hc⟩ ⟨0, by rw [rr_zero]; exact h0.le⟩
  obtain ⟨y, hy⟩ := hiv
  exact hne y hy

/-- The distance is bounded away from zero. -/
theorem rr_bdd (h0 : 0 < r0) (hh : 0 < r0 ^ 2 * (a + 2 * mu / r0) - σ ^ 2) : ∃ c, 0 < c ∧ ∀ s, c ≤ rr mu a r0 σ s := by
  set h2 := r0 ^ 2 * (a + 2 * mu / r0) - σ ^ 2 with hd
  refine ⟨min 1 (h2 / (|a| + 2 * |mu| + 1)), lt_min one_pos (by positivity), fun s => ?_⟩
  have hr := rr_pos h0 hh s
  have hs := rd_sq (mu := mu) (a := a) (σ := σ) h0.ne' s
  rw [← hd] at hs
  rcases le_or_gt 1 (rr mu a r0 σ s) with h1 | h1
  · exact (min_le_left _ _).trans h1
  · refine (min_le_right _ _).trans ?_
    rw [div_le_iff₀ (by positivity)]
    have e1 : a * rr mu a r0 σ s ^ 2 ≤ |a| * rr mu a r0 σ s := by
      calc a * rr mu a r0 σ s ^ 2 ≤ |a| * rr mu a r0 σ s ^ 2 := mul_le_mul_of_nonneg_right (le_abs_self a) (sq_nonneg _)
        _ ≤ |a| * rr mu a r0 σ s := mul_le_mul_of_nonneg_left (by nlinarith) (abs_nonneg a)
    have e2 : mu * rr mu a r0 σ s ≤ |mu| * rr mu a r0 σ s := mul_le_mul_of_nonneg_right (le_abs_self mu) hr.le
    nlinarith [sq_nonneg (rd mu a r0 σ s)]

theorem tt_mono (h0 : 0 < r0) (hh : 0 < r0 ^ 2 * (a + 2 * mu / r0) - σ ^ 2) : StrictMono (tt mu a r0 σ) :=
  strictMono_of_hasDerivAt_pos (fun s => tt_deriv s) (fun s => rr_pos h0 hh s)

theorem tt_surj (h0 : 0 < r0) (hh : 0 < r0 ^ 2 * (a + 2 * mu / r0) - σ ^ 2) : Function.Surjective (tt mu a r0 σ) := by
  obtain ⟨c, hc, hb⟩ := rr_bdd (mu := mu) (a := a) (σ := σ) h0 hh
  have hm : Monotone fun s => tt mu a r0 σ s - c * s := by
    have hd : ∀ s, HasDerivAt (fun s => tt mu a r0 σ s - c * s) (rr mu a r0 σ s - c) s := fun s =>
      ((tt_deriv s).sub ((hasDerivAt_id s).const_mul c)).congr_deriv (by simp)
    refine monotone_of_deriv_nonneg (fun s => (hd s).differentiableAt) fun s => ?_
    rw [(hd s).deriv]
    linarith [hb s]
  have hz : tt mu a r0 σ 0 - c * 0 = 0 := by rw [tt_zero]; ring
  refine Continuous.surjective tt_cont ?_ ?_
  · refine Filter.tendsto_atTop_mono' _ ?_ (Filter.tendsto_id.const_mul_atTop hc)
    filter_upwards [Filter.eventually_ge_atTop 0] with s hs
    have := hm hs
    dsimp only at this
    rw [hz] at this
    simpa using this
  · refine Filter.tendsto_atBot_mono' _ ?_ (Filter.tendsto_id.const_mul_atBot hc)
    filter_upwards [Filter.eventually_le_atBot 0] with s hs
    have := hm hs
    dsimp only at this
    rw [hz] at this
    simpa using this

/-- The two-body motion through a reference state that does not aim at the centre. -/
theorem exists_motion (H : Ref mu a r0 σ p v) (hh : 0 < r0 ^ 2 * (a + 2 * mu / r0) - σ ^ 2) :
    ∃ x w : ℝ → Fin 3 → ℝ, TwoBody mu x w ∧ x 0 = p ∧ w 0 = v ∧
      (∀ s, x (tt mu a r0 σ s) = xx mu a r0 σ p v s) ∧ ∀ s, w (tt mu a r0 σ s) = vv mu a r0 σ p v s := by
  let e := (tt_mono (mu := mu) (a := a) (σ := σ) H.pos hh).orderIsoOfSurjective _ (tt_surj H.pos hh)
  have he : ∀ s, e s = tt mu a r0 σ s := fun s => rfl
  have hes : ∀ s, e.symm (tt mu a r0 σ s) = s := fun s => by rw [← he]; exact e.symm_apply_apply s
  have hse : ∀ t, tt mu a r0 σ (e.symm t) = t := fun t => e.apply_symm_apply t
  have hd : ∀ t, HasDerivAt e.symm (rr mu a r0 σ (e.symm t))⁻¹ t := fun t =>
    HasDerivAt.of_local_left_inverse (e.symm.continuous.continuousAt) (tt_deriv _) (rr_pos H.pos hh _).ne' (Filter.Eventually.of_forall hse)
  have hlen : ∀ s, len (xx mu a r0 σ p v s) = rr mu a r0 σ s := by
    intro s
    have h := xx_sq H s
    rw [dot_self_len] at h
    exact (pow_left_inj₀ (Real.sqrt_nonneg _) (rr_pos H.pos hh s).le (by norm_num)).1 h
  have hz : e.symm 0 = 0 := by
    have := hes 0
    rwa [tt_zero] at this
  refine ⟨fun t => xx mu a r0 σ p v (e.symm t), fun t => vv mu a r0 σ p v (e.symm t), ⟨fun t => ?_, fun t i => ?_, fun t i => ?_⟩, ?_, ?_, ?_, ?_⟩
  · rw [hlen]; exact rr_pos H.pos hh _
  · have hr := (rr_pos (mu := mu) (a := a) (σ := σ) H.pos hh (e.symm t)).ne'
    refine ((xx_deriv H.pos.ne' hr i).comp t (hd t)).congr_deriv ?_
    field_simp
  · have hr := (rr_pos (mu := mu) (a := a) (σ := σ) H.pos hh (e.symm t)).ne'
    refine ((vv_deriv H.pos.ne' hr i).comp t (hd t)).congr_deriv ?_
    rw [hlen]
    field_simp
  · funext i; simp only [hz]; exact xx_zero i
  · funext i; simp only [hz]; exact vv_zero i
  · intro s; simp only [hes]
  · intro s; simp only [hes]

end Pal.Kepler
