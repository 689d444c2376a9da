import Verif.Lemmas.KeplerMotion
import Mathlib.Analysis.ODE.ExistUnique
import Mathlib.Analysis.Calculus.ContDiff.RCLike
import Mathlib.Analysis.Calculus.ContDiff.Operations
import Mathlib.Analysis.SpecialFunctions.Sqrt
import Mathlib.Analysis.SpecialFunctions.Pow.Deriv

/-! # Two-body motion is determined by its initial state -/

namespace Pal.Kepler
open Real Pal.Spec Topology

/-- The field of the equations of motion. -/
noncomputable def field (mu : ℝ) (y : (Fin 3 → ℝ) × (Fin 3 → ℝ)) : (Fin 3 → ℝ) × (Fin 3 → ℝ) :=
  (y.2, fun i => -mu * y.1 i / len y.1 ^ 3)

theorem field_smooth (mu : ℝ) {y : (Fin 3 → ℝ) × (Fin 3 → ℝ)} (hy : 0 < len y.1) : ContDiffAt ℝ 1 (field mu) y := by
  unfold field
  refine ContDiffAt.prodMk contDiffAt_snd (contDiffAt_pi.2 fun i => ?_)
  have hc : ∀ j : Fin 3, ContDiffAt ℝ 1 (fun y : (Fin 3 → ℝ) × (Fin 3 → ℝ) => y.1 j) y := fun j =>
    (contDiff_apply ℝ ℝ j).contDiffAt.comp y contDiffAt_fst
  have hs : ContDiffAt ℝ 1 (fun y : (Fin 3 → ℝ) × (Fin 3 → ℝ) => ∑ j, y.1 j ^ 2) y := ContDiffAt.sum fun j _ => (hc j).pow 2
  have hl : ContDiffAt ℝ 1 (fun y : (Fin 3 → ℝ) × (Fin 3 → ℝ) => len y.1) y := by
    unfold len at hy ⊢
    exact hs.sqrt (Real.sqrt_pos.1 hy).ne'
  exact ((contDiffAt_const.mul (hc i)).div (hl.pow 3) (by positivity))

/-- Two motions with a common state are the same motion. -/
theorem motion_unique {mu : ℝ} {x w x' w' : ℝ → Fin 3 → ℝ} (H : TwoBody mu x w) (H' : TwoBody mu x' w') {t0 : ℝ} (hx : x t0 = x' t0) (hw : w t0 = w' t0) :
    x = x' ∧ w = w' := by
  have hd : ∀ {x w : ℝ → Fin 3 → ℝ}, TwoBody mu x w → ∀ t, HasDerivAt (fun t => (x t, w t)) (field mu (x t, w t)) t := fun H t =>
    (hasDerivAt_pi.2 (H.velocity t)).prodMk (hasDerivAt_pi.2 (H.acceleration t))
  set f : ℝ → (Fin 3 → ℝ) × (Fin 3 → ℝ) := fun t => (x t, w t) with hf
  set g : ℝ → (Fin 3 → ℝ) × (Fin 3 → ℝ) := fun t => (x' t, w' t) with hg
  have cf : Continuous f := continuous_iff_continuousAt.2 fun t => (hd H t).continuousAt
  have cg : Continuous g := continuous_iff_continuousAt.2 fun t => (hd H' t).continuousAt
  have hcl : IsClosed {t | f t = g t} := isClosed_eq cf cg
  have hop : IsOpen {t | f t = g t} := by
    rw [isOpen_iff_mem_nhds]
    intro t ht
    obtain ⟨K, s, hs, hK⟩ := (field_smooth mu (y := f t) (H.away t)).exists_lipschitzOnWith
    have h1 : ∀ᶠ τ in 𝓝 t, f τ ∈ s := cf.continuousAt hs
    have h2 : ∀ᶠ τ in 𝓝 t, g τ ∈ s := cg.continuousAt (by rw [← (ht : f t = g t)]; exact hs)
    exact ODE_solution_unique_of_eventually (v := fun _ => field mu) (s := fun _ => s) (K := K) (Filter.Eventually.of_forall fun _ => hK)
      (h1.mono fun τ hτ => ⟨hd H τ, hτ⟩) (h2.mono fun τ hτ => ⟨hd H' τ, hτ⟩) ht
  have hall : {t | f t = g t} = Set.univ := IsClopen.eq_univ ⟨hcl, hop⟩ ⟨t0, by simp [hf, hg, hx, hw]⟩
  have he : ∀ t, f t = g t := fun t => by
    have : t ∈ {t | f t = g t} := by rw [hall]; trivial
    exact this
  exact ⟨funext fun t => (Prod.mk.inj (he t)).1, funext fun t => (Prod.mk.inj (he t)).2⟩

end Pal.Kepler
