import Verif.Model.FlPcd
import Verif.Model.Refr

/-!
# The model atmosphere of the refraction integral in double precision

The operations of `pal1Atmt` and `pal1Atms` (Model/Refr.lean) with a rounding after each, in the order of the C code.  `pw` and `ex` are the library's `pow` and `exp`.
-/

namespace Pal

/-- `pal1Atmt`, /repo/pal1Atmt.c:103-119: temperature, refractive index, r times its rate of change. -/
noncomputable def fl1Atmt (fl : ℝ → ℝ) (pw : ℝ → ℝ → ℝ) (A : AtmT) (r : ℝ) : ℝ × ℝ × ℝ :=
  let t := max (min (fl (A.t0 - fl (A.alpha * fl (r - A.r0)))) 320) 100
  let tt0 := fl (t / A.t0)
  let tt0gm2 := pw tt0 A.gamm2
  let tt0dm2 := pw tt0 A.delm2
  (t, fl (1 + fl (fl (fl (A.c1 * tt0gm2) - fl (fl (A.c2 - fl (A.c5 / t)) * tt0dm2)) * tt0)), fl (r * fl (fl (-A.c3 * tt0gm2) + fl (fl (A.c4 - fl (A.c6 / tt0)) * tt0dm2))))

/-- `pal1Atms`, /repo/pal1Atms.c:83-94: refractive index, r times its rate of change. -/
noncomputable def fl1Atms (fl : ℝ → ℝ) (ex : ℝ → ℝ) (rt tt dnt gamal r : ℝ) : ℝ × ℝ :=
  let b := fl (gamal / tt)
  let w := fl (fl (dnt - 1) * ex (fl (-b * fl (r - rt))))
  (fl (1 + w), fl (fl (-r * b) * w))

/-- A library whose exponential is good to one unit in the last place (/repo/pal1Atms.c:90 uses the system's library). -/
def ExpOK (ex : ℝ → ℝ) : Prop := ∀ x : ℝ, |ex x - Real.exp x| ≤ 2.3e-16 * Real.exp x

end Pal
