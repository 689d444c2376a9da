import Mathlib.Algebra.BigOperators.Fin
import Mathlib.Algebra.Order.Field.Basic

/-!
# Specification of plate models

A model is six coefficients A…F with  xe = A + B xm + C ym,  ye = D + E xm + F ym.
-/

namespace Pal.Spec
variable {F : Type*} [Field F]

/-- The image of a measured point under a model. -/
def modelX (c : Fin 6 → F) (p : F × F) : F := c 0 + c 1 * p.1 + c 2 * p.2
def modelY (c : Fin 6 → F) (p : F × F) : F := c 3 + c 4 * p.1 + c 5 * p.2

/-- Sum of squared residuals of a model over all samples. -/
def sumSqRes {np : ℕ} (xye xym : Fin np → F × F) (c : Fin 6 → F) : F :=
  ∑ i, ((modelX c (xym i) - (xye i).1) ^ 2 + (modelY c (xym i) - (xye i).2) ^ 2)

/-- "Solid body" models: origin, scale and orientation only, without or with a sign reversal. -/
def SolidBody (c : Fin 6 → F) : Prop := (c 5 = c 1 ∧ c 4 = -c 2) ∨ (c 5 = -c 1 ∧ c 4 = c 2)

/-- All measured points lie on one line (or coincide). -/
def Collinear {np : ℕ} (xym : Fin np → F × F) : Prop :=
  ∃ α β γ : F, (α ≠ 0 ∨ β ≠ 0 ∨ γ ≠ 0) ∧ ∀ i, α + β * (xym i).1 + γ * (xym i).2 = 0

end Pal.Spec
