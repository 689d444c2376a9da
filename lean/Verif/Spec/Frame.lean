import Verif.Spec.Sphere

/-! # Specification: a system of spherical coordinates given by its pole and node -/

namespace Pal.Spec

/-- Degrees to radians. -/
noncomputable def deg (x : ℝ) : ℝ := x * (Real.pi / 180)

/-- The turn to the system of spherical coordinates whose pole has longitude `poleLon` and latitude `poleLat` in the old
system, and in which the ascending node of the new equator on the old one has longitude `node`. -/
noncomputable def poleFrame (poleLon poleLat node : ℝ) : Matrix (Fin 3) (Fin 3) ℝ :=
  axisZ (-node) * axisX (Real.pi / 2 - poleLat) * axisZ (poleLon + Real.pi / 2)

end Pal.Spec
