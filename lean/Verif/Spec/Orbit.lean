import Verif.Spec.Sphere
import Mathlib.Analysis.SpecialFunctions.Trigonometric.DerivHyp

/-!
# Specification vocabulary for two-body orbits
-/

namespace Pal.Spec

/-- Vector product. -/
def cross (a b : Fin 3 → ℝ) : Fin 3 → ℝ := ![a 1 * b 2 - a 2 * b 1, a 2 * b 0 - a 0 * b 2, a 0 * b 1 - a 1 * b 0]

/-- Twice the energy per unit mass of a body with position p and velocity v in the field of a central mass mu (G = 1). -/
noncomputable def energy (mu : ℝ) (p v : Fin 3 → ℝ) : ℝ := dot v v - 2 * mu / len p

end Pal.Spec

namespace Pal.Spec

/-- Rotation of axes about x whose sine and cosine are given, not the angle. -/
def tilt (s c : ℝ) : Matrix (Fin 3) (Fin 3) ℝ := !![1, 0, 0; 0, c, -s; 0, s, c]

/-- The vector which has components (x, y, 0) along the axes of an orbit (x towards perihelion, y in the direction of motion there), in equatorial components: the
orbit is given by the argument of perihelion, the inclination and the node on the ecliptic, and the ecliptic is tilted by the obliquity (sine s, cosine c). -/
noncomputable def fromOrbit (s c argph inc node x y : ℝ) : Fin 3 → ℝ :=
  (tilt s c * axisZ (-node) * axisX (-inc) * axisZ (-argph)).mulVec ![x, y, 0]

/-- The direction of the normal of an orbit, in equatorial components (multiplied by s² + c², which is one for a true sine and cosine, in the first component). -/
noncomputable def orbitNormal (s c inc node : ℝ) : Fin 3 → ℝ :=
  ![(c ^ 2 + s ^ 2) * (Real.sin inc * Real.sin node), -c * (Real.sin inc * Real.cos node) - s * Real.cos inc, -s * (Real.sin inc * Real.cos node) + c * Real.cos inc]

end Pal.Spec

namespace Pal.Spec

/-- Motion on an ellipse with semi-major axis a, eccentricity e and mean motion n, at mean anomaly M: position and velocity in the axes of the orbit. -/
def KeplerEllipse (a e n M x y xd yd : ℝ) : Prop :=
  ∃ E : ℝ, M = E - e * Real.sin E ∧ x = a * (Real.cos E - e) ∧ y = a * √(1 - e ^ 2) * Real.sin E ∧
    xd * (1 - e * Real.cos E) = -(a * n * Real.sin E) ∧ yd * (1 - e * Real.cos E) = a * n * √(1 - e ^ 2) * Real.cos E

/-- Motion on a hyperbola with semi-axis a (positive), eccentricity e and mean motion n, at mean anomaly M. -/
def KeplerHyperbola (a e n M x y xd yd : ℝ) : Prop :=
  ∃ F : ℝ, M = e * Real.sinh F - F ∧ x = a * (e - Real.cosh F) ∧ y = a * √(e ^ 2 - 1) * Real.sinh F ∧
    xd * (e * Real.cosh F - 1) = -(a * n * Real.sinh F) ∧ yd * (e * Real.cosh F - 1) = a * n * √(e ^ 2 - 1) * Real.cosh F

/-- Motion on a parabola with perihelion distance q about the central mass mu, a time t after perihelion (Barker's equation; D is the tangent of half the true
anomaly). -/
def KeplerParabola (q mu t x y xd yd : ℝ) : Prop :=
  ∃ D : ℝ, t = √(2 * q ^ 3 / mu) * (D + D ^ 3 / 3) ∧ x = q * (1 - D ^ 2) ∧ y = 2 * q * D ∧
    xd * (1 + D ^ 2) = -(√(2 * mu / q) * D) ∧ yd * (1 + D ^ 2) = √(2 * mu / q)

/-- Eccentricity of the orbit with position p and velocity v about the central mass mu: e² = 1 + 2εh²/µ², where ε is the energy and h the angular momentum. -/
noncomputable def eccentricity (mu : ℝ) (p v : Fin 3 → ℝ) : ℝ := √(1 + energy mu p v * dot (cross p v) (cross p v) / mu ^ 2)

end Pal.Spec

namespace Pal.Spec

/-- The acceleration towards a body of unit mass in the direction and at the distance of the vector r (G = 1). -/
noncomputable def attraction (r : Fin 3 → ℝ) : Fin 3 → ℝ := fun i => r i / len r ^ 3

/-- The heliocentric acceleration which a body of mass 1/M at heliocentric position rho gives to something at heliocentric position p: the attraction on it less the
attraction on the Sun. -/
noncomputable def tidal (M : ℝ) (p rho : Fin 3 → ℝ) : Fin 3 → ℝ := fun i => (attraction (fun k => rho k - p k) i - attraction rho i) / M

end Pal.Spec
