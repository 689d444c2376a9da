import Mathlib.Analysis.SpecialFunctions.Trigonometric.Basic
import Mathlib.LinearAlgebra.Matrix.Notation
import Mathlib.LinearAlgebra.Matrix.Determinant.Basic

/-!
# Specification vocabulary for directions, angles and rotations
-/

namespace Pal.Spec

/-- The unit vector of a direction given by longitude and latitude. -/
noncomputable def dir (lon lat : ℝ) : Fin 3 → ℝ :=
  ![Real.cos lat * Real.cos lon, Real.cos lat * Real.sin lon, Real.sin lat]

/-- Two angles that differ by a whole number of turns. -/
def SameAngle (a b : ℝ) : Prop := ∃ k : ℤ, a = b + k * (2 * Real.pi)

/-- Scalar product. -/
def dot (a b : Fin 3 → ℝ) : ℝ := ∑ i, a i * b i

/-- Euclidean length. -/
noncomputable def len (a : Fin 3 → ℝ) : ℝ := √(∑ i, a i ^ 2)

/-- Proper rotation matrices. -/
def IsRotation (m : Matrix (Fin 3) (Fin 3) ℝ) : Prop := m * m.transpose = 1 ∧ m.det = 1

/-- Rotation of the axes by an angle about the x, y or z axis (a positive angle is anticlockwise as seen looking towards the origin along the axis). -/
noncomputable def axisX (t : ℝ) : Matrix (Fin 3) (Fin 3) ℝ := !![1, 0, 0; 0, Real.cos t, Real.sin t; 0, -Real.sin t, Real.cos t]
noncomputable def axisY (t : ℝ) : Matrix (Fin 3) (Fin 3) ℝ := !![Real.cos t, 0, -Real.sin t; 0, 1, 0; Real.sin t, 0, Real.cos t]
noncomputable def axisZ (t : ℝ) : Matrix (Fin 3) (Fin 3) ℝ := !![Real.cos t, Real.sin t, 0; -Real.sin t, Real.cos t, 0; 0, 0, 1]

end Pal.Spec

namespace Pal.Spec

/-- The horizon axes at a latitude, in the frame of hour angle and declination (first axis: hour angle 0 on the equator, second: hour angle 90°, third: pole). -/
noncomputable def northAxis (phi : ℝ) : Fin 3 → ℝ := ![-Real.sin phi, 0, Real.cos phi]
noncomputable def eastAxis : Fin 3 → ℝ := ![0, -1, 0]
noncomputable def zenithAxis (phi : ℝ) : Fin 3 → ℝ := ![Real.cos phi, 0, Real.sin phi]

/-- Directions of increasing right ascension and of increasing declination at a point of the sphere. -/
noncomputable def eastAt (ra : ℝ) : Fin 3 → ℝ := ![-Real.sin ra, Real.cos ra, 0]
noncomputable def northAt (ra dec : ℝ) : Fin 3 → ℝ :=
  ![-Real.sin dec * Real.cos ra, -Real.sin dec * Real.sin ra, Real.cos dec]

/-- The star lies on the tangent point's side and projects gnomonically onto the tangent-plane coordinates (xi, eta). -/
def Projects (ra dec raz decz xi eta : ℝ) : Prop :=
  0 < dot (dir ra dec) (dir raz decz) ∧
  xi * dot (dir ra dec) (dir raz decz) = dot (dir ra dec) (eastAt raz) ∧
  eta * dot (dir ra dec) (dir raz decz) = dot (dir ra dec) (northAt raz decz)

/-- Characters that select an axis in an Euler order string. -/
noncomputable def axisOf (c : Char) : Option (ℝ → Matrix (Fin 3) (Fin 3) ℝ) :=
  if c ∈ ['X', 'x', '1'] then some axisX else if c ∈ ['Y', 'y', '2'] then some axisY
  else if c ∈ ['Z', 'z', '3'] then some axisZ else none

/-- The i-th factor of an Euler rotation: the rotation about the i-th axis of the order string, provided that character and all before it are axes; otherwise no
rotation. -/
noncomputable def eulerFactor (order : List Char) (i : ℕ) (t : ℝ) : Matrix (Fin 3) (Fin 3) ℝ :=
  match order[i]? with
  | none => 1
  | some c => match axisOf c with
    | none => 1
    | some R => if ((order.take i).all fun d => (axisOf d).isSome) then R t else 1

end Pal.Spec

namespace Pal.Spec

/-- The four steps into which a plate model is decomposed: zero points, scales, nonperpendicularity, orientation. -/
noncomputable def fourSteps (xz yz xs ys perp orient x1 y1 : ℝ) : ℝ × ℝ :=
  let x' := xz + x1
  let y' := yz + y1
  let x'' := xs * x'
  let y'' := ys * y'
  let x''' := Real.cos (perp / 2) * x'' + Real.sin (perp / 2) * y''
  let y''' := Real.sin (perp / 2) * x'' + Real.cos (perp / 2) * y''
  (Real.cos orient * x''' + Real.sin orient * y''', -Real.sin orient * x''' + Real.cos orient * y''')

end Pal.Spec
