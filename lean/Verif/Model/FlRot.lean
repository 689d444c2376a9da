import Verif.Model.FlSphere

/-!
# Rotation matrices in double precision

Products of matrices and vectors, palDeuler and palDav2m with every operation rounded; the library functions are those of `Libm`.
-/

namespace Pal

/-- `eraRxr`, wrapped by palDmxm, /repo/palOne2One.c:567-569: sums start from zero. -/
noncomputable def flRxr (fl : ℝ → ℝ) (a b : Mat3) : Mat3 := fun i j =>
  fl (fl (fl (0 + fl (a i 0 * b 0 j)) + fl (a i 1 * b 1 j)) + fl (a i 2 * b 2 j))

/-- `eraRx`, used in /repo/palDeuler.c:115. -/
noncomputable def flRx (fl : ℝ → ℝ) (L : Libm) (phi : ℝ) (r : Mat3) : Mat3 :=
  let s := L.sin phi
  let c := L.cos phi
  !![r 0 0, r 0 1, r 0 2;
     fl (fl (c * r 1 0) + fl (s * r 2 0)), fl (fl (c * r 1 1) + fl (s * r 2 1)), fl (fl (c * r 1 2) + fl (s * r 2 2));
     fl (fl (-s * r 1 0) + fl (c * r 2 0)), fl (fl (-s * r 1 1) + fl (c * r 2 1)), fl (fl (-s * r 1 2) + fl (c * r 2 2))]

/-- `eraRy`, used in /repo/palDeuler.c:121. -/
noncomputable def flRy (fl : ℝ → ℝ) (L : Libm) (theta : ℝ) (r : Mat3) : Mat3 :=
  let s := L.sin theta
  let c := L.cos theta
  !![fl (fl (c * r 0 0) - fl (s * r 2 0)), fl (fl (c * r 0 1) - fl (s * r 2 1)), fl (fl (c * r 0 2) - fl (s * r 2 2));
     r 1 0, r 1 1, r 1 2;
     fl (fl (s * r 0 0) + fl (c * r 2 0)), fl (fl (s * r 0 1) + fl (c * r 2 1)), fl (fl (s * r 0 2) + fl (c * r 2 2))]

/-- `eraRz`, used in /repo/palDeuler.c:127. -/
noncomputable def flRz (fl : ℝ → ℝ) (L : Libm) (psi : ℝ) (r : Mat3) : Mat3 :=
  let s := L.sin psi
  let c := L.cos psi
  !![fl (fl (c * r 0 0) + fl (s * r 1 0)), fl (fl (c * r 0 1) + fl (s * r 1 1)), fl (fl (c * r 0 2) + fl (s * r 1 2));
     fl (fl (-s * r 0 0) + fl (c * r 1 0)), fl (fl (-s * r 0 1) + fl (c * r 1 1)), fl (fl (-s * r 0 2) + fl (c * r 1 2));
     r 2 0, r 2 1, r 2 2]

/-- The `while` loop of palDeuler, /repo/palDeuler.c:109-138, from index `i` on; `order[i]? = none` is the terminating NUL. -/
noncomputable def flDeulerLoop (fl : ℝ → ℝ) (L : Libm) (order : List Char) (rotations : ℕ → ℝ) (i : ℕ) (rmat : Mat3) : Mat3 :=
  if i < 3 then
    match order[i]? with
    | none => rmat
    | some c =>
      if c = 'X' ∨ c = 'x' ∨ c = '1' then flDeulerLoop fl L order rotations (i + 1) (flRx fl L (rotations i) rmat)
      else if c = 'Y' ∨ c = 'y' ∨ c = '2' then flDeulerLoop fl L order rotations (i + 1) (flRy fl L (rotations i) rmat)
      else if c = 'Z' ∨ c = 'z' ∨ c = '3' then flDeulerLoop fl L order rotations (i + 1) (flRz fl L (rotations i) rmat)
      else rmat
  else rmat
termination_by 3 - i

/-- `palDeuler`, /repo/palDeuler.c:94-141. -/
noncomputable def flDeuler (fl : ℝ → ℝ) (L : Libm) (order : List Char) (phi theta psi : ℝ) : Mat3 :=
  flDeulerLoop fl L order (fun i => if i = 0 then phi else if i = 1 then theta else psi) 0 eraIr

/-- `eraRv2m`, wrapped by palDav2m, /repo/palOne2One.c:286-288. -/
noncomputable def flRv2m (fl : ℝ → ℝ) (L : Libm) (w : Vec3) : Mat3 :=
  let phi := fl (√(fl (fl (fl (w 0 * w 0) + fl (w 1 * w 1)) + fl (w 2 * w 2))))
  let s := L.sin phi
  let c := L.cos phi
  let f := fl (1 - c)
  let x := if phi > 0 then fl (w 0 / phi) else w 0
  let y := if phi > 0 then fl (w 1 / phi) else w 1
  let z := if phi > 0 then fl (w 2 / phi) else w 2
  !![fl (fl (fl (x * x) * f) + c), fl (fl (fl (x * y) * f) + fl (z * s)), fl (fl (fl (x * z) * f) - fl (y * s));
     fl (fl (fl (y * x) * f) - fl (z * s)), fl (fl (fl (y * y) * f) + c), fl (fl (fl (y * z) * f) + fl (x * s));
     fl (fl (fl (z * x) * f) + fl (y * s)), fl (fl (fl (z * y) * f) - fl (x * s)), fl (fl (fl (z * z) * f) + c)]

end Pal
