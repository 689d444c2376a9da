import Verif.Model.FlSphere
import Verif.Model.Orbit

/-!
# Universal elements in double precision: palPv2ue and palUe2pv
-/

namespace Pal

/-- PAL__GCON as stored, /repo/palmac.h:117. -/
noncomputable def flGcon (fl : ℝ → ℝ) : ℝ := fl 0.01720209895

/-- CD2S, /repo/palUe2pv.c:127 and /repo/palPv2ue.c:118. -/
noncomputable def flCd2s (fl : ℝ → ℝ) : ℝ := fl (flGcon fl / 86400)

/-- `palPv2ue`, /repo/palPv2ue.c:114-182, in double precision: the elements and the status. -/
noncomputable def flPv2ue (fl : ℝ → ℝ) (pv : PV) (date pmass : ℝ) (u : Univ) : Univ × ℤ :=
  if pmass < 0 then (u, -1)
  else
    let cm := fl (1 + pmass)
    let x := pv.p 0
    let y := pv.p 1
    let z := pv.p 2
    let xd := fl (pv.v 0 / flCd2s fl)
    let yd := fl (pv.v 1 / flCd2s fl)
    let zd := fl (pv.v 2 / flCd2s fl)
    let r := fl (√(fl (fl (fl (x * x) + fl (y * y)) + fl (z * z))))
    let v2 := fl (fl (fl (xd * xd) + fl (yd * yd)) + fl (zd * zd))
    let v := fl (√v2)
    if r < fl (1 / 10 ^ 3) then (u, -2)
    else if v < fl (1 / 10 ^ 3) then (u, -3)
    else
      ({ cm := cm, alpha := fl (v2 - fl (fl (2 * cm) / r)), t0 := date, p0 := ![x, y, z], v0 := ![xd, yd, zd], r0 := r,
         sigma := fl (fl (fl (x * xd) + fl (y * yd)) + fl (z * zd)), t := date, psi := 0 }, 0)

/-- The loop that forms half angles, /repo/palUe2pv.c:172-177: number of halvings and the last PSJ, PSJ2, BETA. The first argument bounds the number of passes; `none` says that the loop has not ended by then. -/
noncomputable def flUeHalve (fl : ℝ → ℝ) : ℕ → ℕ → ℝ → ℝ → ℝ → Option (ℕ × ℝ × ℝ × ℝ)
  | k, n, psj, psj2, beta =>
    if |beta| > fl 0.7 then
      match k with
      | 0 => none
      | k + 1 => flUeHalve fl k (n + 1) (fl (psj / 2)) (fl (psj2 / 4)) (fl (beta / 4))
    else some (n, psj, psj2, beta)

/-- A nested series, /repo/palUe2pv.c:180-192: `((BETA/d1+1)*BETA/d2+1)...`, the divisors innermost first. -/
noncomputable def flUeNest (fl : ℝ → ℝ) (beta : ℝ) : ℝ → List ℝ → ℝ
  | acc, [] => acc
  | acc, d :: ds => flUeNest fl beta (fl (fl (fl (acc * beta) / d) + 1)) ds

/-- The nested series, /repo/palUe2pv.c:180-194 (with TOL = TEST of line 197). -/
noncomputable def flUeSeries (fl : ℝ → ℝ) (alpha psj psj2 beta : ℝ) : UeFun :=
  let s3 := fl (fl (fl (psj * psj2) * flUeNest fl beta (fl (fl (beta / 210) + 1)) [156, 110, 72, 42, 20]) / 6)
  let s2 := fl (fl (psj2 * flUeNest fl beta (fl (fl (beta / 182) + 1)) [132, 90, 56, 30, 12]) / 2)
  { s0 := fl (1 + fl (alpha * s2)), s1 := fl (psj + fl (alpha * s3)), s2 := s2, s3 := s3, tol := fl (1 / 10 ^ 13) }

/-- The loop that undoes the angle-halving, /repo/palUe2pv.c:198-206. -/
noncomputable def flUeUndo (fl : ℝ → ℝ) : ℕ → ℝ → UeFun → UeFun
  | 0, _, f => f
  | n + 1, psj, f =>
    flUeUndo fl n (fl (psj + psj))
      { s0 := fl (fl (fl (2 * f.s0) * f.s0) - 1), s1 := fl (fl (2 * f.s0) * f.s1), s2 := fl (fl (2 * f.s1) * f.s1)
        s3 := fl (2 * fl (fl (f.s0 * f.s3) + fl (psj * f.s2))), tol := fl (f.tol + f.tol) }

/-- The universal functions at PSI, /repo/palUe2pv.c:167-206; `k` bounds the number of halvings. -/
noncomputable def flUeFun (fl : ℝ → ℝ) (k : ℕ) (alpha psi : ℝ) : Option UeFun :=
  (flUeHalve fl k 0 psi (fl (psi * psi)) (fl (alpha * fl (psi * psi)))).map fun h => flUeUndo fl h.1 h.2.1 (flUeSeries fl alpha h.2.1 h.2.2.1 h.2.2.2)

/-- FF, /repo/palUe2pv.c:209. -/
noncomputable def flUeFF (fl : ℝ → ℝ) (u : Univ) (dt : ℝ) (s : UeFun) : ℝ := fl (fl (fl (fl (u.r0 * s.s1) + fl (u.sigma * s.s2)) + fl (u.cm * s.s3)) - dt)

/-- R, /repo/palUe2pv.c:210. -/
noncomputable def flUeR (fl : ℝ → ℝ) (u : Univ) (s : UeFun) : ℝ := fl (fl (fl (u.r0 * s.s0) + fl (u.sigma * s.s1)) + fl (u.cm * s.s2))

/-- The iteration, /repo/palUe2pv.c:161-242; `none` if a loop of halvings has not ended after `k` passes. -/
noncomputable def flUeLoop (fl : ℝ → ℝ) (k : ℕ) (u : Univ) (dt : ℝ) (nit : ℕ) (psi plast flast : ℝ) : Option UeEnd :=
  match flUeFun fl k u.alpha psi with
  | none => none
  | some s =>
    let ff := flUeFF fl u dt s
    let r := flUeR fl u s
    let flast := if nit = 1 then ff else flast
    if ¬ fl (ff * flast) < 0 ∧ r = 0 then some (.fail (-1))
    else
      let w := if fl (ff * flast) < 0 then fl (fl (ff * fl (plast - psi)) / fl (flast - ff)) else fl (ff / r)
      if nit > 25 then some (.fail (-2))
      else if |w| ≥ s.tol then flUeLoop fl k u dt (nit + 1) (fl (psi - w)) psi ff
      else some (.done (fl (psi - w)) s r)
termination_by 27 - nit

/-- `palUe2pv`, /repo/palUe2pv.c:124-263, in double precision: new elements, state vector, status. `none` stands for a division by zero outside the iteration or a loop of halvings that has not ended after `k` passes. -/
noncomputable def flUe2pv (fl : ℝ → ℝ) (k : ℕ) (date : ℝ) (u : Univ) (pv : PV) : Option (Univ × PV × ℤ) :=
  if u.r0 = 0 then none
  else
    let psi := fl (u.psi + fl (fl (fl (date - u.t) * flGcon fl) / u.r0))
    let dt := fl (fl (date - u.t0) * flGcon fl)
    match flUeLoop fl k u dt 1 psi 0 0 with
    | none => none
    | some (.fail j) => some (u, pv, j)
    | some (.done psi s r) =>
      if r = 0 ∨ fl (u.r0 * r) = 0 then none
      else
        let w := fl (u.cm * s.s2)
        let f := fl (1 - fl (w / u.r0))
        let g := fl (dt - fl (u.cm * s.s3))
        let fd := fl (fl (-u.cm * s.s1) / fl (u.r0 * r))
        let gd := fl (1 - fl (w / r))
        some ({ u with t := date, psi := psi },
          { p := fun i => fl (fl (u.p0 i * f) + fl (u.v0 i * g)), v := fun i => fl (flCd2s fl * fl (fl (u.p0 i * fd) + fl (u.v0 i * gd))) }, 0)

end Pal
