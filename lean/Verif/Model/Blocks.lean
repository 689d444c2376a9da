import Verif.Model.Memory
import Verif.Model.Map
import Verif.Model.Aop
import Verif.Model.Pertue

/-!
# The argument blocks amprms[21], aoprms[14] and u[13] in memory

Elsewhere these arrays are records (`Amprms`, `Aoprms`, `Univ`).  Here the functions that fill and use them are modelled on the memory of Model/Memory.lean, with the element numbers of the C
code.  Local arrays are not in the memory.
-/

namespace Pal.Memory
open Pal Real

/-- The three elements from p on, read by a loop (/repo/palMapqk.c:128-132). -/
def loadVec (p : ℕ) : Prog Vec3 := fun m => (fun i => m (p + i), m)

/-- A 3x3 matrix stored by rows from p on, read through a cast pointer (/repo/palMapqk.c:166). -/
def loadMat (p : ℕ) : Prog Mat3 := fun m => (fun i j => m (p + (3 * i + j)), m)

/-- A vector stored from p on (/repo/palMappa.c:110-129). -/
def storeVec (p : ℕ) (v : Vec3) : Prog Unit := do
  store p (v 0)
  store (p + 1) (v 1)
  store (p + 2) (v 2)

/-- A matrix stored by rows from p on (/repo/palMappa.c:128). -/
def storeMat (p : ℕ) (r : Mat3) : Prog Unit := do
  storeVec p (r 0)
  storeVec (p + 3) (r 1)
  storeVec (p + 6) (r 2)

/-- `memset( p, 0, n*sizeof( *p ) )`, /repo/palMappa.c:106. -/
noncomputable def zero (p n : ℕ) : Prog Unit := fun m => ((), fun q => if p ≤ q ∧ q < p + n then 0 else m q)

/-- `palMappa`, /repo/palMappa.c:94-129. -/
noncomputable def memMappa (T : Theory) (epv00 : ℝ → ℝ → Epv) (eq date : ℝ) (amprms : ℕ) : Prog Unit := do
  let gr2 : ℝ := 2 * 9.87063e-9
  zero amprms 21
  store amprms (palEpjR date - eq)
  let ev := palEvp T epv00 date eq
  storeVec (amprms + 1) ev.pb
  let eh := eraPn ev.ph
  storeVec (amprms + 4) eh.2
  store (amprms + 7) (gr2 / eh.1)
  store (amprms + 8) (ev.vb 0 * palCR)
  store (amprms + 9) (ev.vb 1 * palCR)
  store (amprms + 10) (ev.vb 2 * palCR)
  let vm := (eraPn (← loadVec (amprms + 8))).1
  store (amprms + 11) (√(1 - vm * vm))
  storeMat (amprms + 12) (palPrenut T eq date)

/-- `palMapqk`, /repo/palMapqk.c:111-172. -/
noncomputable def memMapqk (rm dm pr pd px rv : ℝ) (amprms ra da : ℕ) : Prog Unit := do
  let vf : ℝ := 0.210945028
  let pmt ← load amprms
  let gr2e ← load (amprms + 7)
  let ab1 ← load (amprms + 11)
  let eb ← loadVec (amprms + 1)
  let ehn ← loadVec (amprms + 4)
  let abv ← loadVec (amprms + 8)
  let q := eraS2c rm dm
  let pxr := px * das2r
  let w := vf * rv * pxr
  let em : Vec3 := ![-pr * q 1 - pd * cos rm * sin dm + w * q 0, pr * q 0 - pd * sin rm * sin dm + w * q 1, pd * cos dm + w * q 2]
  let p : Vec3 := fun i => q i + pmt * em i - pxr * eb i
  let pn := (eraPn p).2
  let pde := eraPdp pn ehn
  let pdep1 := pde + 1
  let w := gr2e / (if pdep1 > 1 / 10 ^ 5 then pdep1 else 1 / 10 ^ 5)
  let p1 : Vec3 := fun i => pn i + w * (ehn i - pde * pn i)
  let p1dv := eraPdp p abv
  let w := 1 + p1dv / (ab1 + 1)
  let p2 : Vec3 := fun i => ab1 * p1 i + w * abv i
  let s := eraC2s (eraRxp (← loadMat (amprms + 12)) p2)
  store ra s.1
  store da s.2
  store ra (eraAnp (← load ra))

/-- `palMapqkz`, /repo/palMapqkz.c:110-150. -/
noncomputable def memMapqkz (rm dm : ℝ) (amprms ra da : ℕ) : Prog Unit := do
  let ab1 ← load (amprms + 11)
  let gr2e ← load (amprms + 7)
  let abv ← loadVec (amprms + 8)
  let ehn ← loadVec (amprms + 4)
  let p := eraS2c rm dm
  let pde := eraPdp p ehn
  let pdep1 := pde + 1
  let w := gr2e / (if pdep1 > 1 / 10 ^ 5 then pdep1 else 1 / 10 ^ 5)
  let p1 : Vec3 := fun i => p i + w * (ehn i - pde * p i)
  let p1dv := eraPdp p1 abv
  let w := 1 + p1dv / (ab1 + 1)
  let p2 : Vec3 := fun i => ab1 * p1 i + w * abv i
  let s := eraC2s (eraRxp (← loadMat (amprms + 12)) p2)
  store ra s.1
  store da s.2
  store ra (eraAnp (← load ra))

/-- `palAmpqk`, /repo/palAmpqk.c:96-159 (the elements 0 to 3 are not read: they are zero in the record here). -/
noncomputable def memAmpqk (ra da : ℝ) (amprms rm dm : ℕ) : Prog Unit := do
  let gr2e ← load (amprms + 7)
  let ab1 ← load (amprms + 11)
  let ehn ← loadVec (amprms + 4)
  let abv ← loadVec (amprms + 8)
  let p3 := eraS2c ra da
  let mat ← loadMat (amprms + 12)
  let am : Amprms := { pmt := 0, eb := fun _ => 0, ehn := ehn, gr2e := gr2e, abv := abv, ab1 := ab1, mat := mat }
  let p2 := eraTrxp mat p3
  let p1 := (ampAberr am p2)^[2] p2
  let p := (ampDefl am p1)^[5] p1
  let s := eraC2s p
  store rm s.1
  store dm s.2
  store rm (eraAnp (← load rm))

/-- `palAoppat`, /repo/palAoppat.c:78-80. -/
noncomputable def memAoppat (date : ℝ) (aoprms : ℕ) : Prog Unit := do
  store (aoprms + 13) (aopGmst date + (← load (aoprms + 12)))

/-- `palAoppa`, /repo/palAoppa.c:172-222 (`none`: palRefco delivers nothing, which C52 excludes). -/
noncomputable def memAoppa (eqeqx : ℝ → ℝ) (date dut elongm phim hm xp yp tdk pmb rh wl tlr : ℝ) (aoprms : ℕ) : Prog (Option Unit) := do
  let cLight : ℝ := 173.14463331
  let solsid : ℝ := 1.0027379093
  let site := aopSite elongm phim xp yp
  let elong := site.1
  let phi := site.2
  store aoprms phi
  store (aoprms + 1) (sin phi)
  store (aoprms + 2) (cos phi)
  let uau := (aopGeoc phi hm).1
  store (aoprms + 3) (2 * π * uau * solsid / cLight)
  store (aoprms + 4) hm
  store (aoprms + 5) tdk
  store (aoprms + 6) pmb
  store (aoprms + 7) rh
  store (aoprms + 8) wl
  store (aoprms + 9) tlr
  match palRefco hm tdk pmb rh wl phi tlr 1e-10 with
  | none => return none
  | some (a, b) =>
    store (aoprms + 10) a
    store (aoprms + 11) b
    store (aoprms + 12) (elong + eqeqx date + dut * solsid * ds2r)
    memAoppat date aoprms
    return some ()

/-- `palAopqk`, /repo/palAopqk.c:179-288 (the refraction loop reads elements 4 to 9 and 0 anew on each pass; here they are read once. Element 12 is not read: it is zero in the record here). -/
noncomputable def memAopqk (rap dap : ℝ) (aoprms aob zob hob dob rob : ℕ) : Prog (Option Unit) := do
  let sphi ← load (aoprms + 1)
  let cphi ← load (aoprms + 2)
  let st ← load (aoprms + 13)
  let diurab ← load (aoprms + 3)
  let refa ← load (aoprms + 10)
  let refb ← load (aoprms + 11)
  let hm ← load (aoprms + 4)
  let tdk ← load (aoprms + 5)
  let pmb ← load (aoprms + 6)
  let rh ← load (aoprms + 7)
  let wl ← load (aoprms + 8)
  let phi ← load aoprms
  let tlr ← load (aoprms + 9)
  let p : Aoprms :=
    { phi := phi, sphi := sphi, cphi := cphi, diurab := diurab, hm := hm, tdk := tdk, pmb := pmb, rh := rh, wl := wl, tlr := tlr, refa := refa, refb := refb, plon := 0, st := st }
  let t := aopTopo rap dap p
  let azobs := t.1
  match aopRefract p t.2 with
  | none => return none
  | some zdobs =>
    let ce := sin zdobs
    let xaeo := -cos azobs * ce
    let yaeo := sin azobs * ce
    let zaeo := cos zdobs
    let v : Vec3 := ![sphi * xaeo + cphi * zaeo, yaeo, -cphi * xaeo + sphi * zaeo]
    let s := palDcc2s v
    store aob azobs
    store zob zdobs
    store hob (-s.1)
    store dob s.2
    store rob (palDranrm (st + s.1))
    return some ()

/-- `palOapqk`, /repo/palOapqk.c:150-266 (with the same simplification as `memAopqk`). -/
noncomputable def memOapqk (type : List Char) (ob1 ob2 : ℝ) (aoprms rap dap : ℕ) : Prog (Option Unit) := do
  let sphi ← load (aoprms + 1)
  let cphi ← load (aoprms + 2)
  let st ← load (aoprms + 13)
  let refa ← load (aoprms + 10)
  let refb ← load (aoprms + 11)
  let hm ← load (aoprms + 4)
  let tdk ← load (aoprms + 5)
  let pmb ← load (aoprms + 6)
  let rh ← load (aoprms + 7)
  let wl ← load (aoprms + 8)
  let phi ← load aoprms
  let tlr ← load (aoprms + 9)
  let ab ← load (aoprms + 3)
  let p : Aoprms :=
    { phi := phi, sphi := sphi, cphi := cphi, diurab := ab, hm := hm, tdk := tdk, pmb := pmb, rh := rh, wl := wl, tlr := tlr, refa := refa, refb := refb, plon := 0, st := st }
  let o := oapVector (obType type.head?) ob1 ob2 p
  let xaeo := o 0
  let yaeo := o 1
  let zaeo := o 2
  let az := if xaeo ≠ 0 ∨ yaeo ≠ 0 then atan2 yaeo xaeo else 0
  let sz := √(xaeo * xaeo + yaeo * yaeo)
  let zdo := atan2 sz zaeo
  match oapRefr p sz zaeo zdo with
  | none => return none
  | some dref =>
    let zdt := zdo + dref
    let ce := sin zdt
    let xaet := cos az * ce
    let yaet := sin az * ce
    let zaet := cos zdt
    let xmhda := sphi * xaet + cphi * zaet
    let ymhda := yaet
    let zmhda := -cphi * xaet + sphi * zaet
    let diurab := -ab
    let f := 1 - diurab * ymhda
    let v : Vec3 := ![f * xmhda, f * (ymhda + diurab), f * zmhda]
    let s := palDcc2s v
    store dap s.2
    store rap (palDranrm (st + s.1))
    return some ()

/-- `palPv2ue`, /repo/palPv2ue.c:114-182; the value is what is stored in *jstat. -/
noncomputable def memPv2ue (pv : ℕ) (date pmass : ℝ) (u : ℕ) : Prog ℤ := do
  let t0 := date
  if pmass < 0 then
    return -1
  else
    let cm := 1 + pmass
    let x ← load pv
    let y ← load (pv + 1)
    let z ← load (pv + 2)
    let xd := (← load (pv + 3)) / cd2s
    let yd := (← load (pv + 4)) / cd2s
    let zd := (← load (pv + 5)) / cd2s
    let r := √(x * x + y * y + z * z)
    let v2 := xd * xd + yd * yd + zd * zd
    let v := √v2
    if r < 1 / 10 ^ 3 then
      return -2
    else if v < 1 / 10 ^ 3 then
      return -3
    else
      let alpha := v2 - 2 * cm / r
      let rdv := x * xd + y * yd + z * zd
      store u cm
      store (u + 1) alpha
      store (u + 2) t0
      store (u + 3) x
      store (u + 4) y
      store (u + 5) z
      store (u + 6) xd
      store (u + 7) yd
      store (u + 8) zd
      store (u + 9) r
      store (u + 10) rdv
      store (u + 11) t0
      store (u + 12) 0
      return 0

/-- The universal elements read into local variables, /repo/palUe2pv.c:142-152 (also /repo/palPertue.c:353-355). -/
def loadUniv (u : ℕ) : Prog Univ := do
  let cm ← load u
  let alpha ← load (u + 1)
  let t0 ← load (u + 2)
  let p0 ← loadVec (u + 3)
  let v0 ← loadVec (u + 6)
  let r0 ← load (u + 9)
  let sigma0 ← load (u + 10)
  let t ← load (u + 11)
  let psi ← load (u + 12)
  return { cm := cm, alpha := alpha, t0 := t0, p0 := p0, v0 := v0, r0 := r0, sigma := sigma0, t := t, psi := psi }

/-- `palUe2pv`, /repo/palUe2pv.c:124-263: the value is what is stored in *jstat; `none` if there is a division by zero. -/
noncomputable def memUe2pv (date : ℝ) (u pv : ℕ) : Prog (Option ℤ) := do
  let e ← loadUniv u
  if e.r0 = 0 then
    return none
  else
    let psi := e.psi + (date - e.t) * gcon / e.r0
    let dt := (date - e.t0) * gcon
    match ueLoop e dt 1 psi 0 0 with
    | .fail j => return some j
    | .done psi s r =>
      if r = 0 then
        return none
      else
        let w := e.cm * s.s2
        let f := 1 - w / e.r0
        let g := dt - e.cm * s.s3
        let fd := -e.cm * s.s1 / (e.r0 * r)
        let gd := 1 - w / r
        store pv (e.p0 0 * f + e.v0 0 * g)
        store (pv + 3) (cd2s * (e.p0 0 * fd + e.v0 0 * gd))
        store (pv + 1) (e.p0 1 * f + e.v0 1 * g)
        store (pv + 4) (cd2s * (e.p0 1 * fd + e.v0 1 * gd))
        store (pv + 2) (e.p0 2 * f + e.v0 2 * g)
        store (pv + 5) (cd2s * (e.p0 2 * fd + e.v0 2 * gd))
        store (u + 11) date
        store (u + 12) psi
        return some 0

/-- `palUe2el`, /repo/palUe2el.c:212-234 (simplification: the results, which go through pointers to single variables, are returned). -/
noncomputable def memUe2el (u : ℕ) (jformr : ℤ) (el : Elems) : Prog (Option (Elems × ℤ)) := do
  let pmass := (← load u) - 1
  let date ← load (u + 2)
  let p ← loadVec (u + 3)
  let v ← loadVec (u + 6)
  return palPv2el { p := p, v := fun i => v i * cd2s } date pmass jformr el

/-- `palPertue`, /repo/palPertue.c:212-655, working on the local copy UL (lines 353-355) that is copied back at the end (lines 644-646) but not after an error. -/
noncomputable def memPertue (P : PertTheory) (date : ℝ) (u : ℕ) (up0 : Fin 8 → Univ) (pvin0 : Fin 8 → PV) (fd0 : Vec3) : Prog (Option ℤ) := do
  let ul ← loadUniv u
  match pertLoop P (decide (0 ≤ date - ul.t0)) date (pertInit date ul up0 pvin0 fd0) with
  | .error .undef => return none
  | .error .abort => return some (-1)
  | .ok s =>
    store u s.ul.cm
    store (u + 1) s.ul.alpha
    store (u + 2) s.ul.t0
    storeVec (u + 3) s.ul.p0
    storeVec (u + 6) s.ul.v0
    store (u + 9) s.ul.r0
    store (u + 10) s.ul.sigma
    store (u + 11) s.ul.t
    store (u + 12) s.ul.psi
    return some s.jstat

end Pal.Memory
