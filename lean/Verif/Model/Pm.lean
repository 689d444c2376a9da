import Verif.Model.Hip

/-!
# Proper motion: palPm

Wrapper of `eraStarpm`, modelled from ERFA's published definition (eraStarpm, eraStarpv, eraPvstar, eraS2pv; the form of eraStarpv that
combines the radial and transverse inertial velocities). `none` where the C leaves the returned position unset.
-/

namespace Pal
open Real

/-- `ERFA_DAU`, metres in an astronomical unit; constant used by the functions called from /repo/palPm.c:103. -/
noncomputable def eraDAU : ℝ := 149597870.7e3

/-- `ERFA_DC`, speed of light in au per day; constant used by the functions called from /repo/palPm.c:103. -/
noncomputable def eraDC : ℝ := 86400 / (eraDAU / 299792458)

/-- `ERFA_DR2AS`, radians to arcseconds; constant used by the functions called from /repo/palPm.c:103. -/
noncomputable def eraDR2AS : ℝ := 648000 / π

/-- `eraS2pv`, called by eraStarpv from /repo/palPm.c:103: position and velocity. -/
noncomputable def eraS2pv (theta phi r td pd rd : ℝ) : Vec3 × Vec3 :=
  let st := sin theta
  let ct := cos theta
  let sp := sin phi
  let cp := cos phi
  let rcp := r * cp
  let x := rcp * ct
  let y := rcp * st
  let rpd := r * pd
  let w := rpd * sp - cp * rd
  (![x, y, r * sp], ![-y * td - w * ct, x * td - w * st, rpd * cp + sp * rd])

/-- The loop of `eraStarpv` (called from /repo/palPm.c:103): at most `n` more passes, `i` the loop counter; the result is the pair (d, del) and `none` stands for the square root of a negative number. -/
noncomputable def starpvLoop (betsr betst : ℝ) : ℕ → ℕ → (betr bett d del od odel odd oddel : ℝ) → Option (ℝ × ℝ)
  | 0, _, _, _, d, del, _, _, _, _ => some (d, del)
  | n + 1, i, betr, bett, _, _, od, odel, odd, oddel =>
    let d := 1 + betr
    let w := betr * betr + bett * bett
    if 1 - w < 0 then none
    else
      let del := -w / (√(1 - w) + 1)
      let betr := d * betsr + del
      let bett := d * betst
      if i > 0 then
        let dd := |d - od|
        let ddel := |del - odel|
        if i > 1 ∧ dd ≥ odd ∧ ddel ≥ oddel then some (d, del)
        else starpvLoop betsr betst n (i + 1) betr bett d del d del dd ddel
      else starpvLoop betsr betst n (i + 1) betr bett d del d del odd oddel

/-- `eraStarpv`, called by eraStarpm from /repo/palPm.c:103: position (au) and inertial velocity (au per day). The warning status is not used by palPm. -/
noncomputable def eraStarpv (ra dec pmr pmd px rv : ℝ) : Option (Vec3 × Vec3) :=
  let w := if px ≥ 1e-7 then px else 1e-7
  let r := eraDR2AS / w
  let rd := 86400 * rv * 1e3 / eraDAU
  let rad := pmr / 365.25
  let decd := pmd / 365.25
  let pv := eraS2pv ra dec r rad decd rd
  let v := eraPm pv.2
  let vel : Vec3 := if v / eraDC > 0.5 then ![0, 0, 0] else pv.2
  let pu := (eraPn pv.1).2
  let vsr := eraPdp pu vel
  let usr : Vec3 := fun i => vsr * pu i
  let ust : Vec3 := fun i => vel i - usr i
  let vst := eraPm ust
  let betsr := vsr / eraDC
  let betst := vst / eraDC
  match starpvLoop betsr betst 100 0 betsr betst 0 0 0 0 0 0 with
  | none => none
  | some (d, del) =>
    let ut : Vec3 := fun i => d * ust i
    let ur : Vec3 := fun i => eraDC * (d * betsr + del) * pu i
    some (pv.1, fun i => ur i + ut i)

/-- `eraPvstar`, called by eraStarpm from /repo/palPm.c:103: the right ascension and declination only. -/
noncomputable def eraPvstar (p v : Vec3) : Option (ℝ × ℝ) :=
  let x := (eraPn p).2
  let vr := eraPdp x v
  let ur : Vec3 := fun i => vr * x i
  let ut : Vec3 := fun i => v i - ur i
  let vt := eraPm ut
  let bett := vt / eraDC
  let betr := vr / eraDC
  let d := 1 + betr
  let w := betr * betr + bett * bett
  if d = 0 ∨ w > 1 then none
  else
    let del := -w / (√(1 - w) + 1)
    let w := if betr ≠ 0 then (betr - del) / (betr * d) else 1
    let v' : Vec3 := fun i => w * ur i + 1 / d * ut i
    let s := eraPv2s p v'
    if √(p 0 * p 0 + p 1 * p 1 + p 2 * p 2) = 0 then none
    else some (eraAnp s.1.1, s.1.2)

/-- `eraStarpm`, called by /repo/palPm.c:103: the right ascension and declination only. -/
noncomputable def eraStarpm (ra1 dec1 pmr1 pmd1 px1 rv1 ep1a ep1b ep2a ep2b : ℝ) : Option (ℝ × ℝ) :=
  match eraStarpv ra1 dec1 pmr1 pmd1 px1 rv1 with
  | none => none
  | some (p, v) =>
    let tl1 := eraPm p / eraDC
    let dt := (ep2a - ep1a) + (ep2b - ep1b)
    let q : Vec3 := fun i => p i + (dt + tl1) * v i
    let r2 := eraPdp q q
    let rdv := eraPdp q v
    let v2 := eraPdp v v
    let c2mv2 := eraDC * eraDC - v2
    if c2mv2 ≤ 0 then none
    else
      let tl2 := (-rdv + √(rdv * rdv + c2mv2 * r2)) / c2mv2
      let p2 : Vec3 := fun i => p i + (dt + (tl1 - tl2)) * v i
      eraPvstar p2 v

/-- `palPm`, /repo/palPm.c:90-108. -/
noncomputable def palPm (r0 d0 pr pd px rv ep0 ep1 : ℝ) : Option (ℝ × ℝ) :=
  eraStarpm r0 d0 pr pd px rv (eraEpj2jdR ep0).1 (eraEpj2jdR ep0).2 (eraEpj2jdR ep1).1 (eraEpj2jdR ep1).2

end Pal
